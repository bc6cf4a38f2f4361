import Verif.DivLocal.Lemmas

/-! # Mixed discretization: lemmas about lifts -/
set_option linter.all false

namespace Verif.DivLocal

open scoped ComplexConjugate Matrix
open MaxLocal (Tensor cross dot BC Side Field bil dot_cast bil_sum_left bil_sum_right bil_sum bil_smul_left bil_smul_right bil_add_left bil_add_right bil_sub_left bil_sub_right
  star_bil star_applyDiv star_cast map_sum_smul divMap sum_cast_value bil_zero_left bil_zero_right)

variable {d n m nL nR mL mR : Nat}

theorem vectorMass_form (b : Neighbours d nL nR mL mR) (r w : Fin nL ⊕ Fin nR → ℂ) : w ⬝ᵥ vectorMass b *ᵥ r = fieldProduct b r w := by
  have e : vectorMass b = Matrix.fromBlocks (Matrix.of fun i j => (b.left.map fun q => (q.weight : ℂ) * dot (MaxLocal.cast (q.value i)) (MaxLocal.cast (q.value j))).sum) 0 0
      (Matrix.of fun i j => (b.right.map fun q => (q.weight : ℂ) * dot (MaxLocal.cast (q.value i)) (MaxLocal.cast (q.value j))).sum) := by
    ext i j; rcases i with i | i <;> rcases j with j | j <;> rfl
  have hw : w = Sum.elim (fun i => w (.inl i)) (fun i => w (.inr i)) := by ext i; rcases i with i | i <;> rfl
  have hr : r = Sum.elim (fun i => r (.inl i)) (fun i => r (.inr i)) := by ext i; rcases i with i | i <;> rfl
  rw [e]
  conv_lhs => rw [hw, hr]
  rw [Matrix.fromBlocks_mulVec, sumElim_dotProduct_sumElim]
  simp only [Matrix.zero_mulVec, add_zero, zero_add, Sum.elim_comp_inl, Sum.elim_comp_inr]
  have key : ∀ {k k' : Nat} (l : List (ElementPoint d k k')) (r w : Fin k → ℂ),
      w ⬝ᵥ (Matrix.of fun i j => (l.map fun q => (q.weight : ℂ) * dot (MaxLocal.cast (q.value i)) (MaxLocal.cast (q.value j))).sum) *ᵥ r =
      (l.map fun q => (q.weight : ℂ) * bil (q.field r).value (q.field w).value).sum := by
    intro k k' l r w
    rw [quad_rect]
    refine congrArg List.sum (List.map_congr_left fun q _ => congrArg _ ?_)
    simp only [MaxLocal.ElementPoint.field, sum_cast_value, bil_sum, dot_cast]
    exact Finset.sum_congr rfl fun j _ => congrArg _ (Finset.sum_congr rfl fun i _ => congrArg (· * r i) (MaxLocal.bil_comm _ _))
  exact congrArg₂ (· + ·) (key b.left _ _) (key b.right _ _)

theorem vectorMass_symm (b : Neighbours d nL nR mL mR) : (vectorMass b)ᵀ = vectorMass b := by
  ext i j
  rcases i with i | i <;> rcases j with j | j <;> simp only [vectorMass, Matrix.transpose_apply, Matrix.of_apply, dot_cast]
  · exact congrArg List.sum (List.map_congr_left fun q _ => by rw [MaxLocal.bil_comm])
  · exact congrArg List.sum (List.map_congr_left fun q _ => by rw [MaxLocal.bil_comm])

theorem meanValue_eq (q : FacePoint d nL nR mL mR) (internal : Bool) (w : Fin nL ⊕ Fin nR → ℂ) :
    q.meanValue internal w = ∑ i, w i • ((if internal then (1 / 2 : ℂ) else 1) • MaxLocal.cast (q.value i)) := by
  rw [FacePoint.meanValue, Fintype.sum_sum_type]
  simp only [MaxLocal.FacePoint.left, MaxLocal.FacePoint.right, sum_cast_value, smul_add, Finset.smul_sum, smul_comm (if internal = true then (1 / 2 : ℂ) else 1)]

theorem load_dot (internal : Bool) (points : List (FacePoint d nL nR mL mR × (Fin d → ℂ))) (w : Fin nL ⊕ Fin nR → ℂ) :
    w ⬝ᵥ load internal points = (points.map fun q => (q.1.weight : ℂ) * bil q.2 (q.1.meanValue internal w)).sum := by
  unfold load
  rw [MaxLocal.quad_dot]
  exact congrArg List.sum (List.map_congr_left fun q _ => congrArg _ (by rw [meanValue_eq, bil_sum_right]))

theorem IsLift.load_eq {internal : Bool} {b : Neighbours d nL nR mL mR} {points : List (FacePoint d nL nR mL mR × (Fin d → ℂ))} {r : Fin nL ⊕ Fin nR → ℂ}
    (h : IsLift internal b points r) : vectorMass b *ᵥ r = load internal points := by
  funext i
  have := h (Pi.single i 1)
  rwa [← load_dot, ← vectorMass_form, single_one_dotProduct, single_one_dotProduct] at this

/-- The load of a combination. -/
theorem vectorLift_mulVec (internal : Bool) (points : List (FacePoint d nL nR mL mR)) (u : Fin nL ⊕ Fin nR → ℂ) :
    vectorLift internal points *ᵥ u = load internal (points.map fun q => (q, ∑ i, u i • MaxLocal.cast (q.normalCross i))) := by
  funext i
  rw [← single_one_dotProduct i (vectorLift internal points *ᵥ u), vectorLift, quad_rect, load, List.map_map]
  refine congrArg List.sum (List.map_congr_left fun q _ => ?_)
  simp only [Function.comp]
  refine congrArg _ ?_
  rw [show (∑ j, (Pi.single i (1 : ℂ) : Fin nL ⊕ Fin nR → ℂ) j * ∑ k, (if internal = true then (1 / 2 : ℂ) else 1) * dot (MaxLocal.cast (q.normalCross k)) (MaxLocal.cast (q.value j)) * u k) =
    ∑ k, (if internal = true then (1 / 2 : ℂ) else 1) * dot (MaxLocal.cast (q.normalCross k)) (MaxLocal.cast (q.value i)) * u k from single_one_dotProduct i _]
  rw [bil_smul_right, bil_sum_left, Finset.mul_sum]
  exact Finset.sum_congr rfl fun k _ => by rw [dot_cast]; ring

theorem scalarLift_mulVec (internal : Bool) (points : List (FacePoint d nL nR mL mR)) (p : Fin mL ⊕ Fin mR → ℂ) :
    scalarLift internal points *ᵥ p = load internal (points.map fun q => (q, (∑ j, p j * ((q.pvalue j * normalSign j : ℝ) : ℂ)) • q.outward)) := by
  funext i
  rw [← single_one_dotProduct i (scalarLift internal points *ᵥ p), scalarLift, quad_rect, load, List.map_map]
  refine congrArg List.sum (List.map_congr_left fun q _ => ?_)
  simp only [Function.comp]
  refine congrArg _ ?_
  rw [show (∑ j, (Pi.single i (1 : ℂ) : Fin nL ⊕ Fin nR → ℂ) j * ∑ k, ((q.pvalue k * normalSign k : ℝ) : ℂ) * (if internal = true then (1 / 2 : ℂ) else 1) *
      dot (MaxLocal.cast q.normal) (MaxLocal.cast (q.value j)) * p k) =
    ∑ k, ((q.pvalue k * normalSign k : ℝ) : ℂ) * (if internal = true then (1 / 2 : ℂ) else 1) * dot (MaxLocal.cast q.normal) (MaxLocal.cast (q.value i)) * p k from
      single_one_dotProduct i _]
  rw [bil_smul_right, bil_smul_left, Finset.sum_mul, Finset.mul_sum]
  exact Finset.sum_congr rfl fun k _ => by rw [dot_cast, show MaxLocal.cast q.normal = q.outward from rfl]; ring

/-- The product of a factor with its transpose. -/
theorem factor_product {ι κ : Type} [Fintype ι] [DecidableEq ι] [Fintype κ] (L M : Matrix ι ι ℂ) (R : Matrix ι κ ℂ) (h : L * Lᵀ = M) (hL : IsUnit L.det) (u v : κ → ℂ) :
    v ⬝ᵥ ((L⁻¹ * R)ᵀ * (L⁻¹ * R)) *ᵥ u = (R *ᵥ v) ⬝ᵥ M⁻¹ *ᵥ (R *ᵥ u) := by
  have hM : M⁻¹ = L⁻¹ᵀ * L⁻¹ := by rw [← h, Matrix.mul_inv_rev, ← Matrix.transpose_nonsing_inv]
  simp only [hM, Matrix.transpose_mul, ← Matrix.mulVec_mulVec]
  rw [Matrix.dotProduct_mulVec v, Matrix.vecMul_transpose]

end Verif.DivLocal
