import Verif.DivLocal.Spec
import Verif.MaxLocal.Props
import Verif.MaxLocal.PropsMatrix
import Mathlib.Tactic.FieldSimp

/-! # Mixed discretization: lemmas -/
set_option linter.all false

namespace Verif.DivLocal

open scoped ComplexConjugate Matrix
open MaxLocal (Tensor cross dot BC Side Field bil dot_cast bil_sum_left bil_sum_right bil_sum bil_smul_left bil_smul_right bil_add_left bil_add_right bil_sub_left bil_sub_right
  star_bil star_applyDiv star_cast map_sum_smul divMap sum_cast_value bil_zero_left bil_zero_right)

variable {d n m nL nR mL mR : Nat}

theorem block_dot {α β : Type} [Fintype α] [Fintype β] (M : Matrix (α ⊕ β) (α ⊕ β) ℂ) (u v : α → ℂ) (p q : β → ℂ) :
    Sum.elim v q ⬝ᵥ M *ᵥ Sum.elim u p = v ⬝ᵥ M.toBlocks₁₁ *ᵥ u + v ⬝ᵥ M.toBlocks₁₂ *ᵥ p + (q ⬝ᵥ M.toBlocks₂₁ *ᵥ u + q ⬝ᵥ M.toBlocks₂₂ *ᵥ p) := by
  conv_lhs => rw [← Matrix.fromBlocks_toBlocks M]
  rw [Matrix.fromBlocks_mulVec, sumElim_dotProduct_sumElim, dotProduct_add, dotProduct_add]
  rfl

theorem quad_rect {ι κ α : Type} [Fintype ι] [Fintype κ] (l : List α) (w : α → ℂ) (f : α → κ → ι → ℂ) (u : ι → ℂ) (v : κ → ℂ) :
    v ⬝ᵥ ((Matrix.of fun j i => (l.map fun q => w q * f q j i).sum : Matrix κ ι ℂ) *ᵥ u) = (l.map fun q => w q * ∑ j, v j * ∑ i, f q j i * u i).sum := by
  simp only [Matrix.mulVec, dotProduct, Matrix.of_apply]
  induction l with
  | nil => simp
  | cons q l ih =>
    simp only [List.map_cons, List.sum_cons, ← ih, add_mul, Finset.sum_add_distrib, mul_add]
    congr 1
    simp only [Finset.mul_sum]
    exact Finset.sum_congr rfl fun j _ => Finset.sum_congr rfl fun i _ => by ring

theorem adjoint_adjoint (T : Tensor) : T.adjoint.adjoint = T := by cases T <;> simp [Tensor.adjoint]

theorem conj_normal (T : Tensor) (x y : Fin d → ℝ) : conj (bil (T.applyDiv (MaxLocal.cast x)) (MaxLocal.cast y)) = bil (T.adjoint.applyDiv (MaxLocal.cast x)) (MaxLocal.cast y) := by
  rw [star_bil, star_applyDiv, star_cast, star_cast]

/-- The product of `T a` with a fixed vector for a discrete field. -/
theorem bil_div_sum {ι : Type} [Fintype ι] (T : Tensor) (u : ι → ℂ) (x : ι → Fin d → ℝ) (c : Fin d → ℂ) :
    bil (T.applyDiv (fun k => ∑ i, u i * (x i k : ℂ))) c = ∑ i, bil (T.applyDiv (MaxLocal.cast (x i))) c * u i := by
  rw [sum_cast_value]
  have h := map_sum_smul (divMap T) u fun i => MaxLocal.cast (x i)
  simp only [divMap, LinearMap.coe_mk, AddHom.coe_mk] at h
  rw [h, bil_sum_left]

/-- A sum of products of sums. -/
theorem sum_product {ι κ : Type} [Fintype ι] [Fintype κ] (c : ℂ) (a u : ι → ℂ) (b v : κ → ℂ) :
    ∑ j, v j * ∑ i, c * a i * b j * u i = c * (∑ i, a i * u i) * ∑ j, v j * b j := by
  rw [Finset.mul_sum]
  refine Finset.sum_congr rfl fun j _ => ?_
  rw [Finset.mul_sum, Finset.mul_sum, Finset.sum_mul]
  exact Finset.sum_congr rfl fun i _ => by ring

theorem sum_product' {ι κ : Type} [Fintype ι] [Fintype κ] (c : ℂ) (a v : ι → ℂ) (b u : κ → ℂ) :
    ∑ i, v i * ∑ j, c * a i * b j * u j = c * (∑ i, a i * v i) * ∑ j, u j * b j := by
  rw [mul_assoc, Finset.sum_mul, Finset.mul_sum]
  refine Finset.sum_congr rfl fun j _ => ?_
  rw [Finset.mul_sum, Finset.mul_sum, Finset.mul_sum]
  exact Finset.sum_congr rfl fun i _ => by ring

/-! ## Elements -/

theorem blocks_element (points : List (ElementPoint d n m)) (c : ℂ) :
    (stiffnessMatrix points - c • massMatrix points).toBlocks₁₂ = (Matrix.of fun i j => (points.map fun q => (q.weight : ℂ) * conj (q.coupling i j)).sum) ∧
    (stiffnessMatrix points - c • massMatrix points).toBlocks₂₁ = (Matrix.of fun j i => (points.map fun q => (q.weight : ℂ) * q.coupling i j).sum) ∧
    (stiffnessMatrix points - c • massMatrix points).toBlocks₂₂ = 0 := by
  refine ⟨?_, ?_, ?_⟩ <;> ext i j <;> simp [Matrix.toBlocks₁₂, Matrix.toBlocks₂₁, Matrix.toBlocks₂₂, stiffnessMatrix, massMatrix]

theorem block11_element (points : List (ElementPoint d n m)) (c : ℂ) :
    (stiffnessMatrix points - c • massMatrix points).toBlocks₁₁ =
    MaxLocal.stiffnessMatrix (points.map fun q => q.toElementPoint) - c • MaxLocal.massMatrix (points.map fun q => q.toElementPoint) := by
  ext i j
  simp only [Matrix.toBlocks₁₁, Matrix.of_apply, Matrix.sub_apply, Matrix.smul_apply, stiffnessMatrix, massMatrix, MaxLocal.massMatrix, MaxLocal.stiffnessMatrix, List.map_map,
    Function.comp_def]
  congr 1
  refine congrArg List.sum (List.map_congr_left fun q _ => ?_)
  rw [dot_cast, dot_cast, MaxLocal.bil_applyCurl, MaxLocal.bil_comm]

theorem coupling_eq (q : ElementPoint d n m) (i : Fin n) (j : Fin m) :
    q.coupling i j = -bil (q.div.applyDiv (MaxLocal.cast (q.value i))) (MaxLocal.cast (q.pgrad j)) := by
  rw [ElementPoint.coupling, dot_cast, show (fun k => -q.div.applyDiv (MaxLocal.cast (q.value i)) k) = -q.div.applyDiv (MaxLocal.cast (q.value i)) from rfl, MaxLocal.bil_neg_left]

theorem coupling_sum (q : ElementPoint d n m) (u : Fin n → ℂ) (r : Fin m → ℂ) :
    ∑ j, r j * ∑ i, q.coupling i j * u i = -bil (q.div.applyDiv (q.field u).value) (fun k => ∑ j, r j * (q.pgrad j k : ℂ)) := by
  simp only [coupling_eq, MaxLocal.ElementPoint.field]
  rw [bil_div_sum, sum_cast_value]
  simp only [bil_sum_right, Finset.sum_mul, ← Finset.sum_neg_distrib, Finset.mul_sum]
  rw [Finset.sum_comm]
  exact Finset.sum_congr rfl fun i _ => Finset.sum_congr rfl fun j _ => by ring

theorem coupling_conj_sum (q : ElementPoint d n m) (v : Fin n → ℂ) (p : Fin m → ℂ) :
    ∑ i, v i * ∑ j, conj (q.coupling i j) * p j = -bil (q.div.adjoint.applyDiv (q.field v).value) (fun k => ∑ j, p j * (q.pgrad j k : ℂ)) := by
  simp only [coupling_eq, map_neg, conj_normal, MaxLocal.ElementPoint.field]
  rw [bil_div_sum, sum_cast_value]
  simp only [bil_sum_right, Finset.sum_mul, ← Finset.sum_neg_distrib, Finset.mul_sum]
  exact Finset.sum_congr rfl fun i _ => Finset.sum_congr rfl fun j _ => by ring

/-! ## Faces -/

/-- The sum of normal components. -/
theorem normal_sum (q : FacePoint d nL nR mL mR) (u : Fin nL ⊕ Fin nR → ℂ) :
    ∑ i, dot ((q.div i).applyDiv (MaxLocal.cast (q.value i))) (MaxLocal.cast q.normal) * u i =
    bil (q.divL.applyDiv (q.left fun i => u (.inl i)).value) q.outward + bil (q.divR.applyDiv (q.right fun i => u (.inr i)).value) q.outward := by
  rw [Fintype.sum_sum_type]
  simp only [MaxLocal.FacePoint.left, MaxLocal.FacePoint.right, bil_div_sum, dot_cast, FacePoint.div]
  rfl

theorem normal_conj_sum (q : FacePoint d nL nR mL mR) (u : Fin nL ⊕ Fin nR → ℂ) :
    ∑ i, conj (dot ((q.div i).applyDiv (MaxLocal.cast (q.value i))) (MaxLocal.cast q.normal)) * u i =
    bil (q.divL.adjoint.applyDiv (q.left fun i => u (.inl i)).value) q.outward + bil (q.divR.adjoint.applyDiv (q.right fun i => u (.inr i)).value) q.outward := by
  rw [Fintype.sum_sum_type]
  simp only [MaxLocal.FacePoint.left, MaxLocal.FacePoint.right, bil_div_sum, dot_cast, FacePoint.div, conj_normal]
  rfl

theorem sign_sum (q : FacePoint d nL nR mL mR) (p : Fin mL ⊕ Fin mR → ℂ) :
    ∑ j, p j * ((q.pvalue j * normalSign j : ℝ) : ℂ) = ∑ j, p (.inl j) * (q.pvalue (.inl j) : ℂ) - ∑ j, p (.inr j) * (q.pvalue (.inr j) : ℂ) := by
  rw [Fintype.sum_sum_type, sub_eq_add_neg, ← Finset.sum_neg_distrib]
  simp [normalSign]

/-- The average factor. -/
noncomputable def avg (internal : Bool) : ℂ := if internal then 1 / 2 else 1

theorem avg_conj (internal : Bool) : conj (avg internal) = avg internal := by unfold avg; split <;> simp [map_ofNat]

theorem face_coupling_sum (q : FacePoint d nL nR mL mR) (internal : Bool) (u : Fin nL ⊕ Fin nR → ℂ) (r : Fin mL ⊕ Fin mR → ℂ) :
    ∑ j, r j * ∑ i, q.coupling internal i j * u i = avg internal *
      (bil (q.divL.applyDiv (q.left fun i => u (.inl i)).value) q.outward + bil (q.divR.applyDiv (q.right fun i => u (.inr i)).value) q.outward) *
      (∑ j, r (.inl j) * (q.pvalue (.inl j) : ℂ) - ∑ j, r (.inr j) * (q.pvalue (.inr j) : ℂ)) := by
  rw [← normal_sum, ← sign_sum]
  exact sum_product _ _ _ _ _

theorem face_coupling_conj_sum (q : FacePoint d nL nR mL mR) (internal : Bool) (v : Fin nL ⊕ Fin nR → ℂ) (p : Fin mL ⊕ Fin mR → ℂ) :
    ∑ i, v i * ∑ j, conj (q.coupling internal i j) * p j = avg internal *
      (bil (q.divL.adjoint.applyDiv (q.left fun i => v (.inl i)).value) q.outward + bil (q.divR.adjoint.applyDiv (q.right fun i => v (.inr i)).value) q.outward) *
      (∑ j, p (.inl j) * (q.pvalue (.inl j) : ℂ) - ∑ j, p (.inr j) * (q.pvalue (.inr j) : ℂ)) := by
  rw [← normal_conj_sum, ← sign_sum, ← sum_product']
  refine Finset.sum_congr rfl fun i _ => congrArg _ (Finset.sum_congr rfl fun j _ => congrArg (· * p j) ?_)
  simp only [FacePoint.coupling, map_mul, Complex.conj_ofReal]
  rw [show (if internal = true then (1 / 2 : ℂ) else 1) = avg internal from rfl, avg_conj]

theorem potential_sum (q : FacePoint d nL nR mL mR) (s : Stab) (diameter : ℝ) (p r : Fin mL ⊕ Fin mR → ℂ) :
    ∑ i, r i * ∑ j, q.potentialEntry s diameter i j * p j = -(s.ip3 diameter * ((∑ j, p (.inl j) * (q.pvalue (.inl j) : ℂ) - ∑ j, p (.inr j) * (q.pvalue (.inr j) : ℂ)) *
      (∑ j, r (.inl j) * (q.pvalue (.inl j) : ℂ) - ∑ j, r (.inr j) * (q.pvalue (.inr j) : ℂ)))) := by
  rw [← sign_sum, ← sign_sum]
  have := sum_product' (-(s.ip3 diameter : ℂ)) (fun i => ((q.pvalue i * normalSign i : ℝ) : ℂ)) r (fun j => ((q.pvalue j * normalSign j : ℝ) : ℂ)) p
  refine Eq.trans (Finset.sum_congr rfl fun i _ => congrArg _ (Finset.sum_congr rfl fun j _ => congrArg (· * p j) ?_)) (this.trans ?_)
  · simp only [FacePoint.potentialEntry, Stab.ip3]
    split <;> push_cast <;> ring
  · have : ∀ a b : Fin mL ⊕ Fin mR → ℂ, ∑ i, a i * b i = ∑ i, b i * a i := fun a b => Finset.sum_congr rfl fun i _ => mul_comm _ _
    rw [this (fun i => ((q.pvalue i * normalSign i : ℝ) : ℂ)) r]
    ring

theorem fieldEntry_eq (q : FacePoint d nL nR mL mR) (internal : Bool) (s : Stab) (diameter : ℝ) (j i : Fin nL ⊕ Fin nR) :
    q.fieldEntry internal s diameter j i = q.toFacePoint.entry internal (s.ip1 diameter) j i := by
  simp only [FacePoint.fieldEntry, MaxLocal.FacePoint.entry, Stab.ip1]
  have : (if internal = true then (-1 / 2 : ℂ) else -1) = -(if internal = true then 1 / 2 else 1) := by split <;> ring
  rw [this]
  split <;> simp

theorem blocks_face (internal : Bool) (bc : BC) (s : Stab) (diameter : ℝ) (points : List (FacePoint d nL nR mL mR)) :
    (faceMatrix internal bc s diameter points).toBlocks₁₂ = (Matrix.of fun i j => (points.map fun q => (q.weight : ℂ) * conj (q.coupling internal i j)).sum) ∧
    (faceMatrix internal bc s diameter points).toBlocks₂₁ = (Matrix.of fun j i => (points.map fun q => (q.weight : ℂ) * q.coupling internal i j).sum) ∧
    (faceMatrix internal bc s diameter points).toBlocks₂₂ = (Matrix.of fun i j => (points.map fun q => (q.weight : ℂ) * q.potentialEntry s diameter i j).sum) :=
  ⟨rfl, rfl, rfl⟩

theorem block11_face (internal : Bool) (bc : BC) (s : Stab) (diameter : ℝ) (hd : diameter ≠ 0) (points : List (FacePoint d nL nR mL mR)) (h2 : s.flux2 = .ip → s.stab2 = 0) :
    (faceMatrix internal bc s diameter points).toBlocks₁₁ =
    MaxLocal.faceMatrix internal bc (s.ip1 diameter * diameter) diameter (points.map fun q => q.toFacePoint) := by
  have e : ∀ q : FacePoint d nL nR mL mR, ∀ r c, q.fieldIntegrand internal s diameter r c = q.toFacePoint.entry internal (s.ip1 diameter * diameter / diameter) r c := by
    intro q r c
    rw [FacePoint.fieldIntegrand, if_neg (fun h => h.2.2 (h2 h.2.1)), add_zero, fieldEntry_eq, mul_div_assoc, div_self hd, mul_one]
  ext r c
  simp only [Matrix.toBlocks₁₁, Matrix.of_apply, faceMatrix, MaxLocal.faceMatrix, e]
  cases internal <;> cases bc <;> simp [BC.natural, Function.comp_def]

theorem blocks_impedance (internal : Bool) (bc : BC) (z : ℝ) (points : List (FacePoint d nL nR mL mR)) :
    impedanceMatrix internal bc z points = Matrix.fromBlocks (MaxLocal.impedanceMatrix internal bc z (points.map fun q => q.toFacePoint)) 0 0 0 := by
  ext r c
  rcases r with r | r <;> rcases c with c | c <;> cases internal <;> cases bc <;> simp [impedanceMatrix, MaxLocal.impedanceMatrix, Function.comp_def]

end Verif.DivLocal
