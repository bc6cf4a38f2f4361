import Verif.DivLocal.PropsConsistent
import Mathlib.Tactic.FinCases

/-! # Mixed discretization: normal penalties, indices, fluxes and norms -/
namespace Verif.DivLocal

open scoped ComplexConjugate Matrix
open MaxLocal (Tensor cross dot BC Side Field bil dot_cast)

variable {d n m nL nR mL mR : Nat}

/-! ## C108: the penalty for jumps of the normal component -/

/-- A face between two elements with one constant function each, `(1, 0)`, the normal `(1, 0)` and vacuum on both sides. -/
def unitFace (weight : ℝ) : FacePoint 2 1 1 0 0 where
  weight := weight
  normal := ![1, 0]
  value := fun _ => ![1, 0]
  curl := fun _ => 0
  muL := .scalar 1
  muR := .scalar 1
  divL := .scalar 1
  divR := .scalar 1
  pvalue := Sum.elim Fin.elim0 Fin.elim0

theorem unitFace_normalPart (w : ℝ) (i : Fin 1 ⊕ Fin 1) : (unitFace w).normalPart i = sideSign i := by
  have : ∀ i, (unitFace w).div i = .scalar 1 := by intro i; cases i <;> rfl
  simp only [FacePoint.normalPart, this]
  simp [Tensor.applyDiv, dot, MaxLocal.cast, unitFace]

theorem unitFace_normalEntry (w : ℝ) (s : Stab) (h : ℝ) (r c : Fin 1 ⊕ Fin 1) : (unitFace w).normalEntry s h r c = (s.stab2 * h : ℝ) := by
  have e : ∀ i : Fin 1 ⊕ Fin 1, (sideSign i : ℂ) * conj (sideSign i : ℂ) = 1 := by intro i; cases i <;> simp [sideSign]
  simp only [FacePoint.normalEntry, unitFace_normalPart, mul_assoc, e, mul_one]
  split
  · rfl
  · rw [Complex.conj_ofReal]

/-- **C108, negation.** The interior penalty for jumps of the normal component of `ε u` is not one. There is a face and a discrete field whose normal component has no jump, and yet
for any diameter and parameter the penalty adds four times the parameter times the diameter to the form. -/
theorem normal_penalty (s : Stab) (h2 : s.flux2 = .ip) (diameter : ℝ) :
    ∃ (q : FacePoint 2 1 1 0 0) (u : Fin 1 → ℂ) (u' : Fin 1 → ℂ), q.weight = 1 ∧ q.normalJump (q.left u) (q.right u') = 0 ∧ q.jump (q.left u) (q.right u') = 0 ∧
      Sum.elim (Sum.elim u u') (Sum.elim Fin.elim0 Fin.elim0) ⬝ᵥ
          (faceMatrix true .internal s diameter [q] - faceMatrix true .internal { s with stab2 := 0 } diameter [q]) *ᵥ Sum.elim (Sum.elim u u') (Sum.elim Fin.elim0 Fin.elim0) =
        (4 * (s.stab2 * diameter) : ℝ) := by
  refine ⟨unitFace 1, fun _ => 1, fun _ => 1, rfl, ?_, ?_, ?_⟩
  · simp [FacePoint.normalJump, Tensor.applyDiv, bil, MaxLocal.FacePoint.left, MaxLocal.FacePoint.right, unitFace]
  · simp [MaxLocal.FacePoint.jump, MaxLocal.FacePoint.left, MaxLocal.FacePoint.right, unitFace]
  · have e : ∀ r c : Fin 1 ⊕ Fin 1, (faceMatrix true .internal s diameter [unitFace 1] - faceMatrix true .internal { s with stab2 := 0 } diameter [unitFace 1]) (.inl r) (.inl c) =
        ((s.stab2 * diameter : ℝ) : ℂ) := by
      intro r c
      have hf : (unitFace 1).fieldEntry true { s with stab2 := 0 } diameter r c = (unitFace 1).fieldEntry true s diameter r c := rfl
      simp only [Matrix.sub_apply, faceMatrix, Matrix.of_apply, if_true, true_or, List.map_cons, List.map_nil, List.sum_cons, List.sum_nil, add_zero, FacePoint.fieldIntegrand, hf,
        unitFace_normalEntry]
      generalize (unitFace 1).fieldEntry true s diameter r c = x
      have hw : (unitFace 1).weight = 1 := rfl
      by_cases h0 : s.stab2 = 0
      · simp [h0]
      · simp [h0, h2, hw]
    simp only [dotProduct, Matrix.mulVec, Fintype.sum_sum_type, Finset.univ_unique, Finset.sum_singleton, Sum.elim_inl, Sum.elim_inr, e, Finset.univ_eq_empty, Finset.sum_empty, add_zero]
    push_cast
    ring

/-- **C108 (partial).** Between two functions of one side, if each has normal component `c`, the penalty is right: `stab2 · diameter · c c*`. So it is on the diagonal. -/
theorem normal_penalty_partial (q : FacePoint d nL nR mL mR) (s : Stab) (diameter : ℝ) (r c : Fin nL ⊕ Fin nR) (h : q.normalPart r = q.normalPart c) :
    q.normalEntry s diameter r c = (s.stab2 * diameter : ℝ) * (q.normalPart c * conj (q.normalPart r)) := by
  simp only [FacePoint.normalEntry, h]
  split
  · ring
  · simp only [map_mul, Complex.conj_ofReal, Complex.conj_conj]; ring

/-- **C108.** The parts used in the penalty are those of the jump of the normal component of `ε u`, with the sign of the side. -/
theorem normal_penalty_jump (q : FacePoint d nL nR mL mR) (u : Fin nL → ℂ) (u' : Fin nR → ℂ) :
    ∑ i, q.normalPart i * Sum.elim u u' i = q.normalJump (q.left u) (q.right u') := by
  have e1 := bil_div_sum q.divL u (fun j => q.value (.inl j)) (MaxLocal.cast q.normal)
  have e2 := bil_div_sum q.divR u' (fun j => q.value (.inr j)) (MaxLocal.cast q.normal)
  have e3 : q.normalJump (q.left u) (q.right u') = ∑ j, bil (q.divL.applyDiv (MaxLocal.cast (q.value (.inl j)))) (MaxLocal.cast q.normal) * u j -
      ∑ j, bil (q.divR.applyDiv (MaxLocal.cast (q.value (.inr j)))) (MaxLocal.cast q.normal) * u' j := by rw [← e1, ← e2]; rfl
  rw [e3, Fintype.sum_sum_type, sub_eq_add_neg, ← Finset.sum_neg_distrib]
  congr 1
  · exact Finset.sum_congr rfl fun j _ => by
      simp only [FacePoint.normalPart, sideSign, dot_cast, Sum.elim_inl, mul_one]; rfl
  · exact Finset.sum_congr rfl fun j _ => by
      simp only [FacePoint.normalPart, sideSign, dot_cast, Sum.elim_inr, mul_neg, mul_one, neg_mul]; rfl

/-! ## C109: lifts -/

/-- The integrals over an internal face of the jump of the normal component of `ε u` times the averages of the functions of the potential. -/
noncomputable def normalLoad (points : List (FacePoint d nL nR mL mR)) (u : Fin nL → ℂ) (u' : Fin nR → ℂ) : Fin mL ⊕ Fin mR → ℂ :=
  fun i => (points.map fun q => (q.weight : ℂ) * (q.normalJump (q.left u) (q.right u') * ((q.pvalue i : ℂ) / 2))).sum

theorem normalLift_mulVec (points : List (FacePoint d nL nR mL mR)) (h : ∀ q ∈ points, q.muR = q.divR) (u : Fin nL → ℂ) (u' : Fin nR → ℂ) :
    normalLift true points *ᵥ Sum.elim u u' = normalLoad points u u' := by
  funext i
  rw [← single_one_dotProduct i (normalLift true points *ᵥ Sum.elim u u')]
  simp only [normalLift, if_true]
  rw [quad_rect]
  refine congrArg List.sum (List.map_congr_left fun q hq => ?_)
  congr 1
  rw [sum_product (1 / 2 : ℂ) (fun j => dot (q.liftedValue j) (MaxLocal.cast q.normal)) (Sum.elim u u') (fun i => (q.pvalue i : ℂ)) (Pi.single i 1)]
  have e1 := bil_div_sum q.divL u (fun j => q.value (.inl j)) (MaxLocal.cast q.normal)
  have e2 := bil_div_sum q.divR u' (fun j => q.value (.inr j)) (MaxLocal.cast q.normal)
  have e3 : q.normalJump (q.left u) (q.right u') = ∑ j, bil (q.divL.applyDiv (MaxLocal.cast (q.value (.inl j)))) (MaxLocal.cast q.normal) * u j -
      ∑ j, bil (q.divR.applyDiv (MaxLocal.cast (q.value (.inr j)))) (MaxLocal.cast q.normal) * u' j := by rw [← e1, ← e2]; rfl
  have e4 : ∑ j, dot (q.liftedValue j) (MaxLocal.cast q.normal) * Sum.elim u u' j = q.normalJump (q.left u) (q.right u') := by
    rw [e3, Fintype.sum_sum_type, sub_eq_add_neg, ← Finset.sum_neg_distrib]
    congr 1
    · exact Finset.sum_congr rfl fun j _ => by simp only [FacePoint.liftedValue, dot_cast, Sum.elim_inl]
    · refine Finset.sum_congr rfl fun j _ => ?_
      simp only [FacePoint.liftedValue, dot_cast, Sum.elim_inr, h q hq]
      rw [show (fun k => -q.divR.applyDiv (MaxLocal.cast (q.value (.inr j))) k) = -q.divR.applyDiv (MaxLocal.cast (q.value (.inr j))) from rfl, MaxLocal.bil_neg_left]
      ring
  have e5 : ∑ j, (Pi.single i (1 : ℂ) : Fin mL ⊕ Fin mR → ℂ) j * (q.pvalue j : ℂ) = (q.pvalue i : ℂ) := single_one_dotProduct i fun j => (q.pvalue j : ℂ)
  rw [e4, e5]
  ring

/-- **C109 (partial).** The term of the Brezzi flux for normal jumps is the parameter times the product of the lifts of the jumps, if on the right the tensor for the curl is that
for the divergence. -/
theorem normal_lift_partial (stab2 : ℝ) (b : Neighbours d nL nR mL mR) (P : Matrix (Fin mL ⊕ Fin mR) (Fin mL ⊕ Fin mR) ℂ) (hP : P * Pᵀ = scalarMass b) (hu : IsUnit P.det)
    (points : List (FacePoint d nL nR mL mR)) (h : ∀ q ∈ points, q.muR = q.divR) (u v : Fin nL → ℂ) (u' v' : Fin nR → ℂ) :
    Sum.elim v v' ⬝ᵥ normalTerm true stab2 P points *ᵥ Sum.elim u u' = stab2 * (normalLoad points v v' ⬝ᵥ (scalarMass b)⁻¹ *ᵥ normalLoad points u u') := by
  rw [normalTerm, Matrix.smul_mulVec, dotProduct_smul, factor_product P _ _ hP hu, normalLift_mulVec points h, normalLift_mulVec points h, smul_eq_mul]

/-- **C109, negation.** Between vacuum and a dielectric with `ε = 2` a field with a continuous normal component of `ε u` has a lift that is not zero. -/
theorem normal_lift_material : ∃ (q : FacePoint 2 1 1 1 1) (u u' : Fin 1 → ℂ), q.muL = .scalar 1 ∧ q.muR = .scalar 1 ∧ q.divL = .scalar 1 ∧ q.divR = .scalar 2 ∧
    q.normalJump (q.left u) (q.right u') = 0 ∧ normalLift true [q] *ᵥ Sum.elim u u' ≠ 0 := by
  refine ⟨{ unitFace 1 with divR := .scalar 2, pvalue := fun _ => 1 }, fun _ => 2, fun _ => 1, rfl, rfl, rfl, rfl, ?_, fun h => ?_⟩
  · simp [FacePoint.normalJump, Tensor.applyDiv, bil, MaxLocal.FacePoint.left, MaxLocal.FacePoint.right, unitFace]
  · have := congrFun h (.inl 0)
    simp [normalLift, Matrix.mulVec, dotProduct, FacePoint.liftedValue, Tensor.applyDiv, dot, MaxLocal.cast, unitFace] at this
    norm_num at this

/-- **C109, negation.** The number of faces of the element on the right has no part in the terms for the tangential jumps. -/
theorem right_faces_ignored (internal : Bool) (stab1 : ℝ) (b : Neighbours d nL nR mL mR) (k : Nat) (L : Matrix (Fin nL ⊕ Fin nR) (Fin nL ⊕ Fin nR) ℂ) (points : List (FacePoint d nL nR mL mR)) :
    tangentialTerm internal stab1 { b with facesR := k } L points = tangentialTerm internal stab1 b L points := rfl

/-- **C109.** A matrix for one unknown goes where the functions are in the face: those of the field and of the potential of the left element, then those of the right element. No
two functions go to one place. -/
theorem distribute_layout (vector : Bool) (i : Nat) :
    (vector = true → i < nL → distributeIndex nL nR mL vector i = i) ∧ (vector = true → distributeIndex nL nR mL vector (nL + i) = (nL + mL) + i) ∧
    (vector = false → i < mL → distributeIndex nL nR mL vector i = nL + i) ∧ (vector = false → distributeIndex nL nR mL vector (mL + i) = (nL + mL + nR) + i) := by
  refine ⟨?_, ?_, ?_, ?_⟩
  all_goals rintro rfl; simp only [distributeIndex]
  · intro h; simp [h]
  · simp; omega
  · intro h; simp [h]; omega
  · simp; omega

theorem distribute_injective (vector vector' : Bool) (i i' : Nat) (h : i < if vector then nL + nR else mL + mR) (h' : i' < if vector' then nL + nR else mL + mR)
    (e : distributeIndex nL nR mL vector i = distributeIndex nL nR mL vector' i') : vector = vector' ∧ i = i' := by
  cases vector <;> cases vector' <;> simp only [distributeIndex, Bool.false_eq_true, if_false, if_true, true_and, false_and] at * <;> (repeat' split at e) <;>
    first | omega | (refine ⟨?_, ?_⟩ <;> omega) | skip
  all_goals omega

/-! ## C110: fluxes and norms -/

theorem mapM_finRange_some {k : Nat} (f : Fin k → Option ℂ) (g : Fin k → ℂ) (h : ∀ i, f i = some (g i)) : (List.finRange k).mapM f = some ((List.finRange k).map g) := by
  have : ∀ l : List (Fin k), l.mapM f = some (l.map g) := by
    intro l
    induction l with
    | nil => rfl
    | cons a l ih => rw [List.mapM_cons, ih, h]; rfl
  exact this _

/-- **C110 (partial).** On a boundary face the energy fluxes are those of the first discretization for the coefficients of the field. -/
theorem energyFluxes_boundary_partial (u : Fin nL → ℂ) (p : Fin mL → ℂ) (points : List (FacePoint d nL 0 mL 0 × Option ((Fin d → ℂ) × (Fin d → ℂ)))) (side : Side) (wavenumber : ℝ)
    (permeability : Side → ℝ) : energyFluxes false (List.ofFn u ++ List.ofFn p) points side wavenumber permeability =
      some (MaxLocal.energyFluxes false (Sum.elim u Fin.elim0) (points.map fun q => (q.1.toFacePoint, q.2)) side wavenumber permeability) := by
  have h1 : (List.finRange nL).mapM (fun (i : Fin nL) => fluxCoefficient nL mL (List.ofFn u ++ List.ofFn p) i) = some ((List.finRange nL).map u) :=
    mapM_finRange_some _ _ fun i => by
      simp only [fluxCoefficient, if_pos i.2]
      rw [List.getElem?_append_left (by simp), List.getElem?_ofFn]
      simp
  have h2 : (List.finRange 0).mapM (fun (i : Fin 0) => fluxCoefficient nL mL (List.ofFn u ++ List.ofFn p) (nL + i)) = some [] := by simp
  have e1 : (fun i : Fin nL => ((List.finRange nL).map u).getD i 0) = u := by funext i; simp [List.getD_eq_getElem?_getD]
  have e2 : (fun i : Fin 0 => ([] : List ℂ).getD i 0) = Fin.elim0 := by funext i; exact i.elim0
  have key : ∀ F : (Fin nL ⊕ Fin 0 → ℂ) → Fin 4 → ℝ, (do
      let left ← (List.finRange nL).mapM fun (i : Fin nL) => fluxCoefficient nL mL (List.ofFn u ++ List.ofFn p) i
      let right ← (List.finRange 0).mapM fun (i : Fin 0) => fluxCoefficient nL mL (List.ofFn u ++ List.ofFn p) (nL + i)
      return F (Sum.elim (fun i => left.getD i 0) fun i => right.getD i 0)) = some (F (Sum.elim u Fin.elim0)) := by
    intro F
    rw [h1, h2]
    simp only [Option.bind_eq_bind, Option.bind_some, e1, e2, Option.pure_def]
  exact key fun x => MaxLocal.energyFluxes false x (points.map fun q => (q.1.toFacePoint, q.2)) side wavenumber permeability

/-- **C110, negation.** On an internal face the coefficients on the right are read beyond the vector, whenever the right element has a function for the field and fewer functions for
the potential than the left element has for the field. -/
theorem energyFluxes_internal (coefficients : List ℂ) (hlen : coefficients.length = nL + mL + nR + mR) (hR : 0 < nR) (hm : mR < nL)
    (points : List (FacePoint d nL nR mL mR × Option ((Fin d → ℂ) × (Fin d → ℂ)))) (side : Side) (wavenumber : ℝ) (permeability : Side → ℝ) :
    energyFluxes true coefficients points side wavenumber permeability = none := by
  have h0 : fluxCoefficient nL mL coefficients (nL + (nR - 1)) = none := by
    simp only [fluxCoefficient]
    rw [if_neg (by omega), List.getElem?_eq_none (by omega)]
  have key : ∀ l : List (Fin nR), (⟨nR - 1, by omega⟩ : Fin nR) ∈ l → l.mapM (fun (i : Fin nR) => fluxCoefficient nL mL coefficients (nL + i)) = none := by
    intro l
    induction l with
    | nil => intro h; cases h
    | cons a l ih =>
      intro h
      rw [List.mapM_cons]
      rcases List.mem_cons.1 h with h | h
      · rw [← h, h0]; rfl
      · rw [ih h]
        cases fluxCoefficient nL mL coefficients (nL + a) <;> rfl
  unfold energyFluxes
  rw [key _ (List.mem_finRange _)]
  cases (List.finRange nL).mapM (fun (i : Fin nL) => fluxCoefficient nL mL coefficients i) <;> rfl

/-- **C110, negation.** Also if the index is in range it is that of a wrong function: the function `i` of the field on the right is at `nL + mL + i`, and the code reads what is `nL`
places further. -/
theorem fluxCoefficient_shift (coefficients : List ℂ) (i : Nat) : fluxCoefficient nL mL coefficients (nL + i) = coefficients[nL + mL + i + nL]? := by
  simp only [fluxCoefficient]
  rw [if_neg (by omega)]
  congr 1
  omega

/-- **C110 (partial).** On the left the integral is that of the square of the field, times the tensor that undoes the scaling in layers. -/
theorem fieldL2_left_partial (points : List (FacePoint d nL nR mL mR × Tensor)) (u : Fin nL → ℂ) (rest : List ℂ) :
    fieldL2Integral points (List.ofFn u ++ rest) .left = some (points.map fun q => q.1.weight * ∑ k, Complex.normSq (q.2.applyDiv (q.1.left u).value k)).sum := by
  have ht : ∀ q : FacePoint d nL nR mL mR, (List.range nL).mapM (fun i => (q.basisFunction (i + 0)).bind fun phi => ((List.ofFn u ++ rest)[i + 0]?).bind fun c =>
      some (fun k => c * (phi k : ℂ))) = some ((List.finRange nL).map fun i => fun k => u i * (q.value (.inl i) k : ℂ)) := by
    intro q
    rw [← List.map_coe_finRange_eq_range, List.mapM_map]
    have : ∀ l : List (Fin nL), l.mapM ((fun i => (q.basisFunction (i + 0)).bind fun phi => ((List.ofFn u ++ rest)[i + 0]?).bind fun c => some (fun k => c * (phi k : ℂ))) ∘ fun i : Fin nL => (i : Nat)) =
        some (l.map fun i => fun k => u i * (q.value (.inl i) k : ℂ)) := by
      intro l
      induction l with
      | nil => rfl
      | cons a l ih =>
        rw [List.mapM_cons, ih]
        have e : (List.ofFn u ++ rest)[(a : Nat)]? = some (u a) := by
          rw [List.getElem?_append_left (by simp), List.getElem?_ofFn]; simp
        simp [FacePoint.basisFunction, e]
    exact this _
  unfold fieldL2Integral
  simp only [if_true, Option.bind_eq_bind, Option.pure_def, ht, Option.bind_some]
  have hs : ∀ q : FacePoint d nL nR mL mR, ((List.finRange nL).map fun i => fun k => u i * (q.value (.inl i) k : ℂ)).sum = (q.left u).value := by
    intro q
    rw [← Fin.sum_univ_def]
    funext k
    simp [MaxLocal.FacePoint.left]
  simp only [hs]
  have : ∀ l : List (FacePoint d nL nR mL mR × Tensor), l.mapM (fun q => some (q.1.weight * ∑ k, Complex.normSq (q.2.applyDiv (q.1.left u).value k))) =
      some (l.map fun q => q.1.weight * ∑ k, Complex.normSq (q.2.applyDiv (q.1.left u).value k)) := by
    intro l
    induction l with
    | nil => rfl
    | cons a l ih => rw [List.mapM_cons, ih]; rfl
  rw [this, Option.bind_some]

/-- **C110, negation.** On the right a function is asked for that the face does not have, whenever the left element has a function for the potential. -/
theorem fieldL2_right (points : List (FacePoint d nL nR mL mR × Tensor)) (hp : points ≠ []) (coefficients : List ℂ) (hR : 0 < nR) (hm : 0 < mL) :
    fieldL2Integral points coefficients .right = none := by
  have h0 : ∀ q : FacePoint d nL nR mL mR, (List.range nR).mapM (fun i => (q.basisFunction (i + (nL + mL))).bind fun phi => (coefficients[i + (nL + mL)]?).bind fun c =>
      some (fun k => c * (phi k : ℂ))) = (none : Option (List (Fin d → ℂ))) := by
    intro q
    have key : ∀ l : List Nat, nR - 1 ∈ l → l.mapM (fun i => (q.basisFunction (i + (nL + mL))).bind fun phi => (coefficients[i + (nL + mL)]?).bind fun c =>
        some (fun k => c * (phi k : ℂ))) = (none : Option (List (Fin d → ℂ))) := by
      intro l
      induction l with
      | nil => intro h; cases h
      | cons a l ih =>
        intro h
        rw [List.mapM_cons]
        rcases List.mem_cons.1 h with h | h
        · have : q.basisFunction (a + (nL + mL)) = none := by
            unfold FacePoint.basisFunction
            rw [dif_neg (by omega), dif_neg (by omega)]
          rw [this]; rfl
        · rw [ih h]
          cases ((q.basisFunction (a + (nL + mL))).bind fun phi => (coefficients[a + (nL + mL)]?).bind fun c => some (fun k => c * (phi k : ℂ))) <;> rfl
    exact key _ (List.mem_range.2 (by omega))
  unfold fieldL2Integral
  simp only [reduceCtorEq, if_false, Option.bind_eq_bind, Option.pure_def, h0, Option.bind_none]
  cases points with
  | nil => exact absurd rfl hp
  | cons a l => rw [List.mapM_cons]; rfl

/-! ## Concrete cases -/

/-- A boundary face with one function `(1, 1)`, normal `(1, 0)`. -/
def cornerFace : FacePoint 2 1 0 0 0 where
  weight := 1
  normal := ![1, 0]
  value := fun _ => ![1, 1]
  curl := fun _ => 0
  muL := .scalar 1
  muR := .scalar 1
  divL := .scalar 1
  divR := .scalar 1
  pvalue := Sum.elim Fin.elim0 Fin.elim0

/-- An element with one point of weight one half, so that the mass matrix is one. -/
noncomputable def cornerElement : ElementPoint 2 1 0 where
  weight := 1 / 2
  value := fun _ => ![1, 1]
  curl := fun _ => 0
  div := .scalar 1
  mu := .scalar 1
  pvalue := Fin.elim0
  pgrad := Fin.elim0

/-- The elements beside it; `faces` is the number of faces. -/
noncomputable def cornerNeighbours (faces : Nat) : Neighbours 2 1 0 0 0 := ⟨[cornerElement], [], faces, 0⟩

theorem corner_mass (faces : Nat) : vectorMass (cornerNeighbours faces) = 1 := by
  ext i j
  rcases i with i | i
  · rcases j with j | j
    · have : i = j := Subsingleton.elim _ _
      subst this
      simp [vectorMass, cornerNeighbours, cornerElement, dot, MaxLocal.cast]
      norm_num
    · exact j.elim0
  · exact i.elim0

/-- **C106, negation.** With `flux1 = IP` and `flux3 = BREZZI` a discrete field that is the exact one leaves a residual on a wall, with any parameters: the face has a regular mass
matrix, meets all conditions, and has no flux through it. -/
theorem mixed_flux_example (s : Stab) (h1 : 0 ≤ s.stab1) (hip : s.flux1 = .ip) (hB : s.hasFlux .brezzi = true) (faces : Nat) (hf : 0 < faces) (omega z : ℝ) :
    let face : ExactFace 2 (fun _ => 1) (fun _ => 0) := .boundary 0 .dirichlet 1 z (cornerNeighbours faces) 1 1 [(cornerFace, cornerFace.leftOf (fun _ => 1) Fin.elim0)]
    face.Regular ∧ face.Continuous ∧ face.Matches (fun _ _ => 1) (fun _ => Fin.elim0) ∧ face.curlFlux (fun _ _ => 1) = 0 ∧
      face.residual s omega (fun _ _ => 1) (fun _ _ => 1) (fun _ => Fin.elim0) (fun _ => Fin.elim0) ≠ some 0 := by
  intro face
  have hmass := corner_mass faces
  have hr : face.Regular := ⟨one_pos, by rw [hmass]; simp, by simp⟩
  have hc : face.Continuous := ⟨by decide, by
    intro q hq
    rw [List.mem_singleton] at hq
    subst hq
    simp [FacePoint.leftOf]⟩
  have hm : face.Matches (fun _ _ => 1) (fun _ => Fin.elim0) := by
    intro q hq
    rw [List.mem_singleton] at hq
    subst hq
    exact ⟨rfl, rfl⟩
  have hcf : face.curlFlux (fun _ _ => 1) = 0 := by
    simp [face, ExactFace.curlFlux, FacePoint.leftOf, MaxLocal.FacePoint.left, cornerFace, Tensor.applyCurl, bil]
  refine ⟨hr, hc, hm, hcf, ?_⟩
  have key := mixed_flux_load (dofs := fun _ => 1) (pots := fun _ => 0) s h1 omega (fun _ _ => 1) (fun _ _ => 1) (fun _ => Fin.elim0) (fun _ => Fin.elim0) 0 .dirichlet 1 z (cornerNeighbours faces) 1 1
    [(cornerFace, cornerFace.leftOf (fun _ => 1) Fin.elim0)] hr hc
  have hload : load false [(cornerFace, cross cornerFace.outward (cornerFace.left fun _ => 1).value)] = fun _ => 1 := by
    funext i
    simp [load, cornerFace, bil, cross, MaxLocal.FacePoint.outward, MaxLocal.FacePoint.left, MaxLocal.cast]
  have hl : liftForm false (cornerNeighbours faces) [(cornerFace, cross cornerFace.outward (cornerFace.left fun _ => 1).value)]
      [(cornerFace, cross cornerFace.outward (cornerFace.left fun _ => 1).value)] = 1 := by
    rw [liftForm, hload, hmass, inv_one, Matrix.one_mulVec]
    simp [dotProduct]
  have herr := error_zero s omega (fun _ _ => 1) (fun _ _ => 1) (fun _ => Fin.elim0) (fun _ => Fin.elim0) face hm
  have hdf : face.divFlux (fun _ => Fin.elim0) = 0 := by simp [face, ExactFace.divFlux, FacePoint.leftOf]
  intro h
  have h' := key.symm.trans h
  rw [if_pos ⟨hB, hip, rfl⟩] at h'
  have h'' := Option.some.inj h'
  simp only [List.map_cons, List.map_nil] at h''
  rw [show (ExactFace.boundary 0 .dirichlet 1 z (cornerNeighbours faces) 1 1 [(cornerFace, cornerFace.leftOf (fun _ => 1) Fin.elim0)] : ExactFace 2 (fun _ => 1) (fun _ => 0)) = face from rfl,
    herr, hcf, hdf, show (cornerFace.leftOf (fun _ => 1) Fin.elim0).field = cornerFace.left fun _ => 1 from rfl, hl] at h''
  have hre := congrArg Complex.re h''
  simp [cornerNeighbours] at hre
  have : (0 : ℝ) < faces := by exact_mod_cast hf
  linarith

/-- A wall with the flux of Brezzi meets all conditions of `exact_solves_partial`. -/
example (faces : Nat) (omega z : ℝ) :
    let s : Stab := ⟨5, 0, 5, .brezzi, .brezzi, .brezzi⟩
    let face : ExactFace 2 (fun _ => 1) (fun _ => 0) := .boundary 0 .dirichlet 1 z (cornerNeighbours faces) 1 1 [(cornerFace, cornerFace.leftOf (fun _ => 1) Fin.elim0)]
    let elements : Nat → List (ElementPoint 2 1 0 × Exact 2) := fun _ => [(cornerElement, ⟨cornerElement.mixed (fun _ => 1) Fin.elim0, 0, 0, fun _ => -(omega : ℂ) ^ 2⟩)]
    ∀ v : Nat → Fin 1 → ℂ, ∃ res : List ℂ, [face].mapM (ExactFace.residual s omega (fun _ _ => 1) v (fun _ => Fin.elim0) (fun _ => Fin.elim0)) = some res ∧
      ∑ e : Fin 1, elementResidual omega (fun _ => 1) (v e) Fin.elim0 Fin.elim0 (elements e) + res.sum = 0 := by
  intro s face elements v
  refine exact_solves_partial (dofs := fun _ => 1) (pots := fun _ => 0) s rfl (fun _ => rfl) (by norm_num [s]) omega 1 elements [face] ⟨fun w => ?_, fun r => ?_⟩ ?_ ?_ ?_ (fun _ _ => 1) (fun _ => Fin.elim0) ?_ ?_ v
    (fun _ => Fin.elim0)
  · simp [elements, face, ExactFace.curlFlux, ElementPoint.mixed, MaxLocal.ElementPoint.field, cornerElement, FacePoint.leftOf, MaxLocal.FacePoint.left, cornerFace, Tensor.applyCurl, bil]
  · simp [elements, face, ExactFace.divFlux, ElementPoint.mixed, FacePoint.leftOf, bil]
  · intro e q hq
    simp only [elements, List.mem_singleton] at hq
    subst hq
    refine ⟨?_, rfl⟩
    funext k
    fin_cases k <;> simp [ElementPoint.mixed, MaxLocal.ElementPoint.field, cornerElement, Tensor.applyDiv, Tensor.adjoint]
  · intro f hf
    rw [List.mem_singleton] at hf
    subst hf
    exact ⟨one_pos, by rw [corner_mass]; simp, by simp⟩
  · intro f hf
    rw [List.mem_singleton] at hf
    subst hf
    refine ⟨by decide, ?_⟩
    intro q hq
    rw [List.mem_singleton] at hq
    subst hq
    simp [FacePoint.leftOf]
  · intro e _ q hq
    simp only [elements, List.mem_singleton] at hq
    subst hq
    rfl
  · intro f hf
    rw [List.mem_singleton] at hf
    subst hf
    intro q hq
    rw [List.mem_singleton] at hq
    subst hq
    exact ⟨rfl, rfl⟩

end Verif.DivLocal
