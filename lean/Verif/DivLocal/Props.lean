import Verif.DivLocal.LemmasLift
import Mathlib.Tactic.Linarith

/-! # Mixed discretization: the forms and consistency -/
namespace Verif.DivLocal

open scoped ComplexConjugate Matrix
open MaxLocal (Tensor cross dot BC Side Field bil dot_cast bil_sum_left bil_sum_right bil_sum bil_smul_left bil_smul_right bil_add_left bil_add_right bil_sub_left bil_sub_right
  sum_cast_value bil_zero_left bil_zero_right)

variable {d n m nL nR mL mR : Nat}

/-- **C106.** The matrices of an element are the forms of the mixed method. -/
theorem element_form (omega : ℝ) (points : List (ElementPoint d n m)) (u v : Fin n → ℂ) (p r : Fin m → ℂ) :
    Sum.elim v r ⬝ᵥ (stiffnessMatrix points - ((omega : ℂ) ^ 2) • massMatrix points) *ᵥ Sum.elim u p =
    (points.map fun q => (q.weight : ℂ) * q.mixedForm omega (q.mixed u p) (q.mixed v r)).sum := by
  obtain ⟨b12, b21, b22⟩ := blocks_element points ((omega : ℂ) ^ 2)
  rw [block_dot, b12, b21, b22, block11_element, MaxLocal.element_form, quad_rect, quad_rect, Matrix.zero_mulVec, dotProduct_zero, add_zero, List.map_map, ← List.sum_map_add,
    ← List.sum_map_add]
  refine congrArg List.sum (List.map_congr_left fun q _ => ?_)
  simp only [Function.comp, coupling_sum, coupling_conj_sum, ElementPoint.mixedForm, ElementPoint.mixed]
  ring

/-- **C106 (partial).** The matrix of an internal face without the Brezzi flux is the form of the mixed method. The penalty for normal jumps is off: see `normal_penalty`. -/
theorem internal_form_partial (s : Stab) (h2 : s.flux2 = .ip → s.stab2 = 0) (diameter : ℝ) (hd : 0 < diameter) (points : List (FacePoint d nL nR mL mR))
    (u v : Fin nL → ℂ) (u' v' : Fin nR → ℂ) (p r : Fin mL → ℂ) (p' r' : Fin mR → ℂ) :
    Sum.elim (Sum.elim v v') (Sum.elim r r') ⬝ᵥ faceMatrix true .internal s diameter points *ᵥ Sum.elim (Sum.elim u u') (Sum.elim p p') =
    (points.map fun q => (q.weight : ℂ) * q.mixedInterior (s.ip1 diameter) (s.ip3 diameter) (q.leftOf u p) (q.rightOf u' p') (q.leftOf v r) (q.rightOf v' r')).sum := by
  obtain ⟨b12, b21, b22⟩ := blocks_face true .internal s diameter points
  rw [block_dot, b12, b21, b22, block11_face true .internal s diameter hd.ne' points h2, MaxLocal.internal_form, quad_rect, quad_rect, quad_rect, List.map_map, ← List.sum_map_add,
    ← List.sum_map_add, ← List.sum_map_add]
  refine congrArg List.sum (List.map_congr_left fun q _ => ?_)
  simp only [Function.comp, face_coupling_sum, face_coupling_conj_sum, potential_sum, FacePoint.mixedInterior, FacePoint.leftOf, FacePoint.rightOf, Sum.elim_inl, Sum.elim_inr, avg,
    if_true, FacePoint.normalAverage, FacePoint.adjointAverage, mul_div_assoc, div_self hd.ne', mul_one]
  ring

/-- **C106.** The same for a boundary face of any type. -/
theorem boundary_form (bc : BC) (hbc : bc ≠ .internal) (s : Stab) (diameter omega z : ℝ) (hd : 0 < diameter) (points : List (FacePoint d nL 0 mL 0))
    (u v : Fin nL → ℂ) (p r : Fin mL → ℂ) :
    Sum.elim (Sum.elim v Fin.elim0) (Sum.elim r Fin.elim0) ⬝ᵥ (faceMatrix false bc s diameter points + (omega : ℂ) • impedanceMatrix false bc z points) *ᵥ
      Sum.elim (Sum.elim u Fin.elim0) (Sum.elim p Fin.elim0) =
    (points.map fun q => (q.weight : ℂ) * q.mixedBoundary bc (s.ip1 diameter) (s.ip3 diameter) omega z (q.leftOf u p) (q.leftOf v r)).sum := by
  have hb : ∀ (i : Fin nL ⊕ Fin 0) (j : Fin nL ⊕ Fin 0), ∀ q : FacePoint d nL 0 mL 0, q.fieldIntegrand false s diameter i j = q.toFacePoint.entry false (s.ip1 diameter * diameter / diameter) i j := by
    intro i j q
    rw [FacePoint.fieldIntegrand, if_neg (by simp), add_zero, fieldEntry_eq, mul_div_assoc, div_self hd.ne', mul_one]
  have h11 : (faceMatrix false bc s diameter points).toBlocks₁₁ = MaxLocal.faceMatrix false bc (s.ip1 diameter * diameter) diameter (points.map fun q => q.toFacePoint) := by
    ext i j
    simp only [Matrix.toBlocks₁₁, Matrix.of_apply, faceMatrix, MaxLocal.faceMatrix, hb]
    cases bc <;> simp [BC.natural, Function.comp_def]
  obtain ⟨b12, b21, b22⟩ := blocks_face false bc s diameter points
  rw [Matrix.add_mulVec, dotProduct_add, block_dot, b12, b21, b22, h11, blocks_impedance, Matrix.smul_mulVec, Matrix.fromBlocks_mulVec, dotProduct_smul, sumElim_dotProduct_sumElim]
  simp only [Matrix.zero_mulVec, add_zero, dotProduct_zero, Sum.elim_comp_inl]
  have := MaxLocal.boundary_form bc hbc (s.ip1 diameter * diameter) diameter omega z (points.map fun q => q.toFacePoint) u v
  rw [Matrix.add_mulVec, dotProduct_add, Matrix.smul_mulVec, dotProduct_smul] at this
  rw [show ∀ a b c d e : ℂ, a + b + (c + d) + e = (a + e) + b + (c + d) from fun a b c d e => by ring, this, quad_rect, quad_rect, quad_rect, List.map_map, ← List.sum_map_add, ← List.sum_map_add, ← List.sum_map_add]
  refine congrArg List.sum (List.map_congr_left fun q _ => ?_)
  have z0 : ∀ T : Tensor, T.applyDiv (fun _ : Fin d => (0 : ℂ)) = 0 := fun T => (MaxLocal.divMap T).map_zero
  simp only [Function.comp, face_coupling_sum, face_coupling_conj_sum, potential_sum, FacePoint.mixedBoundary, FacePoint.leftOf, MaxLocal.FacePoint.right, Sum.elim_inl, Sum.elim_inr, avg,
    Bool.false_eq_true, if_false, Finset.univ_eq_empty, Finset.sum_empty, z0, bil_zero_left, mul_div_assoc, div_self hd.ne', mul_one]
  ring

/-- **C109.** What `liftForm` is: the integral of the product of the two lifts. -/
theorem liftForm_eq (internal : Bool) (b : Neighbours d nL nR mL mR) (hM : IsUnit (vectorMass b).det) (g h : List (FacePoint d nL nR mL mR × (Fin d → ℂ))) (rg rh : Fin nL ⊕ Fin nR → ℂ)
    (h1 : IsLift internal b g rg) (h2 : IsLift internal b h rh) : liftForm internal b g h = fieldProduct b rg rh := by
  rw [liftForm, ← h1.load_eq, ← h2.load_eq, Matrix.mulVec_mulVec, Matrix.nonsing_inv_mul _ hM, Matrix.one_mulVec, ← vectorMass_form, Matrix.dotProduct_mulVec,
    ← Matrix.mulVec_transpose, vectorMass_symm]

/-- **C109.** The term of the Brezzi flux for the tangential part on an internal face: lifts of the jumps, times the parameter plus the number of faces of the left element. -/
theorem tangential_lift (stab1 : ℝ) (hs : 0 ≤ stab1) (b : Neighbours d nL nR mL mR) (L : Matrix (Fin nL ⊕ Fin nR) (Fin nL ⊕ Fin nR) ℂ) (hL : L * Lᵀ = vectorMass b) (hu : IsUnit L.det)
    (points : List (FacePoint d nL nR mL mR)) :
    ∃ T, tangentialTerm true stab1 b L points = some T ∧ ∀ (u v : Fin nL → ℂ) (u' v' : Fin nR → ℂ),
      Sum.elim v v' ⬝ᵥ T *ᵥ Sum.elim u u' = (stab1 + b.facesL) * liftForm true b (points.map fun q => (q, q.jump (q.left u) (q.right u')))
        (points.map fun q => (q, q.jump (q.left v) (q.right v'))) := by
  have h0 : 0 ≤ stab1 + (b.facesL : ℝ) := by positivity
  have e : tangentialTerm true stab1 b L points = some (((stab1 + b.facesL : ℝ) : ℂ) • ((L⁻¹ * vectorLift true points)ᵀ * (L⁻¹ * vectorLift true points))) := by
    simp only [tangentialTerm, if_true, true_and, or_self, if_neg (not_lt.2 h0)]
    congr 1
    have : (Matrix.of fun i (j : Fin nL ⊕ Fin nR) => (L⁻¹ * vectorLift true points) i j *
        columnFactor (Real.sqrt (stab1 + b.facesL)) (Real.sqrt (stab1 + b.facesL)) j) =
        ((Real.sqrt (stab1 + b.facesL) : ℝ) : ℂ) • (L⁻¹ * vectorLift true points) := by
      ext i j; rcases j with j | j <;> simp [columnFactor, mul_comm]
    rw [this, Matrix.transpose_smul, Matrix.smul_mul, Matrix.mul_smul, smul_smul, ← Complex.ofReal_mul, Real.mul_self_sqrt h0]
  refine ⟨_, e, fun u v u' v' => ?_⟩
  rw [Matrix.smul_mulVec, dotProduct_smul, factor_product L _ _ hL hu, vectorLift_mulVec, vectorLift_mulVec, liftForm, smul_eq_mul]
  simp only [MaxLocal.jump_eq]
  push_cast; rfl

/-- **C109.** The same on the boundary. -/
theorem tangential_lift_boundary (stab1 : ℝ) (hs : 0 ≤ stab1) (b : Neighbours d nL 0 mL 0) (L : Matrix (Fin nL ⊕ Fin 0) (Fin nL ⊕ Fin 0) ℂ) (hL : L * Lᵀ = vectorMass b) (hu : IsUnit L.det)
    (points : List (FacePoint d nL 0 mL 0)) :
    ∃ T, tangentialTerm false stab1 b L points = some T ∧ ∀ (u v : Fin nL → ℂ),
      Sum.elim v Fin.elim0 ⬝ᵥ T *ᵥ Sum.elim u Fin.elim0 = (stab1 + b.facesL) * liftForm false b (points.map fun q => (q, cross q.outward (q.left u).value))
        (points.map fun q => (q, cross q.outward (q.left v).value)) := by
  have h0 : 0 ≤ stab1 + (b.facesL : ℝ) := by positivity
  have e : tangentialTerm false stab1 b L points = some (((stab1 + b.facesL : ℝ) : ℂ) • ((L⁻¹ * vectorLift false points)ᵀ * (L⁻¹ * vectorLift false points))) := by
    simp only [tangentialTerm, Bool.false_eq_true, if_false, false_and, or_false, if_neg (not_lt.2 h0)]
    congr 1
    have : (Matrix.of fun i (j : Fin nL ⊕ Fin 0) => (L⁻¹ * vectorLift false points) i j *
        columnFactor (Real.sqrt (stab1 + b.facesL)) 1 j) =
        ((Real.sqrt (stab1 + b.facesL) : ℝ) : ℂ) • (L⁻¹ * vectorLift false points) := by
      ext i j; rcases j with j | j
      · simp [columnFactor, mul_comm]
      · exact j.elim0
    rw [this, Matrix.transpose_smul, Matrix.smul_mul, Matrix.mul_smul, smul_smul, ← Complex.ofReal_mul, Real.mul_self_sqrt h0]
  refine ⟨_, e, fun u v => ?_⟩
  rw [Matrix.smul_mulVec, dotProduct_smul, factor_product L _ _ hL hu, vectorLift_mulVec, vectorLift_mulVec, liftForm, smul_eq_mul]
  simp only [MaxLocal.tangent_eq]
  push_cast; rfl

/-- **C109.** The term of the Brezzi flux for the potential: minus the parameter times the product of the lifts of the jumps, along the normal. -/
theorem scalar_lift (internal : Bool) (stab3 : ℝ) (b : Neighbours d nL nR mL mR) (L : Matrix (Fin nL ⊕ Fin nR) (Fin nL ⊕ Fin nR) ℂ) (hL : L * Lᵀ = vectorMass b) (hu : IsUnit L.det)
    (points : List (FacePoint d nL nR mL mR)) (p r : Fin mL → ℂ) (p' r' : Fin mR → ℂ) :
    Sum.elim r r' ⬝ᵥ scalarTerm internal stab3 L points *ᵥ Sum.elim p p' = -(stab3 * liftForm internal b
      (points.map fun q => (q, ((q.leftOf 0 p).p - (q.rightOf 0 p').p) • q.outward)) (points.map fun q => (q, ((q.leftOf 0 r).p - (q.rightOf 0 r').p) • q.outward))) := by
  rw [scalarTerm, Matrix.smul_mulVec, dotProduct_smul, factor_product L _ _ hL hu, scalarLift_mulVec, scalarLift_mulVec, liftForm, smul_eq_mul]
  simp only [sign_sum, FacePoint.leftOf, FacePoint.rightOf, Sum.elim_inl, Sum.elim_inr]
  ring

end Verif.DivLocal
