import Verif.DivLocal.Props

/-! # Mixed discretization: consistency -/
namespace Verif.DivLocal

open scoped ComplexConjugate Matrix
open MaxLocal (Tensor cross dot BC Side Field bil dot_cast bil_sum_left bil_sum_right bil_sum bil_smul_left bil_smul_right bil_add_left bil_add_right bil_sub_left bil_sub_right
  sum_cast_value bil_zero_left bil_zero_right)

variable {d n m nL nR mL mR : Nat}

/-! ## Lemmas -/

theorem load_sub {α : Type} (internal : Bool) (l : List α) (a : α → FacePoint d nL nR mL mR) (g h : α → Fin d → ℂ) :
    load internal (l.map fun q => (a q, g q - h q)) = load internal (l.map fun q => (a q, g q)) - load internal (l.map fun q => (a q, h q)) := by
  funext i
  simp only [load, List.map_map, Pi.sub_apply, MaxLocal.sum_map_sub]
  exact congrArg List.sum (List.map_congr_left fun q _ => by simp only [Function.comp, bil_sub_left]; ring)

theorem liftForm_sub {α : Type} (internal : Bool) (b : Neighbours d nL nR mL mR) (l : List α) (a : α → FacePoint d nL nR mL mR) (g h : α → Fin d → ℂ)
    (w : List (FacePoint d nL nR mL mR × (Fin d → ℂ))) :
    liftForm internal b (l.map fun q => (a q, g q - h q)) w = liftForm internal b (l.map fun q => (a q, g q)) w - liftForm internal b (l.map fun q => (a q, h q)) w := by
  simp only [liftForm, load_sub, Matrix.mulVec_sub, dotProduct_sub]

theorem cross_sub (x a b : Fin d → ℂ) : cross x (a - b) = cross x a - cross x b := (MaxLocal.crossMap x).map_sub a b

theorem applyDiv_sub (T : Tensor) (a b : Fin d → ℂ) : T.applyDiv (a - b) = T.applyDiv a - T.applyDiv b := (MaxLocal.divMap T).map_sub a b

theorem mixedInterior_sub (q : FacePoint d nL nR mL mR) (s1 s3 : ℝ) (uL uR eL eR vL vR : Mixed d) :
    q.mixedInterior s1 s3 (uL.sub eL) (uR.sub eR) vL vR = q.mixedInterior s1 s3 uL uR vL vR - q.mixedInterior s1 s3 eL eR vL vR := by
  simp only [FacePoint.mixedInterior, Mixed.sub, MaxLocal.interior_sub, FacePoint.normalAverage]
  simp only [Field.sub, applyDiv_sub, bil_sub_left]
  ring

theorem mixedBoundary_sub (q : FacePoint d nL nR mL mR) (bc : BC) (s1 s3 omega z : ℝ) (u e v : Mixed d) :
    q.mixedBoundary bc s1 s3 omega z (u.sub e) v = q.mixedBoundary bc s1 s3 omega z u v - q.mixedBoundary bc s1 s3 omega z e v := by
  simp only [FacePoint.mixedBoundary, Mixed.sub, MaxLocal.boundary_sub]
  simp only [Field.sub, applyDiv_sub, bil_sub_left]
  ring

/-- The matrix of an internal face with all terms. -/
theorem full_internal (s : Stab) (h2 : s.stab2 = 0) (h1 : 0 ≤ s.stab1) (diameter : ℝ) (hd : 0 < diameter) (b : Neighbours d nL nR mL mR)
    (L : Matrix (Fin nL ⊕ Fin nR) (Fin nL ⊕ Fin nR) ℂ) (hL : L * Lᵀ = vectorMass b) (hu : IsUnit L.det)
    (P : Matrix (Fin mL ⊕ Fin mR) (Fin mL ⊕ Fin mR) ℂ) (points : List (FacePoint d nL nR mL mR)) :
    ∃ A, fullFaceMatrix true .internal s diameter b L P points = some A ∧ ∀ (u v : Fin nL → ℂ) (u' v' : Fin nR → ℂ) (p r : Fin mL → ℂ) (p' r' : Fin mR → ℂ),
      Sum.elim (Sum.elim v v') (Sum.elim r r') ⬝ᵥ A *ᵥ Sum.elim (Sum.elim u u') (Sum.elim p p') =
      (points.map fun q => (q.weight : ℂ) * q.mixedInterior (s.ip1 diameter) (s.ip3 diameter) (q.leftOf u p) (q.rightOf u' p') (q.leftOf v r) (q.rightOf v' r')).sum +
      (if s.flux1 = .brezzi then (s.stab1 + b.facesL) * liftForm true b (points.map fun q => (q, q.jump (q.left u) (q.right u'))) (points.map fun q => (q, q.jump (q.left v) (q.right v')))
        else 0) -
      (if s.flux3 = .brezzi then s.stab3 * liftForm true b (points.map fun q => (q, ((q.leftOf u p).p - (q.rightOf u' p').p) • q.outward))
        (points.map fun q => (q, ((q.leftOf v r).p - (q.rightOf v' r').p) • q.outward)) else 0) := by
  obtain ⟨T, hT, hf⟩ := tangential_lift s.stab1 h1 b L hL hu points
  have hn : normalTerm true s.stab2 P points = 0 := by simp [normalTerm, h2]
  have hb : brezziMatrix true .internal s b L P points = some (Matrix.fromBlocks (if s.flux1 = .brezzi then T else 0) 0 0 (if s.flux3 = .brezzi then scalarTerm true s.stab3 L points else 0)) := by
    unfold brezziMatrix
    cases e1 : s.flux1 <;> simp [hT, hn]
  by_cases hB : s.hasFlux .brezzi
  · refine ⟨faceMatrix true .internal s diameter points + Matrix.fromBlocks (if s.flux1 = .brezzi then T else 0) 0 0 (if s.flux3 = .brezzi then scalarTerm true s.stab3 L points else 0),
      by simp [fullFaceMatrix, hB, hb], ?_⟩
    intro u v u' v' p r p' r'
    rw [Matrix.add_mulVec, dotProduct_add, internal_form_partial s (fun _ => h2) diameter hd, Matrix.fromBlocks_mulVec, sumElim_dotProduct_sumElim]
    simp only [Matrix.zero_mulVec, add_zero, zero_add, Sum.elim_comp_inl, Sum.elim_comp_inr]
    rw [← hf u v u' v', add_sub_assoc, sub_eq_add_neg]
    congr 2
    · split
      · rfl
      · simp
    · split
      · rw [scalar_lift true s.stab3 b L hL hu]; rfl
      · simp
  · have e1 : s.flux1 ≠ .brezzi ∧ s.flux3 ≠ .brezzi := by
      simp only [Stab.hasFlux, Bool.or_eq_true, decide_eq_true_eq, not_or] at hB
      exact ⟨hB.1.1, hB.2⟩
    refine ⟨faceMatrix true .internal s diameter points, by simp [fullFaceMatrix, hB], ?_⟩
    intro u v u' v' p r p' r'
    rw [internal_form_partial s (fun _ => h2) diameter hd, if_neg e1.1, if_neg e1.2, add_zero, sub_zero]

/-- The matrix of a boundary face with all terms. -/
theorem full_boundary (s : Stab) (h1 : 0 ≤ s.stab1) (bc : BC) (hbc : bc ≠ .internal) (diameter omega z : ℝ) (hd : 0 < diameter) (b : Neighbours d nL 0 mL 0)
    (L : Matrix (Fin nL ⊕ Fin 0) (Fin nL ⊕ Fin 0) ℂ) (hL : L * Lᵀ = vectorMass b) (hu : IsUnit L.det)
    (P : Matrix (Fin mL ⊕ Fin 0) (Fin mL ⊕ Fin 0) ℂ) (points : List (FacePoint d nL 0 mL 0)) :
    ∃ A, fullFaceMatrix false bc s diameter b L P points = some A ∧ ∀ (u v : Fin nL → ℂ) (p r : Fin mL → ℂ),
      Sum.elim (Sum.elim v Fin.elim0) (Sum.elim r Fin.elim0) ⬝ᵥ (A + (omega : ℂ) • impedanceMatrix false bc z points) *ᵥ Sum.elim (Sum.elim u Fin.elim0) (Sum.elim p Fin.elim0) =
      (points.map fun q => (q.weight : ℂ) * q.mixedBoundary bc (s.ip1 diameter) (s.ip3 diameter) omega z (q.leftOf u p) (q.leftOf v r)).sum +
      (if s.flux1 = .brezzi ∧ bc = .dirichlet then (s.stab1 + b.facesL) * liftForm false b (points.map fun q => (q, cross q.outward (q.left u).value))
        (points.map fun q => (q, cross q.outward (q.left v).value)) else 0) -
      (if s.flux3 = .brezzi then s.stab3 * liftForm false b (points.map fun q => (q, (q.leftOf u p).p • q.outward)) (points.map fun q => (q, (q.leftOf v r).p • q.outward)) else 0) := by
  obtain ⟨T, hT, hf⟩ := tangential_lift_boundary s.stab1 h1 b L hL hu points
  have hb : brezziMatrix false bc s b L P points = some (Matrix.fromBlocks (if s.flux1 = .brezzi ∧ bc = .dirichlet then T else 0) 0 0
      (if s.flux3 = .brezzi then scalarTerm false s.stab3 L points else 0)) := by
    unfold brezziMatrix
    cases e1 : s.flux1 <;> cases e3 : s.flux3 <;> cases bc <;> simp [BC.natural, hT] at hbc ⊢
  have hp : ∀ (p r : Fin mL → ℂ), Sum.elim r Fin.elim0 ⬝ᵥ scalarTerm false s.stab3 L points *ᵥ Sum.elim p Fin.elim0 = -(s.stab3 * liftForm false b
      (points.map fun q => (q, (q.leftOf 0 p).p • q.outward)) (points.map fun q => (q, (q.leftOf 0 r).p • q.outward))) := by
    intro p r
    rw [scalar_lift false s.stab3 b L hL hu]
    simp [FacePoint.rightOf]
  by_cases hB : s.hasFlux .brezzi
  · refine ⟨faceMatrix false bc s diameter points + Matrix.fromBlocks (if s.flux1 = .brezzi ∧ bc = .dirichlet then T else 0) 0 0
      (if s.flux3 = .brezzi then scalarTerm false s.stab3 L points else 0), by simp [fullFaceMatrix, hB, hb], ?_⟩
    intro u v p r
    rw [add_right_comm, Matrix.add_mulVec, dotProduct_add, boundary_form bc hbc s diameter omega z hd, Matrix.fromBlocks_mulVec, sumElim_dotProduct_sumElim]
    simp only [Matrix.zero_mulVec, add_zero, zero_add, Sum.elim_comp_inl, Sum.elim_comp_inr]
    rw [← hf u v, add_sub_assoc, sub_eq_add_neg]
    congr 2
    · split
      · rfl
      · simp
    · split
      · rw [hp]; rfl
      · simp
  · have e1 : s.flux1 ≠ .brezzi ∧ s.flux3 ≠ .brezzi := by
      simp only [Stab.hasFlux, Bool.or_eq_true, decide_eq_true_eq, not_or] at hB
      exact ⟨hB.1.1, hB.2⟩
    refine ⟨faceMatrix false bc s diameter points, by simp [fullFaceMatrix, hB], ?_⟩
    intro u v p r
    rw [boundary_form bc hbc s diameter omega z hd, if_neg (fun h => e1.1 h.1), if_neg e1.2, add_zero, sub_zero]

/-- The boundary values of an exact field and what the vector gives. -/
theorem boundary_load (bc : BC) (hbc : bc ≠ .internal) (stab diameter omega z : ℝ) (points : List (MaxLocal.FacePoint d nL 0 × Field d)) :
    ∃ g : MaxLocal.FacePoint d nL 0 → Field d → Fin d → ℂ, (∀ q e, MaxLocal.exactBoundary bc omega z q e.value e.curl = some (g q e)) ∧
      (bc = .dirichlet → ∀ q e, g q e = cross q.outward e.value) ∧
      ∃ w, MaxLocal.faceVector false bc stab diameter (points.map fun q => (q.1, g q.1 q.2)) = some w ∧ ∀ v : Fin nL → ℂ, Sum.elim v Fin.elim0 ⬝ᵥ w =
        (points.map fun q => (q.1.weight : ℂ) * (q.1.boundary bc (stab / diameter) omega z q.2 (q.1.left v) + bil (q.1.muL.applyCurl q.2.curl) (cross q.1.outward (q.1.left v).value))).sum := by
  have hg : ∃ g : MaxLocal.FacePoint d nL 0 → Field d → Fin d → ℂ, (∀ q e, MaxLocal.exactBoundary bc omega z q e.value e.curl = some (g q e)) ∧
      (bc = .dirichlet → ∀ q e, g q e = cross q.outward e.value) := by
    cases bc
    · exact ⟨_, fun q e => rfl, fun _ q e => rfl⟩
    · exact ⟨_, fun q e => rfl, fun h => absurd h (by decide)⟩
    · exact ⟨_, fun q e => rfl, fun h => absurd h (by decide)⟩
    · exact absurd rfl hbc
  obtain ⟨g, h1, hdir⟩ := hg
  have hw : ∃ w, MaxLocal.faceVector false bc stab diameter (points.map fun q => (q.1, g q.1 q.2)) = some w := by
    cases bc
    · exact ⟨_, rfl⟩
    · exact ⟨_, rfl⟩
    · exact ⟨_, rfl⟩
    · exact absurd rfl hbc
  obtain ⟨w, hw⟩ := hw
  refine ⟨g, h1, hdir, w, hw, fun v => ?_⟩
  have := MaxLocal.boundary_residual (dofs := fun _ => nL) stab omega diameter z 0 bc points (fun _ => 0) (fun _ => v) hbc
  have hm : points.mapM (fun q => (MaxLocal.exactBoundary bc omega z q.1 q.2.value q.2.curl).map fun g => (q.1, g)) = some (points.map fun q => (q.1, g q.1 q.2)) := by
    clear this hw
    induction points with
    | nil => rfl
    | cons q l ih => rw [List.mapM_cons, ih, h1]; rfl
  simp only [MaxLocal.ExactFace.residual, hm, Option.bind_eq_bind, Option.bind_some, hw, MaxLocal.boundary_form bc hbc, List.map_map, MaxLocal.ExactFace.flux, Option.pure_def,
    Option.some.injEq] at this
  have e : Sum.elim v Fin.elim0 ⬝ᵥ w = (points.map ((fun q => (q.weight : ℂ) * q.boundary bc (stab / diameter) omega z (q.left 0) (q.left v)) ∘ Prod.fst)).sum -
      ((points.map fun q => (q.1.weight : ℂ) * q.1.boundary bc (stab / diameter) omega z ((q.1.left 0).sub q.2) (q.1.left v)).sum -
      (points.map fun q => (q.1.weight : ℂ) * bil (q.1.muL.applyCurl q.2.curl) (cross q.1.outward (q.1.left v).value)).sum) := by
    rw [← this]; ring
  rw [e, MaxLocal.sum_map_sub, MaxLocal.sum_map_sub]
  refine congrArg List.sum (List.map_congr_left fun q _ => ?_)
  simp only [Function.comp, MaxLocal.boundary_sub]
  ring

theorem faceVector_eq (bc : BC) (s : Stab) (diameter : ℝ) (hd : 0 < diameter) (points : List (FacePoint d nL nR mL mR × (Fin d → ℂ))) :
    faceVector false bc s diameter points =
    (MaxLocal.faceVector false bc (s.ip1 diameter * diameter) diameter (points.map fun q => (q.1.toFacePoint, q.2))).map fun w => Sum.elim w (0 : Fin mL ⊕ Fin mR → ℂ) := by
  have e : s.ip1 diameter * diameter / diameter = s.ip1 diameter := by rw [mul_div_assoc, div_self hd.ne', mul_one]
  cases bc <;> simp only [faceVector, MaxLocal.faceVector, Bool.false_eq_true, if_false, Option.map_some, Option.map_none, Option.some.injEq, List.map_map]
  · funext i
    rcases i with i | i
    · simp only [Sum.elim_inl, e]
      refine congrArg List.sum (List.map_congr_left fun q _ => ?_)
      simp only [Function.comp, Stab.ip1]
      split <;> simp
    · rfl
  · funext i
    rcases i with i | i <;> rfl
  · funext i
    rcases i with i | i <;> rfl

theorem brezziVector_dot (s : Stab) (b : Neighbours d nL 0 mL 0) (points : List (FacePoint d nL 0 mL 0 × (Fin d → ℂ))) (v : Fin nL → ℂ) (r : Fin mL ⊕ Fin 0 → ℂ) :
    Sum.elim (Sum.elim v Fin.elim0) r ⬝ᵥ brezziVector false s b points =
    (s.stab1 + b.facesL) * liftForm false b points (points.map fun q => (q.1, cross q.1.outward (q.1.left v).value)) := by
  simp only [brezziVector, Bool.false_eq_true, if_false, sumElim_dotProduct_sumElim, dotProduct_zero, add_zero]
  rw [Matrix.dotProduct_mulVec, Matrix.vecMul_transpose, vectorLift_mulVec, vectorMass_symm, Matrix.mulVec_smul, dotProduct_smul, smul_eq_mul, liftForm, List.map_map]
  have e1 : (fun i => (points.map fun q => (q.1.weight : ℂ) * dot q.2 (MaxLocal.cast (q.1.value i))).sum) = load false points := by
    funext i
    simp [load, dot_cast]
  rw [e1]
  congr 1
  · push_cast; rfl
  · congr 2
    refine List.map_congr_left fun q _ => ?_
    simp only [Function.comp, MaxLocal.tangent_eq]

/-- **C106.** On an internal face with an exact solution: the code's terms are those of the error, minus and plus the terms of integration by parts. -/
theorem internal_residual_partial {dofs pots : Nat → Nat} (s : Stab) (h2 : s.stab2 = 0) (h1 : 0 ≤ s.stab1) (omega : ℝ) (u v : (e : Nat) → Fin (dofs e) → ℂ) (p r : (e : Nat) → Fin (pots e) → ℂ)
    (l k : Nat) (diameter : ℝ) (b : Neighbours d (dofs l) (dofs k) (pots l) (pots k)) (L : Matrix (Fin (dofs l) ⊕ Fin (dofs k)) (Fin (dofs l) ⊕ Fin (dofs k)) ℂ)
    (P : Matrix (Fin (pots l) ⊕ Fin (pots k)) (Fin (pots l) ⊕ Fin (pots k)) ℂ) (points : List (FacePoint d (dofs l) (dofs k) (pots l) (pots k) × Mixed d × Mixed d))
    (hr : (ExactFace.internal l k diameter b L P points).Regular) (hc : (ExactFace.internal l k diameter b L P points).Continuous) :
    (ExactFace.internal l k diameter b L P points).residual s omega u v p r = some ((ExactFace.internal l k diameter b L P points).error s omega u v p r -
      (ExactFace.internal l k diameter b L P points).curlFlux v + (ExactFace.internal l k diameter b L P points).divFlux r) := by
  obtain ⟨hd, hL, hu⟩ := hr
  obtain ⟨A, hA, hf⟩ := full_internal s h2 h1 diameter hd b L hL hu P (points.map Prod.fst)
  have hv : fullFaceVector true .internal s diameter b (points.map fun q => (q.1, (0 : Fin d → ℂ))) = some 0 := by simp [fullFaceVector, faceVector]
  have hi : impedanceMatrix true .internal 0 (points.map Prod.fst) = 0 := by simp [impedanceMatrix]
  simp only [ExactFace.residual, hv, hA, hi, Option.bind_eq_bind, Option.bind_some, smul_zero, add_zero, dotProduct_zero, sub_zero, hf, List.map_map, Option.pure_def]
  simp only [ExactFace.error, ExactFace.curlFlux, ExactFace.divFlux]
  have ej : ∀ q ∈ points, q.1.jump ((q.1.leftOf (u l) (p l)).sub q.2.1).field ((q.1.rightOf (u k) (p k)).sub q.2.2).field = q.1.jump (q.1.left (u l)) (q.1.right (u k)) := by
    intro q hq
    simp only [MaxLocal.FacePoint.jump, Mixed.sub, Field.sub, cross_sub, FacePoint.leftOf, FacePoint.rightOf, (hc q hq).1]
    abel
  have ep : ∀ q ∈ points, ((q.1.leftOf (u l) (p l)).sub q.2.1).p - ((q.1.rightOf (u k) (p k)).sub q.2.2).p = (q.1.leftOf (u l) (p l)).p - (q.1.rightOf (u k) (p k)).p := by
    intro q hq
    simp only [Mixed.sub, (hc q hq).2.2.2]; ring
  have t1 : (points.map fun q => (q.1, q.1.jump ((q.1.leftOf (u l) (p l)).sub q.2.1).field ((q.1.rightOf (u k) (p k)).sub q.2.2).field)) =
      points.map fun q => (q.1, q.1.jump (q.1.left (u l)) (q.1.right (u k))) := List.map_congr_left fun q hq => by rw [ej q hq]
  have t3 : (points.map fun q => (q.1, (((q.1.leftOf (u l) (p l)).sub q.2.1).p - ((q.1.rightOf (u k) (p k)).sub q.2.2).p) • q.1.outward)) =
      points.map fun q => (q.1, ((q.1.leftOf (u l) (p l)).p - (q.1.rightOf (u k) (p k)).p) • q.1.outward) := List.map_congr_left fun q hq => by rw [ep q hq]
  have key : (points.map ((fun q => (q.weight : ℂ) * q.mixedInterior (s.ip1 diameter) (s.ip3 diameter) (q.leftOf (u l) (p l)) (q.rightOf (u k) (p k)) (q.leftOf (v l) (r l))
        (q.rightOf (v k) (r k))) ∘ Prod.fst)).sum =
      (points.map fun q => (q.1.weight : ℂ) * q.1.mixedInterior (s.ip1 diameter) (s.ip3 diameter) ((q.1.leftOf (u l) (p l)).sub q.2.1) ((q.1.rightOf (u k) (p k)).sub q.2.2)
        (q.1.leftOf (v l) (r l)) (q.1.rightOf (v k) (r k))).sum -
      (points.map fun q => (q.1.weight : ℂ) * (bil (q.1.muL.applyCurl q.2.1.field.curl) (cross q.1.outward (q.1.left (v l)).value) -
        bil (q.1.muR.applyCurl q.2.2.field.curl) (cross q.1.outward (q.1.right (v k)).value))).sum +
      (points.map fun q => (q.1.weight : ℂ) * (bil (q.1.divL.applyDiv q.2.1.field.value) q.1.outward * (q.1.leftOf 0 (r l)).p -
        bil (q.1.divR.applyDiv q.2.2.field.value) q.1.outward * (q.1.rightOf 0 (r k)).p)).sum := by
    rw [MaxLocal.sum_map_sub, ← List.sum_map_add]
    refine congrArg List.sum (List.map_congr_left fun q hq => ?_)
    obtain ⟨c1, c2, c3, c4⟩ := hc q hq
    have hj : q.1.jump q.2.1.field q.2.2.field = 0 := by rw [MaxLocal.FacePoint.jump, c1, sub_self]
    have hE : q.1.mixedInterior (s.ip1 diameter) (s.ip3 diameter) q.2.1 q.2.2 (q.1.leftOf (v l) (r l)) (q.1.rightOf (v k) (r k)) =
        -(bil (q.1.muL.applyCurl q.2.1.field.curl) (cross q.1.outward (q.1.left (v l)).value) - bil (q.1.muR.applyCurl q.2.2.field.curl) (cross q.1.outward (q.1.right (v k)).value)) +
        (bil (q.1.divL.applyDiv q.2.1.field.value) q.1.outward * (q.1.leftOf 0 (r l)).p - bil (q.1.divR.applyDiv q.2.2.field.value) q.1.outward * (q.1.rightOf 0 (r k)).p) := by
      rw [FacePoint.mixedInterior, MaxLocal.FacePoint.interior, hj, bil_zero_left, bil_zero_left, MaxLocal.FacePoint.average, bil_smul_left, MaxLocal.FacePoint.jump, bil_add_left,
        bil_sub_right, bil_sub_right, FacePoint.normalAverage, c3, c4]
      have c2l := c2 (q.1.left (v l)).value
      have c2r := c2 (q.1.right (v k)).value
      simp only [FacePoint.leftOf, FacePoint.rightOf]
      linear_combination (1 / 2 : ℂ) * c2l + (1 / 2 : ℂ) * c2r
    simp only [Function.comp, mixedInterior_sub, hE]
    ring
  rw [key, t1, t3]
  simp only [Function.comp_def]
  congr 1
  ring

/-- **C106, negation.** On a boundary face there is one term more: if the interior penalty flux is used for the tangential part and that of Brezzi for another, the vector for
Dirichlet conditions has the lift of the boundary values that only belongs to the flux of Brezzi. Nothing in the matrix goes with it. -/
theorem mixed_flux_load {dofs pots : Nat → Nat} (s : Stab) (h1 : 0 ≤ s.stab1) (omega : ℝ) (u v : (e : Nat) → Fin (dofs e) → ℂ)
    (p r : (e : Nat) → Fin (pots e) → ℂ) (l : Nat) (bc : BC) (diameter z : ℝ) (b : Neighbours d (dofs l) 0 (pots l) 0) (L : Matrix (Fin (dofs l) ⊕ Fin 0) (Fin (dofs l) ⊕ Fin 0) ℂ)
    (P : Matrix (Fin (pots l) ⊕ Fin 0) (Fin (pots l) ⊕ Fin 0) ℂ) (points : List (FacePoint d (dofs l) 0 (pots l) 0 × Mixed d))
    (hr : (ExactFace.boundary l bc diameter z b L P points).Regular) (hc : (ExactFace.boundary l bc diameter z b L P points).Continuous) :
    (ExactFace.boundary l bc diameter z b L P points).residual s omega u v p r = some ((ExactFace.boundary l bc diameter z b L P points).error s omega u v p r -
      (ExactFace.boundary l bc diameter z b L P points).curlFlux v + (ExactFace.boundary l bc diameter z b L P points).divFlux r -
      if s.hasFlux .brezzi ∧ s.flux1 = .ip ∧ bc = .dirichlet then (s.stab1 + b.facesL) * liftForm false b (points.map fun q => (q.1, cross q.1.outward q.2.field.value))
        (points.map fun q => (q.1, cross q.1.outward (q.1.left (v l)).value)) else 0) := by
  obtain ⟨hd, hL, hu⟩ := hr
  obtain ⟨hbc, hp⟩ := hc
  obtain ⟨A, hA, hf⟩ := full_boundary s h1 bc hbc diameter omega z hd b L hL hu P (points.map Prod.fst)
  obtain ⟨g, g1, gd, w, hw, hwv⟩ := boundary_load bc hbc (s.ip1 diameter * diameter) diameter omega z (points.map fun q => (q.1.toFacePoint, q.2.field))
  have hm : points.mapM (fun q => (MaxLocal.exactBoundary bc omega z q.1.toFacePoint q.2.field.value q.2.field.curl).map fun g => (q.1, g)) =
      some (points.map fun q => (q.1, g q.1.toFacePoint q.2.field)) := by
    clear hf hA hw hwv hp
    induction points with
    | nil => rfl
    | cons q l ih => rw [List.mapM_cons, ih, g1]; rfl
  have hv : faceVector false bc s diameter (points.map fun q => (q.1, g q.1.toFacePoint q.2.field)) = some (Sum.elim w 0) := by
    rw [faceVector_eq bc s diameter hd, List.map_map]
    rw [List.map_map] at hw
    simp only [Function.comp_def] at hw ⊢
    rw [hw]; rfl
  have hfull : ∃ vec, fullFaceVector false bc s diameter b (points.map fun q => (q.1, g q.1.toFacePoint q.2.field)) = some vec ∧
      Sum.elim (Sum.elim (v l) Fin.elim0) (Sum.elim (r l) Fin.elim0) ⬝ᵥ vec = Sum.elim (v l) Fin.elim0 ⬝ᵥ w +
      (if s.flux1 = .brezzi ∧ bc = .dirichlet then (s.stab1 + b.facesL) * liftForm false b (points.map fun q => (q.1, cross q.1.outward q.2.field.value))
        (points.map fun q => (q.1, cross q.1.outward (q.1.left (v l)).value)) else 0) +
      (if s.hasFlux .brezzi ∧ s.flux1 = .ip ∧ bc = .dirichlet then (s.stab1 + b.facesL) * liftForm false b (points.map fun q => (q.1, cross q.1.outward q.2.field.value))
        (points.map fun q => (q.1, cross q.1.outward (q.1.left (v l)).value)) else 0) := by
    by_cases hb : s.hasFlux .brezzi = true ∧ bc = .dirichlet
    · refine ⟨Sum.elim w 0 + brezziVector false s b (points.map fun q => (q.1, g q.1.toFacePoint q.2.field)), ?_, ?_⟩
      · unfold fullFaceVector
        rw [hv]
        simp [hb.1, hb.2]
      · rw [dotProduct_add, brezziVector_dot, List.map_map, sumElim_dotProduct_sumElim, dotProduct_zero, add_zero]
        have e : (points.map fun q => (q.1, g q.1.toFacePoint q.2.field)) = points.map fun q => (q.1, cross q.1.outward q.2.field.value) :=
          List.map_congr_left fun q _ => by rw [gd hb.2]
        rw [e]
        cases h : s.flux1
        · rw [if_neg (by simp), if_pos ⟨hb.1, rfl, hb.2⟩, add_zero]; rfl
        · rw [if_pos ⟨rfl, hb.2⟩, if_neg (by simp), add_zero]; rfl
    · refine ⟨Sum.elim w 0, ?_, ?_⟩
      · simp only [fullFaceVector, hv, Option.bind_eq_bind, Option.bind_some]
        simp only [Bool.false_eq_true, if_false, Bool.and_eq_true, decide_eq_true_eq, if_neg hb]
        rfl
      · rw [if_neg fun h => hb ⟨by simp [Stab.hasFlux, h.1], h.2⟩, if_neg fun h => hb ⟨h.1, h.2.2⟩, sumElim_dotProduct_sumElim, dotProduct_zero, add_zero, add_zero]
  obtain ⟨vec, hfv, hdot⟩ := hfull
  simp only [ExactFace.residual, hm, hfv, hA, Option.bind_eq_bind, Option.bind_some, hf, hdot, hwv, List.map_map, Option.pure_def]
  simp only [ExactFace.error, ExactFace.curlFlux, ExactFace.divFlux]
  have t1 : liftForm false b (points.map fun q => (q.1, cross q.1.outward (((q.1.leftOf (u l) (p l)).sub q.2).field.value)))
      (points.map fun q => (q.1, cross q.1.outward (q.1.left (v l)).value)) =
      liftForm false b (points.map fun q => (q.1, cross q.1.outward (q.1.left (u l)).value)) (points.map fun q => (q.1, cross q.1.outward (q.1.left (v l)).value)) -
      liftForm false b (points.map fun q => (q.1, cross q.1.outward q.2.field.value)) (points.map fun q => (q.1, cross q.1.outward (q.1.left (v l)).value)) := by
    rw [← liftForm_sub]
    simp only [Mixed.sub, Field.sub, cross_sub, FacePoint.leftOf]
  have t3 : (points.map fun q => (q.1, ((q.1.leftOf (u l) (p l)).sub q.2).p • q.1.outward)) = points.map fun q => (q.1, (q.1.leftOf (u l) (p l)).p • q.1.outward) :=
    List.map_congr_left fun q hq => by simp only [Mixed.sub, hp q hq, sub_zero]
  have key : (points.map ((fun q => (q.weight : ℂ) * q.mixedBoundary bc (s.ip1 diameter) (s.ip3 diameter) omega z (q.leftOf (u l) (p l)) (q.leftOf (v l) (r l))) ∘ Prod.fst)).sum -
      (points.map ((fun q => (q.1.weight : ℂ) * (q.1.boundary bc (s.ip1 diameter * diameter / diameter) omega z q.2 (q.1.left (v l)) +
        bil (q.1.muL.applyCurl q.2.curl) (cross q.1.outward (q.1.left (v l)).value))) ∘ fun q => (q.1.toFacePoint, q.2.field))).sum =
      (points.map fun q => (q.1.weight : ℂ) * q.1.mixedBoundary bc (s.ip1 diameter) (s.ip3 diameter) omega z ((q.1.leftOf (u l) (p l)).sub q.2) (q.1.leftOf (v l) (r l))).sum -
      (points.map fun q => (q.1.weight : ℂ) * bil (q.1.muL.applyCurl q.2.field.curl) (cross q.1.outward (q.1.left (v l)).value)).sum +
      (points.map fun q => (q.1.weight : ℂ) * (bil (q.1.divL.applyDiv q.2.field.value) q.1.outward * (q.1.leftOf 0 (r l)).p)).sum := by
    rw [MaxLocal.sum_map_sub, MaxLocal.sum_map_sub, ← List.sum_map_add]
    refine congrArg List.sum (List.map_congr_left fun q hq => ?_)
    simp only [Function.comp, mixedBoundary_sub]
    simp only [FacePoint.mixedBoundary, hp q hq, mul_div_assoc, div_self hd.ne', mul_one, FacePoint.leftOf]
    ring
  rw [t1, t3]
  rw [sub_eq_iff_eq_add] at key
  rw [key]
  simp only [Function.comp_def]
  congr 1
  split <;> ring

/-- **C106 (partial).** On a boundary face the code's terms are those of the error, minus and plus the terms of integration by parts, if with the flux of Brezzi for any term it is
used for the tangential part. -/
theorem boundary_residual_partial {dofs pots : Nat → Nat} (s : Stab) (hB : s.hasFlux .brezzi → s.flux1 = .brezzi) (h1 : 0 ≤ s.stab1) (omega : ℝ) (u v : (e : Nat) → Fin (dofs e) → ℂ)
    (p r : (e : Nat) → Fin (pots e) → ℂ) (l : Nat) (bc : BC) (diameter z : ℝ) (b : Neighbours d (dofs l) 0 (pots l) 0) (L : Matrix (Fin (dofs l) ⊕ Fin 0) (Fin (dofs l) ⊕ Fin 0) ℂ)
    (P : Matrix (Fin (pots l) ⊕ Fin 0) (Fin (pots l) ⊕ Fin 0) ℂ) (points : List (FacePoint d (dofs l) 0 (pots l) 0 × Mixed d))
    (hr : (ExactFace.boundary l bc diameter z b L P points).Regular) (hc : (ExactFace.boundary l bc diameter z b L P points).Continuous) :
    (ExactFace.boundary l bc diameter z b L P points).residual s omega u v p r = some ((ExactFace.boundary l bc diameter z b L P points).error s omega u v p r -
      (ExactFace.boundary l bc diameter z b L P points).curlFlux v + (ExactFace.boundary l bc diameter z b L P points).divFlux r) := by
  rw [mixed_flux_load s h1 omega u v p r l bc diameter z b L P points hr hc, if_neg, sub_zero]
  rintro ⟨a1, a2, -⟩
  rw [hB a1] at a2
  cases a2

/-- **C106.** In an element: the code's terms are those of the error plus those of the exact solution. -/
theorem element_residual (omega : ℝ) (u v : Fin n → ℂ) (p r : Fin m → ℂ) (points : List (ElementPoint d n m × Exact d)) (hs : Solves omega points) :
    elementResidual omega u v p r points = (points.map fun q => (q.1.weight : ℂ) * q.1.mixedForm omega ((q.1.mixed u p).sub q.2.mixed) (q.1.mixed v r)).sum +
      ((points.map fun q => (q.1.weight : ℂ) * bil (q.1.mu.applyCurl q.2.mixed.field.curl) (q.1.field v).curl).sum -
      (points.map fun q => (q.1.weight : ℂ) * bil q.2.curlCurl (q.1.field v).value).sum) -
      (points.map fun q => (q.1.weight : ℂ) * bil (q.1.div.applyDiv q.2.mixed.field.value) (q.1.mixed 0 r).grad).sum := by
  have hv : Sum.elim v r ⬝ᵥ elementVector (points.map fun q => (q.1, q.2.source)) = (points.map fun q => (q.1.weight : ℂ) * bil q.2.source (q.1.field v).value).sum := by
    have e : elementVector (points.map fun q => (q.1, q.2.source)) =
        Sum.elim (fun i => (points.map fun q => (q.1.weight : ℂ) * dot q.2.source (MaxLocal.cast (q.1.value i))).sum) 0 := by
      funext i; rcases i with i | i <;> simp [elementVector, Function.comp_def]
    rw [e, sumElim_dotProduct_sumElim, dotProduct_zero, add_zero, MaxLocal.quad_dot]
    refine congrArg List.sum (List.map_congr_left fun q _ => congrArg _ ?_)
    simp only [MaxLocal.ElementPoint.field, sum_cast_value, bil_sum_right, dot_cast]
  unfold elementResidual
  rw [hv, element_form, List.map_map, MaxLocal.sum_map_sub, MaxLocal.sum_map_sub, ← List.sum_map_add, MaxLocal.sum_map_sub]
  refine congrArg List.sum (List.map_congr_left fun q hq => ?_)
  have h1 := (MaxLocal.curlMap q.1.mu).map_sub (q.1.field u).curl q.2.mixed.field.curl
  simp only [MaxLocal.curlMap, LinearMap.coe_mk, AddHom.coe_mk] at h1
  rw [← (hs q hq).1]
  simp only [Function.comp, ElementPoint.mixedForm, MaxLocal.ElementPoint.form, ElementPoint.mixed, Mixed.sub, Field.sub, h1, applyDiv_sub, bil_sub_left, bil_sub_right, bil_smul_left]
  rw [MaxLocal.bil_applyDiv q.1.div.adjoint _ q.2.mixed.grad, MaxLocal.bil_comm (q.1.field v).value (q.1.div.adjoint.applyDiv q.2.mixed.grad)]
  ring

/-- **C106 (partial).** Consistency of the whole system. Take any mesh, materials, boundary conditions and an exact solution with its boundary values. Then `wᵀ (A x - b)` for
the system of the code is that of the error, for all discrete functions. The penalty for normal jumps is off, and if any flux is that of Brezzi the first is. -/
theorem consistent_partial {dofs pots : Nat → Nat} (s : Stab) (h2 : s.stab2 = 0) (hB : s.hasFlux .brezzi → s.flux1 = .brezzi) (h1 : 0 ≤ s.stab1) (omega : ℝ) (count : Nat)
    (elements : (e : Nat) → List (ElementPoint d (dofs e) (pots e) × Exact d)) (faces : List (ExactFace d dofs pots)) (hG : Green count elements faces)
    (hs : ∀ e, Solves omega (elements e)) (hr : ∀ f ∈ faces, f.Regular) (hc : ∀ f ∈ faces, f.Continuous)
    (u v : (e : Nat) → Fin (dofs e) → ℂ) (p r : (e : Nat) → Fin (pots e) → ℂ) :
    ∃ res : List ℂ, faces.mapM (ExactFace.residual s omega u v p r) = some res ∧
      ∑ e : Fin count, elementResidual omega (u e) (v e) (p e) (r e) (elements e) + res.sum =
      ∑ e : Fin count, ((elements e).map fun q => (q.1.weight : ℂ) * q.1.mixedForm omega ((q.1.mixed (u e) (p e)).sub q.2.mixed) (q.1.mixed (v e) (r e))).sum +
      (faces.map (ExactFace.error s omega u v p r)).sum := by
  have hf : ∀ faces : List (ExactFace d dofs pots), (∀ f ∈ faces, f.Regular) → (∀ f ∈ faces, f.Continuous) → ∃ res : List ℂ, faces.mapM (ExactFace.residual s omega u v p r) = some res ∧
      res.sum = (faces.map (ExactFace.error s omega u v p r)).sum - (faces.map (ExactFace.curlFlux v)).sum + (faces.map (ExactFace.divFlux r)).sum := by
    intro faces
    induction faces with
    | nil => intro _ _; exact ⟨[], rfl, by simp⟩
    | cons f rest ih =>
      intro hr hc
      obtain ⟨res, k1, k2⟩ := ih (fun g hg => hr g (List.mem_cons_of_mem _ hg)) fun g hg => hc g (List.mem_cons_of_mem _ hg)
      have h0 : f.residual s omega u v p r = some (f.error s omega u v p r - f.curlFlux v + f.divFlux r) := by
        have hrf := hr f (List.mem_cons_self ..)
        have hcf := hc f (List.mem_cons_self ..)
        cases f with
        | boundary l bc diameter z b L P points => exact boundary_residual_partial s hB h1 omega u v p r l bc diameter z b L P points hrf hcf
        | internal l k diameter b L P points => exact internal_residual_partial s h2 h1 omega u v p r l k diameter b L P points hrf hcf
      refine ⟨(f.error s omega u v p r - f.curlFlux v + f.divFlux r) :: res, by rw [List.mapM_cons, h0, k1]; rfl, ?_⟩
      simp only [List.sum_cons, List.map_cons, k2]
      ring
  obtain ⟨res, k1, k2⟩ := hf faces hr hc
  refine ⟨res, k1, ?_⟩
  have hz : ∑ e : Fin count, ((elements e).map fun q => (q.1.weight : ℂ) * (q.2.divergence * (q.1.mixed 0 (r e)).p)).sum = 0 := by
    refine Finset.sum_eq_zero fun e _ => List.sum_eq_zero fun x hx => ?_
    obtain ⟨q, hq, rfl⟩ := List.mem_map.1 hx
    rw [(hs e q hq).2, zero_mul, mul_zero]
  have g2 := hG.2 r
  rw [hz, neg_zero, zero_add] at g2
  rw [k2, Finset.sum_congr rfl fun (e : Fin count) _ => element_residual omega (u e) (v e) (p e) (r e) (elements e) (hs e), Finset.sum_sub_distrib, Finset.sum_add_distrib,
    Finset.sum_sub_distrib, hG.1 v, g2]
  ring

/-- If the discrete functions are the exact ones the forms of the error are zero. -/
theorem error_zero {dofs pots : Nat → Nat} (s : Stab) (omega : ℝ) (u v : (e : Nat) → Fin (dofs e) → ℂ) (p r : (e : Nat) → Fin (pots e) → ℂ) (f : ExactFace d dofs pots)
    (this : f.Matches u p) : f.error s omega u v p r = 0 := by
  have zero : ∀ a : Field d, a.sub a = ⟨0, 0⟩ := fun a => by simp [Field.sub]
  have c0 : ∀ T : Tensor, T.applyCurl (0 : Fin d → ℂ) = 0 := fun T => (MaxLocal.curlMap T).map_zero
  have d0 : ∀ T : Tensor, T.applyDiv (0 : Fin d → ℂ) = 0 := fun T => (MaxLocal.divMap T).map_zero
  have n0 : ∀ n : Fin d → ℂ, cross n (0 : Fin d → ℂ) = 0 := fun n => (MaxLocal.crossMap n).map_zero
  have b0 : ∀ x : Fin d → ℂ, bil x 0 = 0 := fun x => by rw [MaxLocal.bil_comm]; exact MaxLocal.bil_zero_left _
  have l0 : ∀ {nL nR mL mR : Nat} (internal : Bool) (b : Neighbours d nL nR mL mR) (g w : List (FacePoint d nL nR mL mR × (Fin d → ℂ))), (∀ q ∈ g, q.2 = 0) → liftForm internal b g w = 0 := by
    intro nL nR mL mR internal b g w h
    have : load internal g = 0 := by
      funext i
      refine List.sum_eq_zero fun x hx => ?_
      obtain ⟨q, hq, rfl⟩ := List.mem_map.1 hx
      rw [h q hq, MaxLocal.bil_zero_left, mul_zero]
    rw [liftForm, this, Matrix.mulVec_zero, dotProduct_zero]
  cases f with
  | boundary l bc diameter z b L P points =>
    simp only [ExactFace.error]
    rw [l0 false b _ _ (by
      intro q hq
      obtain ⟨a, ha, rfl⟩ := List.mem_map.1 hq
      simp only [Mixed.sub, (this a ha).1, zero, n0]), l0 false b _ _ (by
      intro q hq
      obtain ⟨a, ha, rfl⟩ := List.mem_map.1 hq
      simp only [Mixed.sub, (this a ha).2, sub_self, zero_smul])]
    rw [mul_zero, mul_zero, ite_self, ite_self, add_zero, sub_zero]
    refine List.sum_eq_zero fun x hx => ?_
    obtain ⟨q, hq, rfl⟩ := List.mem_map.1 hx
    simp only [Mixed.sub, (this q hq).1, (this q hq).2, zero, FacePoint.mixedBoundary, d0, MaxLocal.bil_zero_left, sub_self]
    cases bc <;> simp [MaxLocal.FacePoint.boundary, c0, n0, MaxLocal.bil_zero_left]
  | internal l k diameter b L P points =>
    simp only [ExactFace.error]
    rw [l0 true b _ _ (by
      intro q hq
      obtain ⟨a, ha, rfl⟩ := List.mem_map.1 hq
      simp [Mixed.sub, (this a ha).1, (this a ha).2.2.1, zero, n0, MaxLocal.FacePoint.jump]), l0 true b _ _ (by
      intro q hq
      obtain ⟨a, ha, rfl⟩ := List.mem_map.1 hq
      simp [Mixed.sub, (this a ha).2.1, (this a ha).2.2.2])]
    rw [mul_zero, mul_zero, ite_self, ite_self, add_zero, sub_zero]
    refine List.sum_eq_zero fun x hx => ?_
    obtain ⟨q, hq, rfl⟩ := List.mem_map.1 hx
    simp [Mixed.sub, (this q hq).1, (this q hq).2.1, (this q hq).2.2.1, (this q hq).2.2.2, zero, FacePoint.mixedInterior, FacePoint.normalAverage, d0, MaxLocal.bil_zero_left,
      MaxLocal.FacePoint.interior, MaxLocal.FacePoint.jump, MaxLocal.FacePoint.average, c0, n0]

/-- **C106 (partial).** An exact solution that is itself discrete solves the system of the code. -/
theorem exact_solves_partial {dofs pots : Nat → Nat} (s : Stab) (h2 : s.stab2 = 0) (hB : s.hasFlux .brezzi → s.flux1 = .brezzi) (h1 : 0 ≤ s.stab1) (omega : ℝ) (count : Nat)
    (elements : (e : Nat) → List (ElementPoint d (dofs e) (pots e) × Exact d)) (faces : List (ExactFace d dofs pots)) (hG : Green count elements faces)
    (hs : ∀ e, Solves omega (elements e)) (hr : ∀ f ∈ faces, f.Regular) (hc : ∀ f ∈ faces, f.Continuous) (u : (e : Nat) → Fin (dofs e) → ℂ) (p : (e : Nat) → Fin (pots e) → ℂ)
    (he : ∀ e < count, ∀ q ∈ elements e, q.1.mixed (u e) (p e) = q.2.mixed) (hf : ∀ f ∈ faces, f.Matches u p) (v : (e : Nat) → Fin (dofs e) → ℂ) (r : (e : Nat) → Fin (pots e) → ℂ) :
    ∃ res : List ℂ, faces.mapM (ExactFace.residual s omega u v p r) = some res ∧ ∑ e : Fin count, elementResidual omega (u e) (v e) (p e) (r e) (elements e) + res.sum = 0 := by
  obtain ⟨res, k1, k2⟩ := consistent_partial s h2 hB h1 omega count elements faces hG hs hr hc u v p r
  refine ⟨res, k1, k2.trans ?_⟩
  have zero : ∀ a : Field d, a.sub a = ⟨0, 0⟩ := fun a => by simp [Field.sub]
  have c0 : ∀ T : Tensor, T.applyCurl (0 : Fin d → ℂ) = 0 := fun T => (MaxLocal.curlMap T).map_zero
  have d0 : ∀ T : Tensor, T.applyDiv (0 : Fin d → ℂ) = 0 := fun T => (MaxLocal.divMap T).map_zero
  have n0 : ∀ n : Fin d → ℂ, cross n (0 : Fin d → ℂ) = 0 := fun n => (MaxLocal.crossMap n).map_zero
  have b0 : ∀ x : Fin d → ℂ, bil x 0 = 0 := fun x => by rw [MaxLocal.bil_comm]; exact MaxLocal.bil_zero_left _
  have z1 : ∑ e : Fin count, ((elements e).map fun q => (q.1.weight : ℂ) * q.1.mixedForm omega ((q.1.mixed (u e) (p e)).sub q.2.mixed) (q.1.mixed (v e) (r e))).sum = 0 := by
    refine Finset.sum_eq_zero fun e _ => List.sum_eq_zero fun x hx => ?_
    obtain ⟨q, hq, rfl⟩ := List.mem_map.1 hx
    rw [he e e.2 q hq]
    simp [ElementPoint.mixedForm, Mixed.sub, zero, MaxLocal.ElementPoint.form, c0, d0, MaxLocal.bil_zero_left, b0]
  have z2 : (faces.map (ExactFace.error s omega u v p r)).sum = 0 := by
    refine List.sum_eq_zero fun x hx => ?_
    obtain ⟨f, hfm, rfl⟩ := List.mem_map.1 hx
    exact error_zero s omega u v p r f (hf f hfm)
  rw [z1, z2, add_zero]

end Verif.DivLocal
