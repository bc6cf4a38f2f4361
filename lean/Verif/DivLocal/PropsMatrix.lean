import Verif.DivLocal.Props

/-! # Mixed discretization: Hermitian matrices -/
namespace Verif.DivLocal

open scoped ComplexConjugate Matrix
open MaxLocal (Tensor cross dot BC Side Field bil dot_cast)

variable {d n m nL nR mL mR : Nat}

/-! ## Lemmas -/

theorem conj_sum_map {α : Type} (l : List α) (f : α → ℂ) : conj (l.map f).sum = (l.map fun q => conj (f q)).sum := by
  induction l with
  | nil => simp
  | cons q l ih => simp [ih]

theorem isHermitian_of_blocks {α β : Type} (M : Matrix (α ⊕ β) (α ⊕ β) ℂ) (h1 : ∀ i j, conj (M (.inl i) (.inl j)) = M (.inl j) (.inl i))
    (h2 : ∀ i j, conj (M (.inr j) (.inl i)) = M (.inl i) (.inr j)) (h3 : ∀ i j, conj (M (.inr i) (.inr j)) = M (.inr j) (.inr i)) : M.IsHermitian := by
  ext i j
  rw [Matrix.conjTranspose_apply]
  rcases i with i | i <;> rcases j with j | j
  · exact h1 j i
  · exact h2 i j
  · have := congrArg conj (h2 j i)
    rw [Complex.conj_conj] at this
    exact this.symm
  · exact h3 j i

/-- A matrix with real entries. -/
def RealEntries {α β : Type} (M : Matrix α β ℂ) : Prop := ∀ i j, conj (M i j) = M i j

theorem RealEntries.map_eq {α β : Type} {M : Matrix α β ℂ} (h : RealEntries M) : M.map conj = M := by ext i j; exact h i j

theorem RealEntries.of_map {α β : Type} {M : Matrix α β ℂ} (h : M.map conj = M) : RealEntries M := fun i j => congrFun (congrFun h i) j

theorem RealEntries.mul {α β γ : Type} [Fintype β] {M : Matrix α β ℂ} {N : Matrix β γ ℂ} (h : RealEntries M) (h' : RealEntries N) : RealEntries (M * N) := by
  intro i j
  simp only [Matrix.mul_apply, map_sum, map_mul, h, h']
  exact Finset.sum_congr rfl fun k _ => by rw [h i k, h' k j]

theorem RealEntries.transpose {α β : Type} {M : Matrix α β ℂ} (h : RealEntries M) : RealEntries Mᵀ := fun i j => h j i

theorem RealEntries.inv {α : Type} [Fintype α] [DecidableEq α] {M : Matrix α α ℂ} (h : RealEntries M) (hM : IsUnit M.det) : RealEntries M⁻¹ := by
  apply RealEntries.of_map
  have e : (M * M⁻¹).map conj = 1 := by rw [Matrix.mul_nonsing_inv _ hM]; simp
  rw [Matrix.map_mul, h.map_eq] at e
  exact (Matrix.inv_eq_right_inv e).symm

theorem hermitian_product {α β : Type} [Fintype α] {X : Matrix α β ℂ} (h : RealEntries X) : (Xᵀ * X).IsHermitian := by
  ext i j
  rw [Matrix.conjTranspose_apply]
  refine ((h.transpose.mul h) j i).trans ?_
  rw [Matrix.mul_apply, Matrix.mul_apply]
  exact Finset.sum_congr rfl fun k _ => mul_comm _ _

theorem real_dot (a b : Fin d → ℝ) : conj (dot (MaxLocal.cast a) (MaxLocal.cast b)) = dot (MaxLocal.cast a) (MaxLocal.cast b) := by
  rw [dot_cast, MaxLocal.star_bil, MaxLocal.star_cast, MaxLocal.star_cast]

theorem real_half (internal : Bool) : conj (if internal = true then (1 / 2 : ℂ) else 1) = if internal = true then (1 / 2 : ℂ) else 1 := avg_conj internal

theorem vectorLift_real (internal : Bool) (points : List (FacePoint d nL nR mL mR)) : RealEntries (vectorLift internal points) := by
  intro i j
  simp only [vectorLift, Matrix.of_apply, conj_sum_map]
  exact congrArg List.sum (List.map_congr_left fun q _ => by rw [map_mul, map_mul, real_half, real_dot, Complex.conj_ofReal])

theorem scalarLift_real (internal : Bool) (points : List (FacePoint d nL nR mL mR)) : RealEntries (scalarLift internal points) := by
  intro i j
  simp only [scalarLift, Matrix.of_apply, conj_sum_map]
  exact congrArg List.sum (List.map_congr_left fun q _ => by rw [map_mul, map_mul, map_mul, real_half, real_dot, Complex.conj_ofReal, Complex.conj_ofReal])

theorem normalLift_real (internal : Bool) (points : List (FacePoint d nL nR mL mR)) (hf : ∀ q ∈ points, q.divL.Lossless ∧ q.muR.Lossless) : RealEntries (normalLift internal points) := by
  intro i j
  simp only [normalLift, Matrix.of_apply, conj_sum_map]
  refine congrArg List.sum (List.map_congr_left fun q hq => ?_)
  have : conj (dot (q.liftedValue j) (MaxLocal.cast q.normal)) = dot (q.liftedValue j) (MaxLocal.cast q.normal) := by
    rcases j with j | j
    · simp only [FacePoint.liftedValue]
      rw [dot_cast, conj_normal, (hf q hq).1.adjoint]
    · simp only [FacePoint.liftedValue]
      rw [dot_cast, show (fun k => -q.muR.applyDiv (MaxLocal.cast (q.value (.inr j))) k) = -q.muR.applyDiv (MaxLocal.cast (q.value (.inr j))) from rfl, MaxLocal.bil_neg_left, map_neg,
        conj_normal, (hf q hq).2.adjoint]
  simp only [map_mul, real_half, this, Complex.conj_ofReal]

/-! ## The properties -/

/-- **C107.** For materials without losses the mass and stiffness matrices are Hermitian. The coupling of field and potential is so for any material. -/
theorem element_hermitian (points : List (ElementPoint d n m)) (he : ∀ q ∈ points, q.div.Lossless ∧ q.mu.Lossless) :
    (massMatrix points).IsHermitian ∧ (stiffnessMatrix points).IsHermitian := by
  constructor
  · refine isHermitian_of_blocks _ (fun i j => ?_) (fun i j => by simp [massMatrix]) fun i j => by simp [massMatrix]
    simp only [massMatrix, Matrix.of_apply, conj_sum_map, dot_cast]
    refine congrArg List.sum (List.map_congr_left fun q hq => ?_)
    rw [map_mul, Complex.conj_ofReal, conj_normal, (he q hq).1.adjoint, MaxLocal.bil_applyDiv, MaxLocal.bil_comm]
  · refine isHermitian_of_blocks _ (fun i j => ?_) (fun i j => ?_) fun i j => by simp [stiffnessMatrix]
    · simp only [stiffnessMatrix, Matrix.of_apply, conj_sum_map, dot_cast]
      refine congrArg List.sum (List.map_congr_left fun q hq => ?_)
      rw [map_mul, Complex.conj_ofReal, MaxLocal.star_bil, MaxLocal.star_applyCurl, MaxLocal.star_cast, MaxLocal.star_cast, (he q hq).2.adjoint, MaxLocal.bil_applyCurl, MaxLocal.bil_comm]
    · simp only [stiffnessMatrix, Matrix.of_apply, conj_sum_map]
      exact congrArg List.sum (List.map_congr_left fun q hq => by rw [map_mul, Complex.conj_ofReal])

theorem fieldIntegrand_hermitian (q : FacePoint d nL nR mL mR) (hq : q.muL.Lossless ∧ q.muR.Lossless) (internal : Bool) (s : Stab) (diameter : ℝ) (r c : Fin nL ⊕ Fin nR) :
    conj (q.fieldIntegrand internal s diameter r c) = q.fieldIntegrand internal s diameter c r := by
  have hmu : ∀ k, (q.toFacePoint.mu k).adjoint = q.toFacePoint.mu k := by
    intro k; rcases k with k | k
    · exact hq.1.adjoint
    · exact hq.2.adjoint
  have h1 : conj (q.fieldEntry internal s diameter r c) = q.fieldEntry internal s diameter c r := by
    rw [fieldEntry_eq, fieldEntry_eq, MaxLocal.entry_eq, MaxLocal.entry_eq]
    have hfac : conj (-(if internal = true then 1 / 2 else 1 : ℂ)) = -(if internal = true then 1 / 2 else 1) := by rw [map_neg, real_half]
    rw [map_add, map_mul, map_mul, map_add, Complex.conj_ofReal, MaxLocal.star_bil, MaxLocal.star_bil, MaxLocal.star_bil, MaxLocal.star_applyCurl, MaxLocal.star_applyCurl,
      MaxLocal.star_cast, MaxLocal.star_cast, MaxLocal.star_cast, MaxLocal.star_cast, hmu, hmu, hfac, MaxLocal.bil_comm ((q.toFacePoint.mu c).applyCurl _),
      MaxLocal.bil_comm (MaxLocal.cast (q.normalCross c)) ((q.toFacePoint.mu r).applyCurl _), MaxLocal.bil_comm (MaxLocal.cast (q.normalCross c)) (MaxLocal.cast _)]
    ring
  have hpos : ∀ a b : Fin nL ⊕ Fin nR, position a = position b → a = b := by
    intro a b h
    rcases a with a | a <;> rcases b with b | b <;> simp only [position] at h
    · exact congrArg Sum.inl (Fin.ext h)
    · omega
    · omega
    · exact congrArg Sum.inr (Fin.ext (by omega))
  have h2 : conj (q.normalEntry s diameter r c) = q.normalEntry s diameter c r := by
    have hreal : ∀ x : ℂ, ∀ t : ℝ, conj ((t : ℂ) * x * conj x) = (t : ℂ) * x * conj x := by
      intro x t; simp only [map_mul, Complex.conj_ofReal, Complex.conj_conj]; ring
    simp only [FacePoint.normalEntry]
    rcases lt_trichotomy (position c) (position r) with h | h | h
    · rw [if_pos h.le, if_neg (not_le.2 h)]
    · rw [hpos c r h, if_pos le_rfl, hreal]
    · rw [if_neg (not_le.2 h), if_pos h.le, Complex.conj_conj]
  simp only [FacePoint.fieldIntegrand, map_add, h1]
  split
  · rw [h2]
  · simp

/-- **C107.** For materials without losses the matrix of a face is Hermitian, with any fluxes, provided the factors of the mass matrices are real, as they are for real
mass matrices. The impedance matrix is `-i` times a Hermitian matrix. -/
theorem face_hermitian (internal : Bool) (bc : BC) (s : Stab) (diameter z : ℝ) (b : Neighbours d nL nR mL mR) (L : Matrix (Fin nL ⊕ Fin nR) (Fin nL ⊕ Fin nR) ℂ)
    (P : Matrix (Fin mL ⊕ Fin mR) (Fin mL ⊕ Fin mR) ℂ) (hL : RealEntries L ∧ IsUnit L.det) (hP : RealEntries P ∧ IsUnit P.det) (points : List (FacePoint d nL nR mL mR))
    (hf : ∀ q ∈ points, q.muL.Lossless ∧ q.muR.Lossless ∧ q.divL.Lossless) :
    (∀ A, fullFaceMatrix internal bc s diameter b L P points = some A → A.IsHermitian) ∧ (Complex.I • impedanceMatrix internal bc z points).IsHermitian := by
  have hF : (faceMatrix internal bc s diameter points).IsHermitian := by
    refine isHermitian_of_blocks _ (fun i j => ?_) (fun i j => ?_) fun i j => ?_
    · simp only [faceMatrix, Matrix.of_apply]
      generalize (if internal = true then BC.internal else bc) = bct
      split
      · rw [conj_sum_map]
        exact congrArg List.sum (List.map_congr_left fun q hq => by
          rw [map_mul, Complex.conj_ofReal, fieldIntegrand_hermitian q ⟨(hf q hq).1, (hf q hq).2.1⟩])
      · simp
    · simp only [faceMatrix, Matrix.of_apply, conj_sum_map]
      exact congrArg List.sum (List.map_congr_left fun q hq => by rw [map_mul, Complex.conj_ofReal])
    · simp only [faceMatrix, Matrix.of_apply, conj_sum_map]
      refine congrArg List.sum (List.map_congr_left fun q hq => ?_)
      rw [map_mul, Complex.conj_ofReal]
      simp only [FacePoint.potentialEntry]
      split
      · rw [map_neg, Complex.conj_ofReal]
        congr 3
        ring
      · simp
  have hT : ∀ T, tangentialTerm internal s.stab1 b L points = some T → T.IsHermitian := by
    intro T h
    simp only [tangentialTerm] at h
    generalize (if internal = true then b.facesL else 0) = k at h
    generalize (if internal = true then √(s.stab1 + (k : ℝ)) else 1) = r at h
    split at h
    · exact absurd h (by simp)
    · rw [← Option.some.inj h]
      refine hermitian_product fun i j => ?_
      rw [Matrix.of_apply, map_mul, ((hL.1.inv hL.2).mul (vectorLift_real internal points)) i j]
      rcases j with j | j <;> simp only [columnFactor, Complex.conj_ofReal]
  have hN : (normalTerm internal s.stab2 P points).IsHermitian := by
    unfold normalTerm Matrix.IsHermitian
    rw [Matrix.conjTranspose_smul, (hermitian_product ((hP.1.inv hP.2).mul (normalLift_real internal points fun q hq => ⟨(hf q hq).2.2, (hf q hq).2.1⟩))).eq]
    simp
  have hS : (scalarTerm internal s.stab3 L points).IsHermitian := by
    unfold scalarTerm Matrix.IsHermitian
    rw [Matrix.conjTranspose_smul, (hermitian_product ((hL.1.inv hL.2).mul (scalarLift_real internal points))).eq]
    simp
  have hbz : ∀ t1 : Matrix (Fin nL ⊕ Fin nR) (Fin nL ⊕ Fin nR) ℂ, ∀ t2 t3, t1.IsHermitian → t2.IsHermitian → t3.IsHermitian →
      (Matrix.fromBlocks (t1 + t2) 0 0 t3 : Matrix ((Fin nL ⊕ Fin nR) ⊕ (Fin mL ⊕ Fin mR)) _ ℂ).IsHermitian := by
    intro t1 t2 t3 k1 k2 k3
    exact Matrix.IsHermitian.fromBlocks (k1.add k2) (by simp) k3
  have hBz : ∀ B, brezziMatrix internal bc s b L P points = some B → B.IsHermitian := by
    intro B h
    unfold brezziMatrix at h
    dsimp only at h
    generalize (if internal = true then BC.internal else bc) = bct at h
    by_cases hc : (!internal && bct.natural && decide (s.flux3 ≠ Flux.brezzi)) = true
    · rw [if_pos hc] at h
      rw [← Option.some.inj h]; simp
    · rw [if_neg hc] at h
      simp only [Option.bind_eq_bind, Option.pure_def] at h
      have h : Option.bind (if (decide (s.flux1 = Flux.brezzi) && !(!internal && bct.natural)) = true then tangentialTerm internal s.stab1 b L points else some 0) (fun a =>
          some (Matrix.fromBlocks (a + if (internal && decide (s.flux2 = Flux.brezzi) && !(!internal && bct.natural)) = true then normalTerm internal s.stab2 P points else 0)
            0 0 (if s.flux3 = Flux.brezzi then scalarTerm internal s.stab3 L points else 0))) = some B := by
        rw [← h]; split <;> rfl
      obtain ⟨t1, k1, k2⟩ := Option.bind_eq_some_iff.1 h
      rw [← Option.some.inj k2]
      refine hbz _ _ _ ?_ ?_ ?_
      · split at k1
        · exact hT _ k1
        · rw [← Option.some.inj k1]; simp
      · split
        · exact hN
        · simp
      · split
        · exact hS
        · simp
  refine ⟨fun A h => ?_, ?_⟩
  · unfold fullFaceMatrix at h
    simp only [Option.bind_eq_bind, Option.pure_def] at h
    split at h
    · obtain ⟨B, k1, k2⟩ := Option.bind_eq_some_iff.1 h
      rw [← Option.some.inj k2]
      exact hF.add (hBz B k1)
    · rw [← Option.some.inj h]; exact hF
  · rw [blocks_impedance, Matrix.fromBlocks_smul]
    have := (MaxLocal.matrices_hermitian (points := ([] : List (MaxLocal.ElementPoint d 0))) internal bc 0 1 z (points.map fun q => q.toFacePoint) (by simp) (by
      intro q hq
      obtain ⟨a, ha, rfl⟩ := List.mem_map.1 hq
      exact ⟨(hf a ha).1, (hf a ha).2.1⟩)).2.2.2
    exact Matrix.IsHermitian.fromBlocks this (by simp) (by simp)

end Verif.DivLocal
