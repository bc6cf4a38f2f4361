import Verif.FaceRotation.Spec
import Verif.Transform.Lemmas
import Verif.RefGeometry.Props
import Mathlib.Algebra.BigOperators.Field

set_option linter.all false
namespace Verif.FaceRotation
open Verif.RefGeometry (Pt appendCol appendCol_castSucc appendCol_last)
open Verif.PhysMap (solve distSq)
open Matrix

variable {d : Nat}

/-- The directions as columns. -/
def cols (p : Fin (d + 1) → Pt (d + 1)) : Matrix (Fin (d + 1)) (Fin d) ℝ := Matrix.of fun j i => p i.succ j - p 0 j

theorem directions_eq (w : Matrix (Fin (d + 1)) (Fin d) ℝ → Pt (d + 1)) (p : Fin (d + 1) → Pt (d + 1)) :
    directions w p = (appendCol (cols p) (w (cols p)))ᵀ := by
  ext i j
  rw [transpose_apply]
  refine Fin.lastCases ?_ (fun i => ?_) i
  · rw [appendCol_last]; simp [directions, cols]
  · rw [appendCol_castSucc]; simp [directions, cols]

/-- What is used of the wedge product. -/
structure IsWedge (w : Matrix (Fin (d + 1)) (Fin d) ℝ → Pt (d + 1)) : Prop where
  dot : ∀ J v, w J ⬝ᵥ v = (appendCol J v).det
  orth : ∀ J v, w J ⬝ᵥ (J *ᵥ v) = 0
  gram : ∀ J, w J ⬝ᵥ w J = (Jᵀ * J).det

theorem isWedge2 : IsWedge RefGeometry.wedge2 := ⟨RefGeometry.wedge_dot.1, RefGeometry.wedge_orthogonal.1, RefGeometry.wedge_gram.1⟩
theorem isWedge3 : IsWedge RefGeometry.wedge3 := ⟨RefGeometry.wedge_dot.2.1, RefGeometry.wedge_orthogonal.2.1, RefGeometry.wedge_gram.2.1⟩
theorem isWedge4 : IsWedge RefGeometry.wedge4 := ⟨RefGeometry.wedge_dot.2.2, RefGeometry.wedge_orthogonal.2.2, RefGeometry.wedge_gram.2.2⟩

variable {w : Matrix (Fin (d + 1)) (Fin d) ℝ → Pt (d + 1)} (hw : IsWedge w)
include hw

theorem det_directions (p : Fin (d + 1) → Pt (d + 1)) : (directions w p).det = ((cols p)ᵀ * cols p).det := by
  rw [directions_eq, det_transpose, ← hw.dot, hw.gram]

/-- Gram matrix of all directions -/
theorem directions_gram (p : Fin (d + 1) → Pt (d + 1)) (i j : Fin (d + 1)) :
    (directions w p * (directions w p)ᵀ) i j =
      Fin.lastCases (motive := fun _ => ℝ) (Fin.lastCases (motive := fun _ => ℝ) ((cols p)ᵀ * cols p).det (fun _ => 0) j)
        (fun i => Fin.lastCases (motive := fun _ => ℝ) 0 (fun j => ((cols p)ᵀ * cols p) i j) j) i := by
  have o : ∀ i, ∑ k, w (cols p) k * cols p k i = 0 := by
    intro i
    have := hw.orth (cols p) (Pi.single i 1)
    rw [mulVec_single_one] at this
    exact this
  rw [directions_eq, transpose_transpose, mul_apply]
  simp only [transpose_apply]
  refine Fin.lastCases ?_ (fun i => ?_) i <;> refine Fin.lastCases ?_ (fun j => ?_) j <;>
    simp only [Fin.lastCases_last, Fin.lastCases_castSucc, appendCol_last, appendCol_castSucc]
  · rw [← hw.gram]; rfl
  · exact o j
  · rw [← o i]; exact Finset.sum_congr rfl fun _ _ => mul_comm _ _
  · rfl

theorem gram_eq (p q : Fin (d + 1) → Pt (d + 1)) (h : (cols p)ᵀ * cols p = (cols q)ᵀ * cols q) :
    directions w p * (directions w p)ᵀ = directions w q * (directions w q)ᵀ := by
  ext i j
  rw [directions_gram hw, directions_gram hw, h]

omit hw in
theorem cols_gram (p q : Fin (d + 1) → Pt (d + 1)) (h : ∀ i j, distSq (p i) (p j) = distSq (q i) (q j)) :
    (cols p)ᵀ * cols p = (cols q)ᵀ * cols q := by
  have key : ∀ (p : Fin (d + 1) → Pt (d + 1)) (i j : Fin d), ((cols p)ᵀ * cols p) i j =
      (distSq (p i.succ) (p 0) + distSq (p j.succ) (p 0) - distSq (p i.succ) (p j.succ)) / 2 := by
    intro p i j
    rw [mul_apply, distSq, distSq, distSq, ← Finset.sum_add_distrib, ← Finset.sum_sub_distrib, Finset.sum_div]
    refine Finset.sum_congr rfl fun k _ => ?_
    simp only [cols, transpose_apply, of_apply]
    ring
  ext i j
  rw [key, key, h, h, h]

omit hw in
theorem gram_ne (p : Fin (d + 1) → Pt (d + 1)) (h : LinearIndependent ℝ fun i : Fin d => p i.succ - p 0) :
    ((cols p)ᵀ * cols p).det ≠ 0 := by
  intro h0
  obtain ⟨v, hv, h1⟩ := exists_mulVec_eq_zero_iff.2 h0
  have h2 : (cols p *ᵥ v) ⬝ᵥ (cols p *ᵥ v) = 0 := by
    rw [dotProduct_mulVec, vecMul_mulVec, ← mulVec_transpose, transpose_mul, transpose_transpose, h1, zero_dotProduct]
  have h3 := dotProduct_self_eq_zero.1 h2
  have h4 := Fintype.linearIndependent_iff.1 h v (by
    ext k
    have := congrFun h3 k
    simp only [mulVec, dotProduct, cols, of_apply, Pi.zero_apply] at this
    simp only [Finset.sum_apply, Pi.smul_apply, Pi.sub_apply, smul_eq_mul, Pi.zero_apply]
    rw [← this]
    exact Finset.sum_congr rfl fun _ _ => mul_comm _ _)
  exact hv (funext h4)

omit hw in
theorem solveMatrix_spec (A B : Matrix (Fin d) (Fin d) ℝ) (hA : A.det ≠ 0) : A * solveMatrix A B = B := by
  ext i j
  have := congrFun (Transform.solve_spec A hA fun k => B k j) i
  rw [mul_apply]
  exact this

omit hw in
theorem solveMatrix_unique (A B X : Matrix (Fin d) (Fin d) ℝ) (hA : A.det ≠ 0) (h : A * X = B) : solveMatrix A B = X := by
  ext i j
  refine congrFun (Transform.solve_unique A hA _ (fun k => X k j) ?_) i
  ext k
  exact congrFun (congrFun h k) j

/-- The computed matrix turns the right face to the left one. -/
theorem turns_solve (left right : Pt d → Pt (d + 1)) (hs : SameShape left right) (hl : Spread left) :
    Turns (solveMatrix (directions w fun i => left (corner i)) (directions w fun i => right (corner i))) left right := by
  set p : Fin (d + 1) → Pt (d + 1) := fun i => left (corner i) with hp
  set q : Fin (d + 1) → Pt (d + 1) := fun i => right (corner i) with hq
  have hg := cols_gram p q hs
  have hG := gram_eq hw p q hg
  have hd : (directions w p).det ≠ 0 := by rw [det_directions hw]; exact gram_ne p hl
  set L := directions w p with hL
  set R := directions w q with hR
  set X := solveMatrix L R with hX
  have hLX : L * X = R := solveMatrix_spec L R hd
  have hu : IsUnit L.det := Ne.isUnit hd
  have hXX : X * Xᵀ = 1 := by
    have h1 : L * (X * Xᵀ) * Lᵀ = L * Lᵀ := by
      rw [hG, ← hLX, transpose_mul]; simp only [Matrix.mul_assoc]
    have hu' : IsUnit Lᵀ.det := by rwa [det_transpose]
    have h2 := congrArg (fun M => L⁻¹ * M * Lᵀ⁻¹) h1
    simp only [Matrix.mul_assoc] at h2
    rw [mul_nonsing_inv _ hu', nonsing_inv_mul_cancel_left _ _ hu] at h2
    rw [nonsing_inv_mul_cancel_left _ _ hu] at h2
    simpa using h2
  have hXX' : Xᵀ * X = 1 := mul_eq_one_comm.1 hXX
  have hdet : X.det = 1 := by
    have h1 := congrArg Matrix.det hLX
    rw [det_mul, hL, hR, det_directions hw, det_directions hw, hg] at h1
    have h2 : ((cols q)ᵀ * cols q).det ≠ 0 := by rw [← hg]; exact gram_ne p hl
    exact mul_left_cancel₀ h2 (by rw [h1, mul_one])
  have hLR : L = R * Xᵀ := by rw [← hLX, Matrix.mul_assoc, hXX, Matrix.mul_one]
  have hrow : ∀ i : Fin d, X *ᵥ (q i.succ - q 0) = p i.succ - p 0 := by
    intro i
    ext j
    have := congrFun (congrFun hLR i.castSucc) j
    rw [mul_apply] at this
    simp only [hL, hR, directions_eq, transpose_apply, appendCol_castSucc, cols, of_apply] at this
    rw [Pi.sub_apply, this]
    simp only [mulVec, dotProduct, Pi.sub_apply]
    exact Finset.sum_congr rfl fun _ _ => mul_comm _ _
  have hrow' : ∀ i, X *ᵥ (q i - q 0) = p i - p 0 := by
    intro i
    refine Fin.cases ?_ hrow i
    rw [sub_self, sub_self, mulVec_zero]
  refine ⟨hXX', hdet, fun i j => ?_⟩
  have e : ∀ a b c : Pt (d + 1), a - b = (a - c) - (b - c) := fun a b c => by abel
  change X *ᵥ (q i - q j) = p i - p j
  rw [e (q i) (q j) (q 0), mulVec_sub, hrow', hrow', ← e]

/-- A proper rotation commutes with the wedge product. -/
theorem wedge_turn (X : Matrix (Fin (d + 1)) (Fin (d + 1)) ℝ) (h1 : Xᵀ * X = 1) (h2 : X.det = 1) (J : Matrix (Fin (d + 1)) (Fin d) ℝ) :
    w (X * J) = X *ᵥ w J := by
  have h3 : X * Xᵀ = 1 := mul_eq_one_comm.1 h1
  refine dotProduct_eq _ _ fun v => ?_
  have hv : v = X *ᵥ (Xᵀ *ᵥ v) := by rw [mulVec_mulVec, h3, one_mulVec]
  rw [hv, hw.dot, RefGeometry.appendCol_mul, det_mul, h2, one_mul, ← hw.dot]
  rw [dotProduct_mulVec (X *ᵥ w J), vecMul_mulVec, h1, vecMul_one]

/-- Any rotation that turns the right face to the left one is the computed one. -/
theorem solve_turns (left right : Pt d → Pt (d + 1)) (hl : Spread left) (X : Matrix (Fin (d + 1)) (Fin (d + 1)) ℝ)
    (hX : Turns X left right) :
    solveMatrix (directions w fun i => left (corner i)) (directions w fun i => right (corner i)) = X := by
  set p : Fin (d + 1) → Pt (d + 1) := fun i => left (corner i) with hp
  set q : Fin (d + 1) → Pt (d + 1) := fun i => right (corner i) with hq
  obtain ⟨h1, h2, h3⟩ := hX
  have hd : (directions w p).det ≠ 0 := by rw [det_directions hw]; exact gram_ne p hl
  refine solveMatrix_unique _ _ _ hd ?_
  have hc : cols p = X * cols q := by
    ext j i
    have := congrFun (h3 i.succ 0) j
    rw [mul_apply]
    simp only [mulVec, dotProduct, Pi.sub_apply] at this
    simp only [cols, of_apply]
    exact this.symm
  rw [directions_eq, directions_eq, hc, wedge_turn hw X h1 h2, RefGeometry.appendCol_mul, transpose_mul, Matrix.mul_assoc, h1,
    Matrix.mul_one]

omit hw in
/-- For a rotation all transformations of vectors are multiplication. -/
theorem solve_rotation (X : Matrix (Fin d) (Fin d) ℝ) (h1 : Xᵀ * X = 1) (h2 : X.det = 1) (v : Pt d) : solve Xᵀ v = X *ᵥ v := by
  refine Transform.solve_unique _ (by rw [det_transpose, h2]; exact one_ne_zero) _ _ ?_
  rw [mulVec_mulVec, h1, one_mulVec]

end Verif.FaceRotation
