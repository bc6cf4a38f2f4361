import Verif.PhysMap.LemmasPyramid
import Verif.Lattice.Props
import Verif.PhysMap.Spec
import Mathlib.Tactic.Linarith

set_option linter.all false
namespace Verif.PhysMap
open Verif.RefGeometry (Pt Face)
open Matrix

/-! ### The curved faces -/
section
variable {V : Type*} [AddCommGroup V] [Module ℝ V]

theorem curvedLine_two : Lattice.curvedLine 2 = [![-1], ![0], ![1]] := by
  simp [Lattice.curvedLine, List.range_succ]
  norm_num

theorem triangle2_face (f : Face 1) (hf : f ∈ RefGeometry.triangleFaces) (p : Nat → V) (x : Pt 1) :
    triangle2 p (f.map.transform x) =
      parabola (fun i => triangle2 p (f.map.transform ((Lattice.curvedLine 2).getD i 0))) x := by
  rw [curvedLine_two]
  simp only [RefGeometry.triangleFaces, List.mem_cons, List.not_mem_nil, or_false] at hf
  rcases hf with rfl | rfl | rfl <;> simp only [triangle2_eq, parabola] <;> simp <;> norm_num <;> module

theorem tetrahedron2_face (f : Face 2) (hf : f ∈ RefGeometry.tetrahedronFaces) (p : Nat → V) (x : Pt 2) :
    tetrahedron2 p (f.map.transform x) =
      triangle2 (fun i => tetrahedron2 p (f.map.transform ((Lattice.curvedTriangle 2).getD i 0))) x := by
  rw [curvedTriangle_two]
  simp only [RefGeometry.tetrahedronFaces, List.mem_cons, List.not_mem_nil, or_false] at hf
  rcases hf with rfl | rfl | rfl | rfl <;> simp only [tetrahedron2_eq, triangle2_eq] <;> simp <;> norm_num <;> module

end

/-! ### Newton -/
section
variable {d : Nat} (F : Pt d → Pt d) (J : Pt d → Matrix (Fin d) (Fin d) ℝ) (q : Pt d)

theorem newtonLoop_done (j : Nat) : ∀ (n c : Nat) (x : Pt d), j ≤ n →
    (∀ i < j, distSq q (F ((newtonStep F J q)^[i] x)) > 1e-28) →
    ¬ distSq q (F ((newtonStep F J q)^[j] x)) > 1e-28 →
    newtonLoop F J q n c x = ((newtonStep F J q)^[j] x, c + j) := by
  induction j with
  | zero =>
    intro n c x _ _ h
    simp only [Function.iterate_zero, id] at h ⊢
    cases n <;> simp only [newtonLoop, if_neg h, Nat.add_zero]
  | succ j ih =>
    intro n c x hn hi h
    cases n with
    | zero => omega
    | succ n =>
      have h0 := hi 0 (by omega)
      simp only [Function.iterate_zero, id] at h0
      rw [newtonLoop, if_pos h0, ih n (c + 1) _ (by omega) ?_ ?_]
      · rw [Function.iterate_succ_apply]; congr 1; omega
      · intro i hij
        have := hi (i + 1) (by omega)
        rwa [Function.iterate_succ_apply] at this
      · rwa [Function.iterate_succ_apply] at h

theorem newtonLoop_exhausted (n : Nat) : ∀ (c : Nat) (x : Pt d),
    (∀ i ≤ n, distSq q (F ((newtonStep F J q)^[i] x)) > 1e-28) →
    newtonLoop F J q n c x = ((newtonStep F J q)^[n] x, c + n + 1) := by
  induction n with
  | zero =>
    intro c x h
    have h0 := h 0 (by omega)
    simp only [Function.iterate_zero, id] at h0 ⊢
    rw [newtonLoop, if_pos h0]
  | succ n ih =>
    intro c x h
    have h0 := h 0 (by omega)
    simp only [Function.iterate_zero, id] at h0
    rw [newtonLoop, if_pos h0, ih (c + 1) _ (fun i hi => ?_)]
    · rw [Function.iterate_succ_apply]; congr 1; omega
    · have := h (i + 1) (by omega)
      rwa [Function.iterate_succ_apply] at this

/-- The iterates of Newton's method from the origin. -/
noncomputable def iterate (i : Nat) : Pt d := (newtonStep F J q)^[i] 0

theorem newton_first (j : Nat) (hj : j ≤ 100) (hi : ∀ i < j, distSq q (F (iterate F J q i)) > 1e-28)
    (h : ¬ distSq q (F (iterate F J q j)) > 1e-28) :
    newton F J q = if j = 100 then none else some (iterate F J q j) := by
  unfold newton
  rw [newtonLoop_done F J q j 100 0 0 hj hi h]
  simp [iterate]

theorem newton_never (h : ∀ i ≤ 100, distSq q (F (iterate F J q i)) > 1e-28) :
    newton F J q = some (iterate F J q 100) := by
  unfold newton
  rw [newtonLoop_exhausted F J q 100 0 0 h]
  simp [iterate]

/-- Either some iterate is the first good one or there is none. -/
theorem first_or_never (P : Nat → Prop) : (∃ j ≤ 100, (∀ i < j, P i) ∧ ¬ P j) ∨ ∀ i ≤ 100, P i := by
  classical
  by_cases h : ∃ j, j ≤ 100 ∧ ¬ P j
  · left
    refine ⟨Nat.find h, (Nat.find_spec h).1, fun i hi => ?_, (Nat.find_spec h).2⟩
    have h1 := Nat.find_min h hi
    by_contra hc
    have := (Nat.find_spec h).1
    exact h1 ⟨by omega, hc⟩
  · right
    intro i hi
    by_contra hc
    exact h ⟨i, hi, hc⟩

theorem solve_mul {A : Matrix (Fin d) (Fin d) ℝ} (hA : A.det ≠ 0) (b : Pt d) : A *ᵥ solve A b = b := by
  unfold solve
  rw [if_neg hA, mulVec_mulVec, mul_nonsing_inv A (isUnit_iff_ne_zero.2 hA), one_mulVec]

theorem distSq_self (a : Pt d) : distSq a a = 0 := by simp [distSq]

/-- For an affine map the first step is exact. -/
theorem newton_affine (c : Pt d) (A : Matrix (Fin d) (Fin d) ℝ) (hF : ∀ x, F x = c + A *ᵥ x) (hJ : J 0 = A)
    (hA : A.det ≠ 0) : ∃ x, newton F J q = some x ∧ distSq q (F x) ≤ 1e-28 := by
  have h1 : F (iterate F J q 1) = q := by
    show F (newtonStep F J q 0) = q
    unfold newtonStep
    rw [hF, hJ, zero_add, solve_mul hA, hF, mulVec_zero]
    abel
  by_cases h0 : distSq q (F (iterate F J q 0)) > 1e-28
  · refine ⟨iterate F J q 1, ?_, by rw [h1, distSq_self]; norm_num⟩
    rw [newton_first F J q 1 (by omega) (fun i hi => (Nat.lt_one_iff.1 hi) ▸ h0)
      (by rw [h1, distSq_self]; norm_num)]
    rfl
  · refine ⟨iterate F J q 0, ?_, not_lt.1 h0⟩
    rw [newton_first F J q 0 (by omega) (fun i hi => by omega) h0]
    rfl

/-! ### The loop without limit -/

theorem quadLoop_spec (x0 x : Pt d) (h : quadLoop F J q x0 = some x) :
    ∃ y, x = y - solve (J y) (F y - q) ∧ ∑ i, (solve (J y) (F y - q)) i ^ 2 ≤ 1e-10 := by
  refine quadLoop.partial_correctness F J q
    (motive := fun x0 x => ∃ y, x = y - solve (J y) (F y - q) ∧ ∑ i, (solve (J y) (F y - q)) i ^ 2 ≤ 1e-10) ?_ x0 x h
  intro g ih x0 x hx
  dsimp only at hx
  split at hx
  · exact ih _ _ hx
  · rename_i hn
    exact ⟨x0, (Option.some.inj hx).symm, not_lt.1 hn⟩

theorem quadLoop_affine (c : Pt d) (A : Matrix (Fin d) (Fin d) ℝ) (hF : ∀ x, F x = c + A *ᵥ x)
    (hJ : ∀ x, J x = A) (hA : A.det ≠ 0) (x0 : Pt d) : ∃ x, quadLoop F J q x0 = some x ∧ F x = q := by
  have h1 : ∀ y, F (y - solve (J y) (F y - q)) = q := by
    intro y
    rw [hF, hJ, mulVec_sub, solve_mul hA, hF]
    abel
  rw [quadLoop]
  split
  · rw [quadLoop]
    have h2 : solve (J (x0 - solve (J x0) (F x0 - q))) (F (x0 - solve (J x0) (F x0 - q)) - q) = 0 := by
      rw [h1, sub_self]
      generalize J (x0 - solve (J x0) (F x0 - q)) = B
      unfold solve
      split
      · rfl
      · rw [mulVec_zero]
    simp only [h2]
    rw [if_neg (by norm_num)]
    exact ⟨_, rfl, by rw [sub_zero]; exact h1 x0⟩
  · exact ⟨_, rfl, h1 x0⟩

end
end Verif.PhysMap
