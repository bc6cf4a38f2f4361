import Verif.Refine.Spec
import Mathlib.Analysis.Calculus.FDeriv.Prod
import Mathlib.Analysis.Calculus.FDeriv.Mul
import Mathlib.Analysis.Calculus.FDeriv.Add
import Mathlib.Analysis.Calculus.FDeriv.Pi
import Mathlib.Tactic.FinCases
import Mathlib.Tactic.FieldSimp
import Mathlib.Tactic.Ring
import Mathlib.Tactic.Linarith
import Mathlib.Tactic.IntervalCases
import Mathlib.Algebra.BigOperators.Fin
import Mathlib.LinearAlgebra.Matrix.NonsingularInverse

/-! # The matrices of the refinements -/
set_option linter.all false
namespace Verif.Refine
open Verif.RefGeometry (Pt Geom Face)

/-- A map that is an affine map plus multiples of a product of two coordinates. -/
theorem hasFDerivAt_of_bilinear {d : Nat} (T : Pt d → Pt d) (L : Matrix (Fin d) (Fin d) ℝ) (p : Pt d) (a b : Fin d)
    (c : Fin d → ℝ)
    (h : ∀ q i, T q i = T p i + ∑ j, L i j * (q j - p j) + c i * ((q a - p a) * (q b - p b))) :
    HasFDerivAt T L.mulVecLin.toContinuousLinearMap p := by
  rw [hasFDerivAt_pi']
  intro i
  have e1 : (fun q => T q i) = fun q => (T p i + ∑ j, L i j * (q j - p j)) + c i * ((q a - p a) * (q b - p b)) := by
    funext q; rw [h]
  rw [e1]
  have ha : ∀ j : Fin d, HasFDerivAt (fun q : Pt d => q j - p j) (ContinuousLinearMap.proj (R := ℝ) (φ := fun _ => ℝ) j) p :=
    fun j => (hasFDerivAt_apply j p).sub_const _
  have h1 : HasFDerivAt (fun q : Pt d => ∑ j, L i j * (q j - p j))
      (∑ j, L i j • ContinuousLinearMap.proj (R := ℝ) (φ := fun _ => ℝ) j) p :=
    HasFDerivAt.fun_sum fun j _ => (ha j).const_mul _
  have h2 := ((ha a).mul (ha b)).const_mul (c i)
  refine ((h1.const_add (T p i)).add h2).congr_fderiv ?_
  ext v
  simp [Matrix.mulVec, dotProduct]

theorem hasFDerivAt_of_affine {d : Nat} (T : Pt d → Pt d) (L : Matrix (Fin d) (Fin d) ℝ) (p : Pt d)
    (h : ∀ q i, T q i = T p i + ∑ j, L i j * (q j - p j)) : HasFDerivAt T L.mulVecLin.toContinuousLinearMap p := by
  cases d with
  | zero => exact hasFDerivAt_pi'.2 fun i => i.elim0
  | succ d => exact hasFDerivAt_of_bilinear T L p 0 0 0 fun q i => by rw [h]; simp

theorem inv_of_mul {d : Nat} (L R : Matrix (Fin d) (Fin d) ℝ) (h : L * R = 1) : L * R = 1 ∧ R * L = 1 :=
  ⟨h, mul_eq_one_comm.1 h⟩

/-! ## The tables -/

theorem fits_point0 : ∀ s < 1, MatricesFit .point0 s := by
  intro s hs
  interval_cases s
  · refine ⟨fun p => p, .point, fun p => rfl, rfl, fun p hp => ⟨_, _, rfl, rfl, ?_, ?_⟩⟩
    · exact hasFDerivAt_of_affine _ _ _ fun q i => i.elim0
    · exact ⟨Subsingleton.elim _ _, Subsingleton.elim _ _⟩

theorem fits_line0 : ∀ s < 1, MatricesFit .line0 s := by
  intro s hs
  interval_cases s
  · refine ⟨fun p => p, .line, fun p => rfl, rfl, fun p hp => ⟨_, _, rfl, rfl, ?_, ?_⟩⟩
    · refine hasFDerivAt_of_affine _ _ _ fun q i => ?_
      fin_cases i <;> simp [Fin.sum_univ_succ] <;> ring
    · refine inv_of_mul _ _ ?_
      ext i j; fin_cases i <;> fin_cases j <;> norm_num [Matrix.mul_apply, Fin.sum_univ_succ]

theorem fits_line1 : ∀ s < 2, MatricesFit .line1 s := by
  intro s hs
  interval_cases s
  · refine ⟨fun p => ![p 0 / 2 + ((0 : ℕ) : ℝ) - 0.5], .line, fun p => rfl, rfl, fun p hp => ⟨_, _, rfl, rfl, ?_, ?_⟩⟩
    · refine hasFDerivAt_of_affine _ _ _ fun q i => ?_
      fin_cases i <;> simp [Fin.sum_univ_succ] <;> ring
    · refine inv_of_mul _ _ ?_
      ext i j; fin_cases i <;> fin_cases j <;> norm_num [Matrix.mul_apply, Fin.sum_univ_succ]
  · refine ⟨fun p => ![p 0 / 2 + ((1 : ℕ) : ℝ) - 0.5], .line, fun p => rfl, rfl, fun p hp => ⟨_, _, rfl, rfl, ?_, ?_⟩⟩
    · refine hasFDerivAt_of_affine _ _ _ fun q i => ?_
      fin_cases i <;> simp [Fin.sum_univ_succ] <;> ring
    · refine inv_of_mul _ _ ?_
      ext i j; fin_cases i <;> fin_cases j <;> norm_num [Matrix.mul_apply, Fin.sum_univ_succ]

theorem fits_square0 : ∀ s < 1, MatricesFit .square0 s := by
  intro s hs
  interval_cases s
  · refine ⟨fun p => p, .square, fun p => rfl, rfl, fun p hp => ⟨_, _, rfl, rfl, ?_, ?_⟩⟩
    · refine hasFDerivAt_of_affine _ _ _ fun q i => ?_
      fin_cases i <;> simp [Fin.sum_univ_succ] <;> ring
    · refine inv_of_mul _ _ ?_
      ext i j; fin_cases i <;> fin_cases j <;> norm_num [Matrix.mul_apply, Fin.sum_univ_succ]

theorem fits_square1 : ∀ s < 2, MatricesFit .square1 s := by
  intro s hs
  interval_cases s
  · refine ⟨fun p => ![p 0 / 2 + ((0 : ℕ) : ℝ) - 0.5, p 1], .square, fun p => rfl, rfl, fun p hp => ⟨_, _, rfl, rfl, ?_, ?_⟩⟩
    · refine hasFDerivAt_of_affine _ _ _ fun q i => ?_
      fin_cases i <;> simp [Fin.sum_univ_succ] <;> ring
    · refine inv_of_mul _ _ ?_
      ext i j; fin_cases i <;> fin_cases j <;> norm_num [Matrix.mul_apply, Fin.sum_univ_succ]
  · refine ⟨fun p => ![p 0 / 2 + ((1 : ℕ) : ℝ) - 0.5, p 1], .square, fun p => rfl, rfl, fun p hp => ⟨_, _, rfl, rfl, ?_, ?_⟩⟩
    · refine hasFDerivAt_of_affine _ _ _ fun q i => ?_
      fin_cases i <;> simp [Fin.sum_univ_succ] <;> ring
    · refine inv_of_mul _ _ ?_
      ext i j; fin_cases i <;> fin_cases j <;> norm_num [Matrix.mul_apply, Fin.sum_univ_succ]

theorem fits_square2 : ∀ s < 2, MatricesFit .square2 s := by
  intro s hs
  interval_cases s
  · refine ⟨fun p => ![p 0, p 1 / 2 + ((0 : ℕ) : ℝ) - 0.5], .square, fun p => rfl, rfl, fun p hp => ⟨_, _, rfl, rfl, ?_, ?_⟩⟩
    · refine hasFDerivAt_of_affine _ _ _ fun q i => ?_
      fin_cases i <;> simp [Fin.sum_univ_succ] <;> ring
    · refine inv_of_mul _ _ ?_
      ext i j; fin_cases i <;> fin_cases j <;> norm_num [Matrix.mul_apply, Fin.sum_univ_succ]
  · refine ⟨fun p => ![p 0, p 1 / 2 + ((1 : ℕ) : ℝ) - 0.5], .square, fun p => rfl, rfl, fun p hp => ⟨_, _, rfl, rfl, ?_, ?_⟩⟩
    · refine hasFDerivAt_of_affine _ _ _ fun q i => ?_
      fin_cases i <;> simp [Fin.sum_univ_succ] <;> ring
    · refine inv_of_mul _ _ ?_
      ext i j; fin_cases i <;> fin_cases j <;> norm_num [Matrix.mul_apply, Fin.sum_univ_succ]

theorem fits_square3 : ∀ s < 4, MatricesFit .square3 s := by
  intro s hs
  interval_cases s
  · refine ⟨fun p => ![-0.5 + 0.5 * p 0, -0.5 + 0.5 * p 1], .square, fun p => rfl, rfl, fun p hp => ⟨_, _, rfl, rfl, ?_, ?_⟩⟩
    · refine hasFDerivAt_of_affine _ _ _ fun q i => ?_
      fin_cases i <;> simp [Fin.sum_univ_succ] <;> ring
    · refine inv_of_mul _ _ ?_
      ext i j; fin_cases i <;> fin_cases j <;> norm_num [Matrix.mul_apply, Fin.sum_univ_succ]
  · refine ⟨fun p => ![0.5 + 0.5 * p 0, -0.5 + 0.5 * p 1], .square, fun p => rfl, rfl, fun p hp => ⟨_, _, rfl, rfl, ?_, ?_⟩⟩
    · refine hasFDerivAt_of_affine _ _ _ fun q i => ?_
      fin_cases i <;> simp [Fin.sum_univ_succ] <;> ring
    · refine inv_of_mul _ _ ?_
      ext i j; fin_cases i <;> fin_cases j <;> norm_num [Matrix.mul_apply, Fin.sum_univ_succ]
  · refine ⟨fun p => ![-0.5 + 0.5 * p 0, 0.5 + 0.5 * p 1], .square, fun p => rfl, rfl, fun p hp => ⟨_, _, rfl, rfl, ?_, ?_⟩⟩
    · refine hasFDerivAt_of_affine _ _ _ fun q i => ?_
      fin_cases i <;> simp [Fin.sum_univ_succ] <;> ring
    · refine inv_of_mul _ _ ?_
      ext i j; fin_cases i <;> fin_cases j <;> norm_num [Matrix.mul_apply, Fin.sum_univ_succ]
  · refine ⟨fun p => ![0.5 + 0.5 * p 0, 0.5 + 0.5 * p 1], .square, fun p => rfl, rfl, fun p hp => ⟨_, _, rfl, rfl, ?_, ?_⟩⟩
    · refine hasFDerivAt_of_affine _ _ _ fun q i => ?_
      fin_cases i <;> simp [Fin.sum_univ_succ] <;> ring
    · refine inv_of_mul _ _ ?_
      ext i j; fin_cases i <;> fin_cases j <;> norm_num [Matrix.mul_apply, Fin.sum_univ_succ]

theorem fits_triangle0 : ∀ s < 1, MatricesFit .triangle0 s := by
  intro s hs
  interval_cases s
  · refine ⟨fun p => p, .triangle, fun p => rfl, rfl, fun p hp => ⟨_, _, rfl, rfl, ?_, ?_⟩⟩
    · refine hasFDerivAt_of_affine _ _ _ fun q i => ?_
      fin_cases i <;> simp [Fin.sum_univ_succ] <;> ring
    · refine inv_of_mul _ _ ?_
      ext i j; fin_cases i <;> fin_cases j <;> norm_num [Matrix.mul_apply, Fin.sum_univ_succ]

theorem fits_triangle1 : ∀ s < 2, MatricesFit .triangle1 s := by
  intro s hs
  interval_cases s
  · refine ⟨fun p => ![(p 0 + ((0 : ℕ) : ℝ)) / 2, p 1], .triangle, fun p => rfl, rfl, fun p hp => ⟨_, _, rfl, rfl, ?_, ?_⟩⟩
    · refine hasFDerivAt_of_affine _ _ _ fun q i => ?_
      fin_cases i <;> simp [Fin.sum_univ_succ] <;> ring
    · refine inv_of_mul _ _ ?_
      ext i j; fin_cases i <;> fin_cases j <;> norm_num [Matrix.mul_apply, Fin.sum_univ_succ]
  · refine ⟨fun p => ![(p 0 + ((1 : ℕ) : ℝ)) / 2, p 1], .triangle, fun p => rfl, rfl, fun p hp => ⟨_, _, rfl, rfl, ?_, ?_⟩⟩
    · refine hasFDerivAt_of_affine _ _ _ fun q i => ?_
      fin_cases i <;> simp [Fin.sum_univ_succ] <;> ring
    · refine inv_of_mul _ _ ?_
      ext i j; fin_cases i <;> fin_cases j <;> norm_num [Matrix.mul_apply, Fin.sum_univ_succ]

theorem fits_triangle2 : ∀ s < 2, MatricesFit .triangle2 s := by
  intro s hs
  interval_cases s
  · refine ⟨fun p => ![p 0, (p 1 + ((0 : ℕ) : ℝ)) / 2], .triangle, fun p => rfl, rfl, fun p hp => ⟨_, _, rfl, rfl, ?_, ?_⟩⟩
    · refine hasFDerivAt_of_affine _ _ _ fun q i => ?_
      fin_cases i <;> simp [Fin.sum_univ_succ] <;> ring
    · refine inv_of_mul _ _ ?_
      ext i j; fin_cases i <;> fin_cases j <;> norm_num [Matrix.mul_apply, Fin.sum_univ_succ]
  · refine ⟨fun p => ![p 0, (p 1 + ((1 : ℕ) : ℝ)) / 2], .triangle, fun p => rfl, rfl, fun p hp => ⟨_, _, rfl, rfl, ?_, ?_⟩⟩
    · refine hasFDerivAt_of_affine _ _ _ fun q i => ?_
      fin_cases i <;> simp [Fin.sum_univ_succ] <;> ring
    · refine inv_of_mul _ _ ?_
      ext i j; fin_cases i <;> fin_cases j <;> norm_num [Matrix.mul_apply, Fin.sum_univ_succ]

theorem fits_triangle3 : ∀ s < 2, MatricesFit .triangle3 s := by
  intro s hs
  interval_cases s
  · refine ⟨fun p => ![0.5 * p 0, 0.5 * p 0 + p 1], .triangle, fun p => rfl, rfl, fun p hp => ⟨_, _, rfl, rfl, ?_, ?_⟩⟩
    · refine hasFDerivAt_of_affine _ _ _ fun q i => ?_
      fin_cases i <;> simp [Fin.sum_univ_succ] <;> ring
    · refine inv_of_mul _ _ ?_
      ext i j; fin_cases i <;> fin_cases j <;> norm_num [Matrix.mul_apply, Fin.sum_univ_succ]
  · refine ⟨fun p => ![p 0 + 0.5 * p 1, 0.5 * p 1], .triangle, fun p => rfl, rfl, fun p hp => ⟨_, _, rfl, rfl, ?_, ?_⟩⟩
    · refine hasFDerivAt_of_affine _ _ _ fun q i => ?_
      fin_cases i <;> simp [Fin.sum_univ_succ] <;> ring
    · refine inv_of_mul _ _ ?_
      ext i j; fin_cases i <;> fin_cases j <;> norm_num [Matrix.mul_apply, Fin.sum_univ_succ]

theorem fits_triangle4 : ∀ s < 4, MatricesFit .triangle4 s := by
  intro s hs
  interval_cases s
  · refine ⟨fun p => ![0.5 * p 0, 0.5 * p 1], .triangle, fun p => rfl, rfl, fun p hp => ⟨_, _, rfl, rfl, ?_, ?_⟩⟩
    · refine hasFDerivAt_of_affine _ _ _ fun q i => ?_
      fin_cases i <;> simp [Fin.sum_univ_succ] <;> ring
    · refine inv_of_mul _ _ ?_
      ext i j; fin_cases i <;> fin_cases j <;> norm_num [Matrix.mul_apply, Fin.sum_univ_succ]
  · refine ⟨fun p => ![0.5 + 0.5 * p 0, 0.5 * p 1], .triangle, fun p => rfl, rfl, fun p hp => ⟨_, _, rfl, rfl, ?_, ?_⟩⟩
    · refine hasFDerivAt_of_affine _ _ _ fun q i => ?_
      fin_cases i <;> simp [Fin.sum_univ_succ] <;> ring
    · refine inv_of_mul _ _ ?_
      ext i j; fin_cases i <;> fin_cases j <;> norm_num [Matrix.mul_apply, Fin.sum_univ_succ]
  · refine ⟨fun p => ![0.5 * p 0, 0.5 + 0.5 * p 1], .triangle, fun p => rfl, rfl, fun p hp => ⟨_, _, rfl, rfl, ?_, ?_⟩⟩
    · refine hasFDerivAt_of_affine _ _ _ fun q i => ?_
      fin_cases i <;> simp [Fin.sum_univ_succ] <;> ring
    · refine inv_of_mul _ _ ?_
      ext i j; fin_cases i <;> fin_cases j <;> norm_num [Matrix.mul_apply, Fin.sum_univ_succ]
  · refine ⟨fun p => ![0.5 - 0.5 * p 0, 0.5 - 0.5 * p 1], .triangle, fun p => rfl, rfl, fun p hp => ⟨_, _, rfl, rfl, ?_, ?_⟩⟩
    · refine hasFDerivAt_of_affine _ _ _ fun q i => ?_
      fin_cases i <;> simp [Fin.sum_univ_succ] <;> ring
    · refine inv_of_mul _ _ ?_
      ext i j; fin_cases i <;> fin_cases j <;> norm_num [Matrix.mul_apply, Fin.sum_univ_succ]

theorem fits_triangle5 : ∀ s < 3, MatricesFit .triangle5 s := by
  intro s hs
  interval_cases s
  · refine ⟨fun p => ![(p 1 + 1) * (5 + p 0) / 24, (1 - p 0) * (5 - p 1) / 24], .square, fun p => rfl, rfl, fun p hp => ⟨_, _, rfl, rfl, ?_, ?_⟩⟩
    · refine hasFDerivAt_of_bilinear _ _ _ 0 1 ![(1 / 24), (1 / 24)] fun q i => ?_
      fin_cases i <;> simp [Fin.sum_univ_succ] <;> ring
    · obtain ⟨h0, h1, h2, h3⟩ := hp
      have hd : p 0 - p 1 + 4 ≠ 0 := ne_of_gt (by linarith)
      refine inv_of_mul _ _ ?_
      ext i j; fin_cases i <;> fin_cases j <;> simp [Matrix.mul_apply, Fin.sum_univ_succ] <;> field_simp <;> ring
  · refine ⟨fun p => ![((p 0 + 2) * (2 - p 1) + 3) / 12, (p 1 + 1) * (5 + p 0) / 24], .square, fun p => rfl, rfl, fun p hp => ⟨_, _, rfl, rfl, ?_, ?_⟩⟩
    · refine hasFDerivAt_of_bilinear _ _ _ 0 1 ![(-1 / 12), (1 / 24)] fun q i => ?_
      fin_cases i <;> simp [Fin.sum_univ_succ] <;> ring
    · obtain ⟨h0, h1, h2, h3⟩ := hp
      have hd : p 0 - p 1 + 4 ≠ 0 := ne_of_gt (by linarith)
      refine inv_of_mul _ _ ?_
      ext i j; fin_cases i <;> fin_cases j <;> simp [Matrix.mul_apply, Fin.sum_univ_succ] <;> field_simp <;> ring
  · refine ⟨fun p => ![(1 - p 0) * (5 - p 1) / 24, ((p 0 + 2) * (2 - p 1) + 3) / 12], .square, fun p => rfl, rfl, fun p hp => ⟨_, _, rfl, rfl, ?_, ?_⟩⟩
    · refine hasFDerivAt_of_bilinear _ _ _ 0 1 ![(1 / 24), (-1 / 12)] fun q i => ?_
      fin_cases i <;> simp [Fin.sum_univ_succ] <;> ring
    · obtain ⟨h0, h1, h2, h3⟩ := hp
      have hd : p 0 - p 1 + 4 ≠ 0 := ne_of_gt (by linarith)
      refine inv_of_mul _ _ ?_
      ext i j; fin_cases i <;> fin_cases j <;> simp [Matrix.mul_apply, Fin.sum_univ_succ] <;> field_simp <;> ring

theorem fits_triangle6 : ∀ s < 2, MatricesFit .triangle6 s := by
  intro s hs
  interval_cases s
  · refine ⟨fun p => ![(1 + p 0) / 4, (p 1 + 1) * (3 - p 0) / 8], .square, fun p => rfl, rfl, fun p hp => ⟨_, _, rfl, rfl, ?_, ?_⟩⟩
    · refine hasFDerivAt_of_bilinear _ _ _ 0 1 ![(0), (-1 / 8)] fun q i => ?_
      fin_cases i <;> simp [Fin.sum_univ_succ] <;> ring
    · obtain ⟨h0, h1, h2, h3⟩ := hp
      have hd : 3 - p 0 ≠ 0 := ne_of_gt (by linarith)
      refine inv_of_mul _ _ ?_
      ext i j; fin_cases i <;> fin_cases j <;> simp [Matrix.mul_apply, Fin.sum_univ_succ] <;> field_simp <;> ring
  · refine ⟨fun p => ![(1 + p 0) / 2, p 1 / 2], .triangle, fun p => rfl, rfl, fun p hp => ⟨_, _, rfl, rfl, ?_, ?_⟩⟩
    · refine hasFDerivAt_of_affine _ _ _ fun q i => ?_
      fin_cases i <;> simp [Fin.sum_univ_succ] <;> ring
    · refine inv_of_mul _ _ ?_
      ext i j; fin_cases i <;> fin_cases j <;> norm_num [Matrix.mul_apply, Fin.sum_univ_succ]

theorem fits_triangle7 : ∀ s < 2, MatricesFit .triangle7 s := by
  intro s hs
  interval_cases s
  · refine ⟨fun p => ![(p 0 + 1) * (3 - p 1) / 8, (1 + p 1) / 4], .square, fun p => rfl, rfl, fun p hp => ⟨_, _, rfl, rfl, ?_, ?_⟩⟩
    · refine hasFDerivAt_of_bilinear _ _ _ 0 1 ![(-1 / 8), (0)] fun q i => ?_
      fin_cases i <;> simp [Fin.sum_univ_succ] <;> ring
    · obtain ⟨h0, h1, h2, h3⟩ := hp
      have hd : 3 - p 1 ≠ 0 := ne_of_gt (by linarith)
      refine inv_of_mul _ _ ?_
      ext i j; fin_cases i <;> fin_cases j <;> simp [Matrix.mul_apply, Fin.sum_univ_succ] <;> field_simp <;> ring
  · refine ⟨fun p => ![p 0 / 2, (1 + p 1) / 2], .triangle, fun p => rfl, rfl, fun p hp => ⟨_, _, rfl, rfl, ?_, ?_⟩⟩
    · refine hasFDerivAt_of_affine _ _ _ fun q i => ?_
      fin_cases i <;> simp [Fin.sum_univ_succ] <;> ring
    · refine inv_of_mul _ _ ?_
      ext i j; fin_cases i <;> fin_cases j <;> norm_num [Matrix.mul_apply, Fin.sum_univ_succ]

theorem fits_triangle8 : ∀ s < 2, MatricesFit .triangle8 s := by
  intro s hs
  interval_cases s
  · refine ⟨fun p => ![p 0 / 2, p 1 / 2], .triangle, fun p => rfl, rfl, fun p hp => ⟨_, _, rfl, rfl, ?_, ?_⟩⟩
    · refine hasFDerivAt_of_affine _ _ _ fun q i => ?_
      fin_cases i <;> simp [Fin.sum_univ_succ] <;> ring
    · refine inv_of_mul _ _ ?_
      ext i j; fin_cases i <;> fin_cases j <;> norm_num [Matrix.mul_apply, Fin.sum_univ_succ]
  · refine ⟨fun p => ![(1 - p 1) * (3 + p 0) / 8, (1 + p 1) * (3 + p 0) / 8], .square, fun p => rfl, rfl, fun p hp => ⟨_, _, rfl, rfl, ?_, ?_⟩⟩
    · refine hasFDerivAt_of_bilinear _ _ _ 0 1 ![(-1 / 8), (1 / 8)] fun q i => ?_
      fin_cases i <;> simp [Fin.sum_univ_succ] <;> ring
    · obtain ⟨h0, h1, h2, h3⟩ := hp
      have hd : p 0 + 3 ≠ 0 := ne_of_gt (by linarith)
      refine inv_of_mul _ _ ?_
      ext i j; fin_cases i <;> fin_cases j <;> simp [Matrix.mul_apply, Fin.sum_univ_succ] <;> field_simp <;> ring

theorem fits_cube0 : ∀ s < 1, MatricesFit .cube0 s := by
  intro s hs
  interval_cases s
  · refine ⟨fun p => p, .cube, fun p => rfl, rfl, fun p hp => ⟨_, _, rfl, rfl, ?_, ?_⟩⟩
    · refine hasFDerivAt_of_affine _ _ _ fun q i => ?_
      fin_cases i <;> simp [Fin.sum_univ_succ] <;> ring
    · refine inv_of_mul _ _ ?_
      ext i j; fin_cases i <;> fin_cases j <;> norm_num [Matrix.mul_apply, Fin.sum_univ_succ]

theorem fits_cube1 : ∀ s < 2, MatricesFit .cube1 s := by
  intro s hs
  interval_cases s
  · refine ⟨fun p => ![(p 0 - 1) / 2, p 1, p 2], .cube, fun p => rfl, rfl, fun p hp => ⟨_, _, rfl, rfl, ?_, ?_⟩⟩
    · refine hasFDerivAt_of_affine _ _ _ fun q i => ?_
      fin_cases i <;> simp [Fin.sum_univ_succ] <;> ring
    · refine inv_of_mul _ _ ?_
      ext i j; fin_cases i <;> fin_cases j <;> norm_num [Matrix.mul_apply, Fin.sum_univ_succ]
  · refine ⟨fun p => ![(p 0 + 1) / 2, p 1, p 2], .cube, fun p => rfl, rfl, fun p hp => ⟨_, _, rfl, rfl, ?_, ?_⟩⟩
    · refine hasFDerivAt_of_affine _ _ _ fun q i => ?_
      fin_cases i <;> simp [Fin.sum_univ_succ] <;> ring
    · refine inv_of_mul _ _ ?_
      ext i j; fin_cases i <;> fin_cases j <;> norm_num [Matrix.mul_apply, Fin.sum_univ_succ]

theorem fits_cube2 : ∀ s < 2, MatricesFit .cube2 s := by
  intro s hs
  interval_cases s
  · refine ⟨fun p => ![p 0, (p 1 - 1) / 2, p 2], .cube, fun p => rfl, rfl, fun p hp => ⟨_, _, rfl, rfl, ?_, ?_⟩⟩
    · refine hasFDerivAt_of_affine _ _ _ fun q i => ?_
      fin_cases i <;> simp [Fin.sum_univ_succ] <;> ring
    · refine inv_of_mul _ _ ?_
      ext i j; fin_cases i <;> fin_cases j <;> norm_num [Matrix.mul_apply, Fin.sum_univ_succ]
  · refine ⟨fun p => ![p 0, (p 1 + 1) / 2, p 2], .cube, fun p => rfl, rfl, fun p hp => ⟨_, _, rfl, rfl, ?_, ?_⟩⟩
    · refine hasFDerivAt_of_affine _ _ _ fun q i => ?_
      fin_cases i <;> simp [Fin.sum_univ_succ] <;> ring
    · refine inv_of_mul _ _ ?_
      ext i j; fin_cases i <;> fin_cases j <;> norm_num [Matrix.mul_apply, Fin.sum_univ_succ]

theorem fits_cube3 : ∀ s < 2, MatricesFit .cube3 s := by
  intro s hs
  interval_cases s
  · refine ⟨fun p => ![p 0, p 1, (p 2 - 1) / 2], .cube, fun p => rfl, rfl, fun p hp => ⟨_, _, rfl, rfl, ?_, ?_⟩⟩
    · refine hasFDerivAt_of_affine _ _ _ fun q i => ?_
      fin_cases i <;> simp [Fin.sum_univ_succ] <;> ring
    · refine inv_of_mul _ _ ?_
      ext i j; fin_cases i <;> fin_cases j <;> norm_num [Matrix.mul_apply, Fin.sum_univ_succ]
  · refine ⟨fun p => ![p 0, p 1, (p 2 + 1) / 2], .cube, fun p => rfl, rfl, fun p hp => ⟨_, _, rfl, rfl, ?_, ?_⟩⟩
    · refine hasFDerivAt_of_affine _ _ _ fun q i => ?_
      fin_cases i <;> simp [Fin.sum_univ_succ] <;> ring
    · refine inv_of_mul _ _ ?_
      ext i j; fin_cases i <;> fin_cases j <;> norm_num [Matrix.mul_apply, Fin.sum_univ_succ]

theorem fits_cube4 : ∀ s < 4, MatricesFit .cube4 s := by
  intro s hs
  interval_cases s
  · refine ⟨fun p => ![(p 0 - 1) / 2, (p 1 - 1) / 2, p 2], .cube, fun p => rfl, rfl, fun p hp => ⟨_, _, rfl, rfl, ?_, ?_⟩⟩
    · refine hasFDerivAt_of_affine _ _ _ fun q i => ?_
      fin_cases i <;> simp [Fin.sum_univ_succ] <;> ring
    · refine inv_of_mul _ _ ?_
      ext i j; fin_cases i <;> fin_cases j <;> norm_num [Matrix.mul_apply, Fin.sum_univ_succ]
  · refine ⟨fun p => ![(p 0 + 1) / 2, (p 1 - 1) / 2, p 2], .cube, fun p => rfl, rfl, fun p hp => ⟨_, _, rfl, rfl, ?_, ?_⟩⟩
    · refine hasFDerivAt_of_affine _ _ _ fun q i => ?_
      fin_cases i <;> simp [Fin.sum_univ_succ] <;> ring
    · refine inv_of_mul _ _ ?_
      ext i j; fin_cases i <;> fin_cases j <;> norm_num [Matrix.mul_apply, Fin.sum_univ_succ]
  · refine ⟨fun p => ![(p 0 - 1) / 2, (p 1 + 1) / 2, p 2], .cube, fun p => rfl, rfl, fun p hp => ⟨_, _, rfl, rfl, ?_, ?_⟩⟩
    · refine hasFDerivAt_of_affine _ _ _ fun q i => ?_
      fin_cases i <;> simp [Fin.sum_univ_succ] <;> ring
    · refine inv_of_mul _ _ ?_
      ext i j; fin_cases i <;> fin_cases j <;> norm_num [Matrix.mul_apply, Fin.sum_univ_succ]
  · refine ⟨fun p => ![(p 0 + 1) / 2, (p 1 + 1) / 2, p 2], .cube, fun p => rfl, rfl, fun p hp => ⟨_, _, rfl, rfl, ?_, ?_⟩⟩
    · refine hasFDerivAt_of_affine _ _ _ fun q i => ?_
      fin_cases i <;> simp [Fin.sum_univ_succ] <;> ring
    · refine inv_of_mul _ _ ?_
      ext i j; fin_cases i <;> fin_cases j <;> norm_num [Matrix.mul_apply, Fin.sum_univ_succ]

theorem fits_cube5 : ∀ s < 4, MatricesFit .cube5 s := by
  intro s hs
  interval_cases s
  · refine ⟨fun p => ![(p 0 - 1) / 2, p 1, (p 2 - 1) / 2], .cube, fun p => rfl, rfl, fun p hp => ⟨_, _, rfl, rfl, ?_, ?_⟩⟩
    · refine hasFDerivAt_of_affine _ _ _ fun q i => ?_
      fin_cases i <;> simp [Fin.sum_univ_succ] <;> ring
    · refine inv_of_mul _ _ ?_
      ext i j; fin_cases i <;> fin_cases j <;> norm_num [Matrix.mul_apply, Fin.sum_univ_succ]
  · refine ⟨fun p => ![(p 0 + 1) / 2, p 1, (p 2 - 1) / 2], .cube, fun p => rfl, rfl, fun p hp => ⟨_, _, rfl, rfl, ?_, ?_⟩⟩
    · refine hasFDerivAt_of_affine _ _ _ fun q i => ?_
      fin_cases i <;> simp [Fin.sum_univ_succ] <;> ring
    · refine inv_of_mul _ _ ?_
      ext i j; fin_cases i <;> fin_cases j <;> norm_num [Matrix.mul_apply, Fin.sum_univ_succ]
  · refine ⟨fun p => ![(p 0 - 1) / 2, p 1, (p 2 + 1) / 2], .cube, fun p => rfl, rfl, fun p hp => ⟨_, _, rfl, rfl, ?_, ?_⟩⟩
    · refine hasFDerivAt_of_affine _ _ _ fun q i => ?_
      fin_cases i <;> simp [Fin.sum_univ_succ] <;> ring
    · refine inv_of_mul _ _ ?_
      ext i j; fin_cases i <;> fin_cases j <;> norm_num [Matrix.mul_apply, Fin.sum_univ_succ]
  · refine ⟨fun p => ![(p 0 + 1) / 2, p 1, (p 2 + 1) / 2], .cube, fun p => rfl, rfl, fun p hp => ⟨_, _, rfl, rfl, ?_, ?_⟩⟩
    · refine hasFDerivAt_of_affine _ _ _ fun q i => ?_
      fin_cases i <;> simp [Fin.sum_univ_succ] <;> ring
    · refine inv_of_mul _ _ ?_
      ext i j; fin_cases i <;> fin_cases j <;> norm_num [Matrix.mul_apply, Fin.sum_univ_succ]

theorem fits_cube6 : ∀ s < 4, MatricesFit .cube6 s := by
  intro s hs
  interval_cases s
  · refine ⟨fun p => ![p 0, (p 1 - 1) / 2, (p 2 - 1) / 2], .cube, fun p => rfl, rfl, fun p hp => ⟨_, _, rfl, rfl, ?_, ?_⟩⟩
    · refine hasFDerivAt_of_affine _ _ _ fun q i => ?_
      fin_cases i <;> simp [Fin.sum_univ_succ] <;> ring
    · refine inv_of_mul _ _ ?_
      ext i j; fin_cases i <;> fin_cases j <;> norm_num [Matrix.mul_apply, Fin.sum_univ_succ]
  · refine ⟨fun p => ![p 0, (p 1 + 1) / 2, (p 2 - 1) / 2], .cube, fun p => rfl, rfl, fun p hp => ⟨_, _, rfl, rfl, ?_, ?_⟩⟩
    · refine hasFDerivAt_of_affine _ _ _ fun q i => ?_
      fin_cases i <;> simp [Fin.sum_univ_succ] <;> ring
    · refine inv_of_mul _ _ ?_
      ext i j; fin_cases i <;> fin_cases j <;> norm_num [Matrix.mul_apply, Fin.sum_univ_succ]
  · refine ⟨fun p => ![p 0, (p 1 - 1) / 2, (p 2 + 1) / 2], .cube, fun p => rfl, rfl, fun p hp => ⟨_, _, rfl, rfl, ?_, ?_⟩⟩
    · refine hasFDerivAt_of_affine _ _ _ fun q i => ?_
      fin_cases i <;> simp [Fin.sum_univ_succ] <;> ring
    · refine inv_of_mul _ _ ?_
      ext i j; fin_cases i <;> fin_cases j <;> norm_num [Matrix.mul_apply, Fin.sum_univ_succ]
  · refine ⟨fun p => ![p 0, (p 1 + 1) / 2, (p 2 + 1) / 2], .cube, fun p => rfl, rfl, fun p hp => ⟨_, _, rfl, rfl, ?_, ?_⟩⟩
    · refine hasFDerivAt_of_affine _ _ _ fun q i => ?_
      fin_cases i <;> simp [Fin.sum_univ_succ] <;> ring
    · refine inv_of_mul _ _ ?_
      ext i j; fin_cases i <;> fin_cases j <;> norm_num [Matrix.mul_apply, Fin.sum_univ_succ]

theorem fits_cube7 : ∀ s < 8, MatricesFit .cube7 s := by
  intro s hs
  interval_cases s
  · refine ⟨fun p => ![(p 0 - 1) / 2, (p 1 - 1) / 2, (p 2 - 1) / 2], .cube, fun p => rfl, rfl, fun p hp => ⟨_, _, rfl, rfl, ?_, ?_⟩⟩
    · refine hasFDerivAt_of_affine _ _ _ fun q i => ?_
      fin_cases i <;> simp [Fin.sum_univ_succ] <;> ring
    · refine inv_of_mul _ _ ?_
      ext i j; fin_cases i <;> fin_cases j <;> norm_num [Matrix.mul_apply, Fin.sum_univ_succ]
  · refine ⟨fun p => ![(p 0 + 1) / 2, (p 1 - 1) / 2, (p 2 - 1) / 2], .cube, fun p => rfl, rfl, fun p hp => ⟨_, _, rfl, rfl, ?_, ?_⟩⟩
    · refine hasFDerivAt_of_affine _ _ _ fun q i => ?_
      fin_cases i <;> simp [Fin.sum_univ_succ] <;> ring
    · refine inv_of_mul _ _ ?_
      ext i j; fin_cases i <;> fin_cases j <;> norm_num [Matrix.mul_apply, Fin.sum_univ_succ]
  · refine ⟨fun p => ![(p 0 - 1) / 2, (p 1 + 1) / 2, (p 2 - 1) / 2], .cube, fun p => rfl, rfl, fun p hp => ⟨_, _, rfl, rfl, ?_, ?_⟩⟩
    · refine hasFDerivAt_of_affine _ _ _ fun q i => ?_
      fin_cases i <;> simp [Fin.sum_univ_succ] <;> ring
    · refine inv_of_mul _ _ ?_
      ext i j; fin_cases i <;> fin_cases j <;> norm_num [Matrix.mul_apply, Fin.sum_univ_succ]
  · refine ⟨fun p => ![(p 0 + 1) / 2, (p 1 + 1) / 2, (p 2 - 1) / 2], .cube, fun p => rfl, rfl, fun p hp => ⟨_, _, rfl, rfl, ?_, ?_⟩⟩
    · refine hasFDerivAt_of_affine _ _ _ fun q i => ?_
      fin_cases i <;> simp [Fin.sum_univ_succ] <;> ring
    · refine inv_of_mul _ _ ?_
      ext i j; fin_cases i <;> fin_cases j <;> norm_num [Matrix.mul_apply, Fin.sum_univ_succ]
  · refine ⟨fun p => ![(p 0 - 1) / 2, (p 1 - 1) / 2, (p 2 + 1) / 2], .cube, fun p => rfl, rfl, fun p hp => ⟨_, _, rfl, rfl, ?_, ?_⟩⟩
    · refine hasFDerivAt_of_affine _ _ _ fun q i => ?_
      fin_cases i <;> simp [Fin.sum_univ_succ] <;> ring
    · refine inv_of_mul _ _ ?_
      ext i j; fin_cases i <;> fin_cases j <;> norm_num [Matrix.mul_apply, Fin.sum_univ_succ]
  · refine ⟨fun p => ![(p 0 + 1) / 2, (p 1 - 1) / 2, (p 2 + 1) / 2], .cube, fun p => rfl, rfl, fun p hp => ⟨_, _, rfl, rfl, ?_, ?_⟩⟩
    · refine hasFDerivAt_of_affine _ _ _ fun q i => ?_
      fin_cases i <;> simp [Fin.sum_univ_succ] <;> ring
    · refine inv_of_mul _ _ ?_
      ext i j; fin_cases i <;> fin_cases j <;> norm_num [Matrix.mul_apply, Fin.sum_univ_succ]
  · refine ⟨fun p => ![(p 0 - 1) / 2, (p 1 + 1) / 2, (p 2 + 1) / 2], .cube, fun p => rfl, rfl, fun p hp => ⟨_, _, rfl, rfl, ?_, ?_⟩⟩
    · refine hasFDerivAt_of_affine _ _ _ fun q i => ?_
      fin_cases i <;> simp [Fin.sum_univ_succ] <;> ring
    · refine inv_of_mul _ _ ?_
      ext i j; fin_cases i <;> fin_cases j <;> norm_num [Matrix.mul_apply, Fin.sum_univ_succ]
  · refine ⟨fun p => ![(p 0 + 1) / 2, (p 1 + 1) / 2, (p 2 + 1) / 2], .cube, fun p => rfl, rfl, fun p hp => ⟨_, _, rfl, rfl, ?_, ?_⟩⟩
    · refine hasFDerivAt_of_affine _ _ _ fun q i => ?_
      fin_cases i <;> simp [Fin.sum_univ_succ] <;> ring
    · refine inv_of_mul _ _ ?_
      ext i j; fin_cases i <;> fin_cases j <;> norm_num [Matrix.mul_apply, Fin.sum_univ_succ]

theorem fits_tetrahedron0 : ∀ s < 1, MatricesFit .tetrahedron0 s := by
  intro s hs
  interval_cases s
  · refine ⟨fun p => p, .tetrahedron, fun p => rfl, rfl, fun p hp => ⟨_, _, rfl, rfl, ?_, ?_⟩⟩
    · refine hasFDerivAt_of_affine _ _ _ fun q i => ?_
      fin_cases i <;> simp [Fin.sum_univ_succ] <;> ring
    · refine inv_of_mul _ _ ?_
      ext i j; fin_cases i <;> fin_cases j <;> norm_num [Matrix.mul_apply, Fin.sum_univ_succ]

theorem fits_pyramid0 : ∀ s < 1, MatricesFit .pyramid0 s := by
  intro s hs
  interval_cases s
  · refine ⟨fun p => p, .pyramid, fun p => rfl, rfl, fun p hp => ⟨_, _, rfl, rfl, ?_, ?_⟩⟩
    · refine hasFDerivAt_of_affine _ _ _ fun q i => ?_
      fin_cases i <;> simp [Fin.sum_univ_succ] <;> ring
    · refine inv_of_mul _ _ ?_
      ext i j; fin_cases i <;> fin_cases j <;> norm_num [Matrix.mul_apply, Fin.sum_univ_succ]

theorem fits_prism0 : ∀ s < 1, MatricesFit .prism0 s := by
  intro s hs
  interval_cases s
  · refine ⟨fun p => p, .prism, fun p => rfl, rfl, fun p hp => ⟨_, _, rfl, rfl, ?_, ?_⟩⟩
    · refine hasFDerivAt_of_affine _ _ _ fun q i => ?_
      fin_cases i <;> simp [Fin.sum_univ_succ] <;> ring
    · refine inv_of_mul _ _ ?_
      ext i j; fin_cases i <;> fin_cases j <;> norm_num [Matrix.mul_apply, Fin.sum_univ_succ]

theorem fits_prism1 : ∀ s < 2, MatricesFit .prism1 s := by
  intro s hs
  interval_cases s
  · refine ⟨fun p => ![(p 0 + ((0 : ℕ) : ℝ)) / 2, p 1, p 2], .prism, fun p => rfl, rfl, fun p hp => ⟨_, _, rfl, rfl, ?_, ?_⟩⟩
    · refine hasFDerivAt_of_affine _ _ _ fun q i => ?_
      fin_cases i <;> simp [Fin.sum_univ_succ] <;> ring
    · refine inv_of_mul _ _ ?_
      ext i j; fin_cases i <;> fin_cases j <;> norm_num [Matrix.mul_apply, Fin.sum_univ_succ]
  · refine ⟨fun p => ![(p 0 + ((1 : ℕ) : ℝ)) / 2, p 1, p 2], .prism, fun p => rfl, rfl, fun p hp => ⟨_, _, rfl, rfl, ?_, ?_⟩⟩
    · refine hasFDerivAt_of_affine _ _ _ fun q i => ?_
      fin_cases i <;> simp [Fin.sum_univ_succ] <;> ring
    · refine inv_of_mul _ _ ?_
      ext i j; fin_cases i <;> fin_cases j <;> norm_num [Matrix.mul_apply, Fin.sum_univ_succ]

theorem fits_prism2 : ∀ s < 2, MatricesFit .prism2 s := by
  intro s hs
  interval_cases s
  · refine ⟨fun p => ![p 0, (p 1 + ((0 : ℕ) : ℝ)) / 2, p 2], .prism, fun p => rfl, rfl, fun p hp => ⟨_, _, rfl, rfl, ?_, ?_⟩⟩
    · refine hasFDerivAt_of_affine _ _ _ fun q i => ?_
      fin_cases i <;> simp [Fin.sum_univ_succ] <;> ring
    · refine inv_of_mul _ _ ?_
      ext i j; fin_cases i <;> fin_cases j <;> norm_num [Matrix.mul_apply, Fin.sum_univ_succ]
  · refine ⟨fun p => ![p 0, (p 1 + ((1 : ℕ) : ℝ)) / 2, p 2], .prism, fun p => rfl, rfl, fun p hp => ⟨_, _, rfl, rfl, ?_, ?_⟩⟩
    · refine hasFDerivAt_of_affine _ _ _ fun q i => ?_
      fin_cases i <;> simp [Fin.sum_univ_succ] <;> ring
    · refine inv_of_mul _ _ ?_
      ext i j; fin_cases i <;> fin_cases j <;> norm_num [Matrix.mul_apply, Fin.sum_univ_succ]

theorem fits_prism3 : ∀ s < 2, MatricesFit .prism3 s := by
  intro s hs
  interval_cases s
  · refine ⟨fun p => ![0.5 * p 0, 0.5 * p 0 + p 1, p 2], .prism, fun p => rfl, rfl, fun p hp => ⟨_, _, rfl, rfl, ?_, ?_⟩⟩
    · refine hasFDerivAt_of_affine _ _ _ fun q i => ?_
      fin_cases i <;> simp [Fin.sum_univ_succ] <;> ring
    · refine inv_of_mul _ _ ?_
      ext i j; fin_cases i <;> fin_cases j <;> norm_num [Matrix.mul_apply, Fin.sum_univ_succ]
  · refine ⟨fun p => ![p 0 + 0.5 * p 1, 0.5 * p 1, p 2], .prism, fun p => rfl, rfl, fun p hp => ⟨_, _, rfl, rfl, ?_, ?_⟩⟩
    · refine hasFDerivAt_of_affine _ _ _ fun q i => ?_
      fin_cases i <;> simp [Fin.sum_univ_succ] <;> ring
    · refine inv_of_mul _ _ ?_
      ext i j; fin_cases i <;> fin_cases j <;> norm_num [Matrix.mul_apply, Fin.sum_univ_succ]

theorem fits_prism4 : ∀ s < 4, MatricesFit .prism4 s := by
  intro s hs
  interval_cases s
  · refine ⟨fun p => ![0.5 * p 0, 0.5 * p 1, p 2], .prism, fun p => rfl, rfl, fun p hp => ⟨_, _, rfl, rfl, ?_, ?_⟩⟩
    · refine hasFDerivAt_of_affine _ _ _ fun q i => ?_
      fin_cases i <;> simp [Fin.sum_univ_succ] <;> ring
    · refine inv_of_mul _ _ ?_
      ext i j; fin_cases i <;> fin_cases j <;> norm_num [Matrix.mul_apply, Fin.sum_univ_succ]
  · refine ⟨fun p => ![0.5 + 0.5 * p 0, 0.5 * p 1, p 2], .prism, fun p => rfl, rfl, fun p hp => ⟨_, _, rfl, rfl, ?_, ?_⟩⟩
    · refine hasFDerivAt_of_affine _ _ _ fun q i => ?_
      fin_cases i <;> simp [Fin.sum_univ_succ] <;> ring
    · refine inv_of_mul _ _ ?_
      ext i j; fin_cases i <;> fin_cases j <;> norm_num [Matrix.mul_apply, Fin.sum_univ_succ]
  · refine ⟨fun p => ![0.5 * p 0, 0.5 + 0.5 * p 1, p 2], .prism, fun p => rfl, rfl, fun p hp => ⟨_, _, rfl, rfl, ?_, ?_⟩⟩
    · refine hasFDerivAt_of_affine _ _ _ fun q i => ?_
      fin_cases i <;> simp [Fin.sum_univ_succ] <;> ring
    · refine inv_of_mul _ _ ?_
      ext i j; fin_cases i <;> fin_cases j <;> norm_num [Matrix.mul_apply, Fin.sum_univ_succ]
  · refine ⟨fun p => ![0.5 - 0.5 * p 0, 0.5 - 0.5 * p 1, p 2], .prism, fun p => rfl, rfl, fun p hp => ⟨_, _, rfl, rfl, ?_, ?_⟩⟩
    · refine hasFDerivAt_of_affine _ _ _ fun q i => ?_
      fin_cases i <;> simp [Fin.sum_univ_succ] <;> ring
    · refine inv_of_mul _ _ ?_
      ext i j; fin_cases i <;> fin_cases j <;> norm_num [Matrix.mul_apply, Fin.sum_univ_succ]

theorem fits_prism5 : ∀ s < 2, MatricesFit .prism5 s := by
  intro s hs
  interval_cases s
  · refine ⟨fun p => ![p 0, p 1, 0.5 * p 2 - 0.5], .prism, fun p => rfl, rfl, fun p hp => ⟨_, _, rfl, rfl, ?_, ?_⟩⟩
    · refine hasFDerivAt_of_affine _ _ _ fun q i => ?_
      fin_cases i <;> simp [Fin.sum_univ_succ] <;> ring
    · refine inv_of_mul _ _ ?_
      ext i j; fin_cases i <;> fin_cases j <;> norm_num [Matrix.mul_apply, Fin.sum_univ_succ]
  · refine ⟨fun p => ![p 0, p 1, 0.5 * p 2 + 0.5], .prism, fun p => rfl, rfl, fun p hp => ⟨_, _, rfl, rfl, ?_, ?_⟩⟩
    · refine hasFDerivAt_of_affine _ _ _ fun q i => ?_
      fin_cases i <;> simp [Fin.sum_univ_succ] <;> ring
    · refine inv_of_mul _ _ ?_
      ext i j; fin_cases i <;> fin_cases j <;> norm_num [Matrix.mul_apply, Fin.sum_univ_succ]

theorem fits_prism6 : ∀ s < 3, MatricesFit .prism6 s := by
  intro s hs
  interval_cases s
  · refine ⟨fun p => ![(p 1 + 1) * (5 + p 0) / 24, (1 - p 0) * (5 - p 1) / 24, p 2], .cube, fun p => rfl, rfl, fun p hp => ⟨_, _, rfl, rfl, ?_, ?_⟩⟩
    · refine hasFDerivAt_of_bilinear _ _ _ 0 1 ![(1 / 24), (1 / 24), (0)] fun q i => ?_
      fin_cases i <;> simp [Fin.sum_univ_succ] <;> ring
    · obtain ⟨h0, h1, h2, h3, h4⟩ := hp
      have hd : p 0 - p 1 + 4 ≠ 0 := ne_of_gt (by linarith)
      refine inv_of_mul _ _ ?_
      ext i j; fin_cases i <;> fin_cases j <;> simp [Matrix.mul_apply, Fin.sum_univ_succ] <;> field_simp <;> ring
  · refine ⟨fun p => ![((p 0 + 2) * (2 - p 1) + 3) / 12, (p 1 + 1) * (5 + p 0) / 24, p 2], .cube, fun p => rfl, rfl, fun p hp => ⟨_, _, rfl, rfl, ?_, ?_⟩⟩
    · refine hasFDerivAt_of_bilinear _ _ _ 0 1 ![(-1 / 12), (1 / 24), (0)] fun q i => ?_
      fin_cases i <;> simp [Fin.sum_univ_succ] <;> ring
    · obtain ⟨h0, h1, h2, h3, h4⟩ := hp
      have hd : p 0 - p 1 + 4 ≠ 0 := ne_of_gt (by linarith)
      refine inv_of_mul _ _ ?_
      ext i j; fin_cases i <;> fin_cases j <;> simp [Matrix.mul_apply, Fin.sum_univ_succ] <;> field_simp <;> ring
  · refine ⟨fun p => ![(1 - p 0) * (5 - p 1) / 24, ((p 0 + 2) * (2 - p 1) + 3) / 12, p 2], .cube, fun p => rfl, rfl, fun p hp => ⟨_, _, rfl, rfl, ?_, ?_⟩⟩
    · refine hasFDerivAt_of_bilinear _ _ _ 0 1 ![(1 / 24), (-1 / 12), (0)] fun q i => ?_
      fin_cases i <;> simp [Fin.sum_univ_succ] <;> ring
    · obtain ⟨h0, h1, h2, h3, h4⟩ := hp
      have hd : p 0 - p 1 + 4 ≠ 0 := ne_of_gt (by linarith)
      refine inv_of_mul _ _ ?_
      ext i j; fin_cases i <;> fin_cases j <;> simp [Matrix.mul_apply, Fin.sum_univ_succ] <;> field_simp <;> ring

theorem fits_prism7 : ∀ s < 2, MatricesFit .prism7 s := by
  intro s hs
  interval_cases s
  · refine ⟨fun p => ![(1 + p 0) / 4, (p 1 + 1) * (3 - p 0) / 8, p 2], .cube, fun p => rfl, rfl, fun p hp => ⟨_, _, rfl, rfl, ?_, ?_⟩⟩
    · refine hasFDerivAt_of_bilinear _ _ _ 0 1 ![(0), (-1 / 8), (0)] fun q i => ?_
      fin_cases i <;> simp [Fin.sum_univ_succ] <;> ring
    · obtain ⟨h0, h1, h2, h3, h4⟩ := hp
      have hd : 3 - p 0 ≠ 0 := ne_of_gt (by linarith)
      refine inv_of_mul _ _ ?_
      ext i j; fin_cases i <;> fin_cases j <;> simp [Matrix.mul_apply, Fin.sum_univ_succ] <;> field_simp <;> ring
  · refine ⟨fun p => ![(1 + p 0) / 2, p 1 / 2, p 2], .prism, fun p => rfl, rfl, fun p hp => ⟨_, _, rfl, rfl, ?_, ?_⟩⟩
    · refine hasFDerivAt_of_affine _ _ _ fun q i => ?_
      fin_cases i <;> simp [Fin.sum_univ_succ] <;> ring
    · refine inv_of_mul _ _ ?_
      ext i j; fin_cases i <;> fin_cases j <;> norm_num [Matrix.mul_apply, Fin.sum_univ_succ]

theorem fits_prism8 : ∀ s < 2, MatricesFit .prism8 s := by
  intro s hs
  interval_cases s
  · refine ⟨fun p => ![(p 0 + 1) * (3 - p 1) / 8, (1 + p 1) / 4, p 2], .cube, fun p => rfl, rfl, fun p hp => ⟨_, _, rfl, rfl, ?_, ?_⟩⟩
    · refine hasFDerivAt_of_bilinear _ _ _ 0 1 ![(-1 / 8), (0), (0)] fun q i => ?_
      fin_cases i <;> simp [Fin.sum_univ_succ] <;> ring
    · obtain ⟨h0, h1, h2, h3, h4⟩ := hp
      have hd : 3 - p 1 ≠ 0 := ne_of_gt (by linarith)
      refine inv_of_mul _ _ ?_
      ext i j; fin_cases i <;> fin_cases j <;> simp [Matrix.mul_apply, Fin.sum_univ_succ] <;> field_simp <;> ring
  · refine ⟨fun p => ![p 0 / 2, (1 + p 1) / 2, p 2], .prism, fun p => rfl, rfl, fun p hp => ⟨_, _, rfl, rfl, ?_, ?_⟩⟩
    · refine hasFDerivAt_of_affine _ _ _ fun q i => ?_
      fin_cases i <;> simp [Fin.sum_univ_succ] <;> ring
    · refine inv_of_mul _ _ ?_
      ext i j; fin_cases i <;> fin_cases j <;> norm_num [Matrix.mul_apply, Fin.sum_univ_succ]

theorem fits_prism9 : ∀ s < 2, MatricesFit .prism9 s := by
  intro s hs
  interval_cases s
  · refine ⟨fun p => ![p 0 / 2, p 1 / 2, p 2], .prism, fun p => rfl, rfl, fun p hp => ⟨_, _, rfl, rfl, ?_, ?_⟩⟩
    · refine hasFDerivAt_of_affine _ _ _ fun q i => ?_
      fin_cases i <;> simp [Fin.sum_univ_succ] <;> ring
    · refine inv_of_mul _ _ ?_
      ext i j; fin_cases i <;> fin_cases j <;> norm_num [Matrix.mul_apply, Fin.sum_univ_succ]
  · refine ⟨fun p => ![(1 - p 1) * (3 + p 0) / 8, (1 + p 1) * (3 + p 0) / 8, p 2], .cube, fun p => rfl, rfl, fun p hp => ⟨_, _, rfl, rfl, ?_, ?_⟩⟩
    · refine hasFDerivAt_of_bilinear _ _ _ 0 1 ![(-1 / 8), (1 / 8), (0)] fun q i => ?_
      fin_cases i <;> simp [Fin.sum_univ_succ] <;> ring
    · obtain ⟨h0, h1, h2, h3, h4⟩ := hp
      have hd : p 0 + 3 ≠ 0 := ne_of_gt (by linarith)
      refine inv_of_mul _ _ ?_
      ext i j; fin_cases i <;> fin_cases j <;> simp [Matrix.mul_apply, Fin.sum_univ_succ] <;> field_simp <;> ring

end Verif.Refine
