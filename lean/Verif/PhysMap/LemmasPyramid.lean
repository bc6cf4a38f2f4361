import Verif.PhysMap.LemmasDeriv
import Mathlib.Tactic.Linarith

set_option linter.all false
namespace Verif.PhysMap
open Verif.RefGeometry (Pt)
open Matrix

noncomputable def pyrRat (p : Nat → Pt 3) (x : Pt 3) : Pt 3 :=
  x 2 • p 0 +
      (((1 - x 0) * (1 - x 1) - x 2 + x 0 * x 1 * x 2 / (1 - x 2)) / 4) • p 1 +
      (((1 + x 0) * (1 - x 1) - x 2 - x 0 * x 1 * x 2 / (1 - x 2)) / 4) • p 2 +
      (((1 - x 0) * (1 + x 1) - x 2 - x 0 * x 1 * x 2 / (1 - x 2)) / 4) • p 3 +
      (((1 + x 0) * (1 + x 1) - x 2 + x 0 * x 1 * x 2 / (1 - x 2)) / 4) • p 4

theorem tip_eq {x : Pt 3} (hx : x 2 ≠ 1) : tip x = x 0 * x 1 * x 2 / (1 - x 2) := by
  unfold tip tipDenominator; rw [if_neg hx]

theorem pyramid_eq_rat (p : Nat → Pt 3) {x : Pt 3} (hx : x 2 ≠ 1) : pyramid p x = pyrRat p x := by
  rw [pyramid_eq, tip_eq hx, pyrRat]

theorem hasDerivAt_rat {a b c t : ℝ} (ht : t ≠ 1) :
    HasDerivAt (fun s => a + s * b + s / (1 - s) * c) (b + c / ((1 - t) * (1 - t))) t := by
  have h1 : (1 - t) ≠ 0 := sub_ne_zero.2 (Ne.symm ht)
  have h2 := ((hasDerivAt_id t).div ((hasDerivAt_id t).const_sub 1) h1).mul_const c
  have h3 := (((hasDerivAt_id t).mul_const b).const_add a).add h2
  refine h3.congr_deriv ?_
  simp
  field_simp

theorem pyrRat_deriv (p : Nat → Pt 3) (x : Pt 3) (hx : x 2 ≠ 1) :
    HasFDerivAt (pyrRat p)
      (Matrix.of fun i j => weigh (pyramidDerivs x j) p i).mulVecLin.toContinuousLinearMap x := by
  have h1 : (1 - x 2) ≠ 0 := sub_ne_zero.2 (Ne.symm hx)
  apply hasFDerivAt_of_partials
  · have ht : DifferentiableAt ℝ (fun x : Pt 3 => x 0 * x 1 * x 2 / (1 - x 2)) x := by
      have a1 : DifferentiableAt ℝ (fun x : Pt 3 => x 0 * x 1 * x 2) x := by fun_prop
      have a2 : DifferentiableAt ℝ (fun x : Pt 3 => 1 - x 2) x := by fun_prop
      have a3 : DifferentiableAt ℝ (fun x : Pt 3 => (1 - x 2)⁻¹) x :=
        DifferentiableAt.comp x (g := fun t : ℝ => t⁻¹) (differentiableAt_inv h1) a2
      simpa only [div_eq_mul_inv] using a1.fun_mul a3
    have key : ∀ g : Pt 3 → ℝ, DifferentiableAt ℝ g x → DifferentiableAt ℝ (fun x : Pt 3 => x 2 • p 0 +
        (((1 - x 0) * (1 - x 1) - x 2 + g x) / 4) • p 1 + (((1 + x 0) * (1 - x 1) - x 2 - g x) / 4) • p 2 +
        (((1 - x 0) * (1 + x 1) - x 2 - g x) / 4) • p 3 + (((1 + x 0) * (1 + x 1) - x 2 + g x) / 4) • p 4) x := by
      intro g hg
      fun_prop
    exact key _ ht
  · intro i k
    obtain rfl | rfl | rfl : k = 0 ∨ k = 1 ∨ k = 2 := by revert k; decide
    · apply hasDerivAt_aff
      intro s
      simp [pyrRat, pyramidDerivs, weigh, Function.update]
      ring
    · apply hasDerivAt_aff
      intro s
      simp [pyrRat, pyramidDerivs, weigh, Function.update]
      ring
    · have h := hasDerivAt_rat (t := x 2)
        (a := ((1 - x 0) * (1 - x 1) / 4) * p 1 i + ((1 + x 0) * (1 - x 1) / 4) * p 2 i +
          ((1 - x 0) * (1 + x 1) / 4) * p 3 i + ((1 + x 0) * (1 + x 1) / 4) * p 4 i)
        (b := p 0 i - (p 1 i + p 2 i + p 3 i + p 4 i) / 4)
        (c := x 0 * x 1 * (p 1 i - p 2 i - p 3 i + p 4 i) / 4) hx
      have e : (fun t => pyrRat p (Function.update x 2 t) i) = fun s =>
          (((1 - x 0) * (1 - x 1) / 4) * p 1 i + ((1 + x 0) * (1 - x 1) / 4) * p 2 i +
          ((1 - x 0) * (1 + x 1) / 4) * p 3 i + ((1 + x 0) * (1 + x 1) / 4) * p 4 i) +
          s * (p 0 i - (p 1 i + p 2 i + p 3 i + p 4 i) / 4) +
          s / (1 - s) * (x 0 * x 1 * (p 1 i - p 2 i - p 3 i + p 4 i) / 4) := by
        funext s
        simp [pyrRat, Function.update]
        ring
      rw [e]
      refine h.congr_deriv ?_
      simp [pyramidDerivs, weigh]
      ring

theorem pyramid_deriv (p : Nat → Pt 3) (x : Pt 3) (hx : x 2 ≠ 1) :
    HasFDerivAt (pyramid p)
      (Matrix.of fun i j => weigh (pyramidDerivs x j) p i).mulVecLin.toContinuousLinearMap x := by
  refine (pyrRat_deriv p x hx).congr_of_eventuallyEq ?_
  have ho : IsOpen {y : Pt 3 | y 2 ≠ 1} := isOpen_ne_fun (continuous_apply 2) continuous_const
  filter_upwards [ho.mem_nhds hx] with y hy
  exact pyramid_eq_rat p hy

theorem awayFromTip_ne {x : Pt 3} (hx : NearTip x) : awayFromTip x 2 ≠ 1 := by
  unfold awayFromTip
  rw [if_pos hx]
  unfold NearTip at hx
  intro h
  have h' : x 2 - 1e-10 = 1 := h
  have h0 := abs_nonneg (x 0)
  have h1 := abs_nonneg (x 1)
  have h2 : x 2 - 1 = 1e-10 := by linarith
  rw [h2, abs_of_pos (by norm_num)] at hx
  norm_num at hx
  linarith

end Verif.PhysMap
