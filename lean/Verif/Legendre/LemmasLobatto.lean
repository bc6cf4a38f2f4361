import Verif.Legendre.Lemmas

set_option linter.all false

namespace Verif.Legendre
open Polynomial

theorem legendre_2 (x : ℝ) : legendre 2 x = (3 * x ^ 2 - 1) / 2 := by
  simp [legendre]; ring
theorem legendre_3 (x : ℝ) : legendre 3 x = (5 * x ^ 3 - 3 * x) / 2 := by
  rw [legendre, legendre_2]; simp [legendre]; ring
theorem legendre_4 (x : ℝ) : legendre 4 x = (35 * x ^ 4 - 30 * x ^ 2 + 3) / 8 := by
  rw [legendre, legendre_2, legendre_3]; push_cast; ring
theorem legendre_5 (x : ℝ) : legendre 5 x = (63 * x ^ 5 - 70 * x ^ 3 + 15 * x) / 8 := by
  rw [legendre, legendre_4, legendre_3]; push_cast; ring
theorem legendre_6 (x : ℝ) : legendre 6 x = (231 * x ^ 6 - 315 * x ^ 4 + 105 * x ^ 2 - 5) / 16 := by
  rw [legendre, legendre_5, legendre_4]; push_cast; ring
theorem legendre_7 (x : ℝ) : legendre 7 x = (429 * x ^ 7 - 693 * x ^ 5 + 315 * x ^ 3 - 35 * x) / 16 := by
  rw [legendre, legendre_6, legendre_5]; push_cast; ring
theorem legendre_8 (x : ℝ) : legendre 8 x =
    (6435 * x ^ 8 - 12012 * x ^ 6 + 6930 * x ^ 4 - 1260 * x ^ 2 + 35) / 128 := by
  rw [legendre, legendre_7, legendre_6]; push_cast; ring
theorem legendre_9 (x : ℝ) : legendre 9 x =
    (12155 * x ^ 9 - 25740 * x ^ 7 + 18018 * x ^ 5 - 4620 * x ^ 3 + 315 * x) / 128 := by
  rw [legendre, legendre_8, legendre_7]; push_cast; ring

theorem d_2 (x : ℝ) : legendreDeriv 2 x = 3 * x := by
  simp [legendreDeriv, legendre]; ring
theorem d_3 (x : ℝ) : legendreDeriv 3 x = (15 * x ^ 2 - 3) / 2 := by
  rw [legendreDeriv, d_2, legendre_2]; simp [legendreDeriv]; ring
theorem d_4 (x : ℝ) : legendreDeriv 4 x = (35 * x ^ 3 - 15 * x) / 2 := by
  rw [legendreDeriv, d_3, d_2, legendre_3]; push_cast; ring
theorem d_5 (x : ℝ) : legendreDeriv 5 x = (315 * x ^ 4 - 210 * x ^ 2 + 15) / 8 := by
  rw [legendreDeriv, d_4, d_3, legendre_4]; push_cast; ring
theorem d_6 (x : ℝ) : legendreDeriv 6 x = (693 * x ^ 5 - 630 * x ^ 3 + 105 * x) / 8 := by
  rw [legendreDeriv, d_5, d_4, legendre_5]; push_cast; ring
theorem d_7 (x : ℝ) : legendreDeriv 7 x = (3003 * x ^ 6 - 3465 * x ^ 4 + 945 * x ^ 2 - 35) / 16 := by
  rw [legendreDeriv, d_6, d_5, legendre_6]; push_cast; ring
theorem d_8 (x : ℝ) : legendreDeriv 8 x =
    (6435 * x ^ 7 - 9009 * x ^ 5 + 3465 * x ^ 3 - 315 * x) / 16 := by
  rw [legendreDeriv, d_7, d_6, legendre_7]; push_cast; ring
theorem d_9 (x : ℝ) : legendreDeriv 9 x =
    (109395 * x ^ 8 - 180180 * x ^ 6 + 90090 * x ^ 4 - 13860 * x ^ 2 + 315) / 128 := by
  rw [legendreDeriv, d_8, d_7, legendre_8]; push_cast; ring
theorem d_10 (x : ℝ) : legendreDeriv 10 x =
    (230945 * x ^ 9 - 437580 * x ^ 7 + 270270 * x ^ 5 - 60060 * x ^ 3 + 3465 * x) / 128 := by
  rw [legendreDeriv, d_9, d_8, legendre_9]; push_cast; ring

/-- Derivative of the shape function built from the exact kernel. -/
theorem shape_deriv (d : Nat) (c x : ℝ) :
    HasDerivAt (fun x => (1 - x ^ 2) / 4 * (-4 / (((d : ℝ) + 2) * (d + 1)) * c * legendreDeriv (d + 1) x))
      (c * legendre (d + 1) x) x := by
  have h1 : (fun x : ℝ => (1 - x ^ 2) / 4 * (-4 / (((d : ℝ) + 2) * (d + 1)) * c * legendreDeriv (d + 1) x)) =
      fun x => (C (c / (((d : ℝ) + 2) * (d + 1))) * (U * derivative (rodrigues (d + 1)))).eval x := by
    funext y
    rw [legendreDeriv_eq]
    simp [U]
    ring
  rw [h1]
  have h := (C (c / (((d : ℝ) + 2) * (d + 1))) * (U * derivative (rodrigues (d + 1)))).hasDerivAt x
  have e : (derivative (C (c / (((d : ℝ) + 2) * (d + 1))) * (U * derivative (rodrigues (d + 1))))).eval x =
      c * legendre (d + 1) x := by
    rw [derivative_C_mul, legendre_ode, legendre_eq]
    simp only [eval_mul, eval_C]
    push_cast
    have h2 : ((d : ℝ) + 2) ≠ 0 := by positivity
    have h3 : ((d : ℝ) + 1) ≠ 0 := by positivity
    field_simp
    ring
  rw [e] at h
  exact h

theorem legendreDeriv_one (n : Nat) : 2 * legendreDeriv n 1 = (n : ℝ) * (n + 1) := by
  have h := congrArg (Polynomial.eval (1 : ℝ)) (legendre_ode n)
  rw [derivative_mul, dU] at h
  have hU : U.eval (1 : ℝ) = 0 := by simp [U]
  simp only [eval_add, eval_mul, hU, ← legendreDeriv_eq, ← legendre_eq, legendre_one, eval_X, eval_C] at h
  have h2 : eval (1 : ℝ) (2 : ℝ[X]) = 2 := by simp
  rw [h2] at h
  linarith

end Verif.Legendre
