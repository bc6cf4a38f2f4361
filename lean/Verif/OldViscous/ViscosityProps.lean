import Verif.OldViscous.Viscosity
import Mathlib.Tactic.NormNum
import Mathlib.Tactic.Ring
import Mathlib.Tactic.FieldSimp
import Mathlib.Tactic.Positivity
import Mathlib.Tactic.Linarith

/-!
# Theorems about the viscosity

C197.
-/

namespace Verif.OldViscous

/-- Sutherland's law for air at `T` kelvin, in Pa s. -/
noncomputable def sutherland (T : ℝ) : ℝ :=
  17894 / 10 ^ 9 * (T / (28816 / 100)) ^ (3 / 2 : ℝ) * ((28816 / 100 + 110) / (T + 110))

theorem three_halves {s : ℝ} (hs : 0 ≤ s) : s * Real.sqrt s = s ^ (3 / 2 : ℝ) := by
  rcases hs.eq_or_lt with h | h
  · rw [← h, Real.zero_rpow (by norm_num)]; simp
  · rw [Real.sqrt_eq_rpow, show (3 / 2 : ℝ) = 1 + 1 / 2 by norm_num, Real.rpow_add h, Real.rpow_one]

/-- **C197, what the code computes.** Sutherland's law at the scaled temperature, but with the unscaled one in the
denominator. -/
theorem viscosity_exact (r v T : ℝ) (hr : 0 < r) (hT : 0 ≤ T) :
    computeViscosity r v T = some (sutherland (T * r) * v * ((T * r + 110) / (T + 110))) := by
  have h1 : 0 ≤ T * r := mul_nonneg hT hr.le
  have h2 : T + 110 ≠ 0 := by positivity
  have h3 : T * r + 110 ≠ 0 := by positivity
  unfold computeViscosity
  dsimp only
  rw [show (288.16 : ℝ) = 28816 / 100 by norm_num, show (0.000017894 : ℝ) = 17894 / 10 ^ 9 by norm_num]
  have h4 : 0 ≤ T * r / (28816 / 100) := by positivity
  rw [if_neg (by push Not; exact ⟨h4, h2⟩)]
  refine congrArg some ?_
  unfold sutherland
  rw [← three_halves h4]
  generalize Real.sqrt (T * r / (28816 / 100)) = w
  field_simp

/-- **C197, partial.** With the reference temperature one, as in the header, it is Sutherland's law. Missing: other
reference temperatures (`viscosity_unscaled`). -/
theorem viscosity_partial (v T : ℝ) (hT : 0 ≤ T) : computeViscosity 1 v T = some (sutherland T * v) := by
  rw [viscosity_exact 1 v T one_pos hT, mul_one, div_self (by positivity), mul_one]

/-- **C197, negation.** With any other reference temperature it is not the law at the scaled temperature, whatever the
temperature. -/
theorem viscosity_unscaled (r v T : ℝ) (hr : 0 < r) (h1 : r ≠ 1) (hv : v ≠ 0) (hT : 0 < T) :
    computeViscosity r v T ≠ some (sutherland (T * r) * v) := by
  rw [viscosity_exact r v T hr hT.le]
  intro h
  simp only [Option.some.injEq] at h
  have hp : 0 < T * r := mul_pos hT hr
  have hs : 0 < sutherland (T * r) := by
    unfold sutherland
    positivity
  have h2 : (T * r + 110) / (T + 110) = 1 := by
    have : sutherland (T * r) * v ≠ 0 := mul_ne_zero hs.ne' hv
    exact mul_left_cancel₀ this (by rw [h, mul_one])
  rw [div_eq_one_iff_eq (by positivity)] at h2
  have h3 : T * r = T * 1 := by linarith
  exact h1 (mul_left_cancel₀ hT.ne' h3)

/-- **C197.** A hotter gas is more viscous. -/
theorem viscosity_increasing (v T T' : ℝ) (hv : 0 < v) (hT : 0 ≤ T) (h : T < T') :
    ∃ m m', computeViscosity 1 v T = some m ∧ computeViscosity 1 v T' = some m' ∧ m < m' := by
  refine ⟨_, _, viscosity_partial v T hT, viscosity_partial v T' (hT.trans h.le), ?_⟩
  apply mul_lt_mul_of_pos_right _ hv
  have hT' : 0 < T' := lt_of_le_of_lt hT h
  unfold sutherland
  have e : ∀ s : ℝ, 0 ≤ s → 17894 / 10 ^ 9 * (s / (28816 / 100)) ^ (3 / 2 : ℝ) * ((28816 / 100 + 110) / (s + 110))
      = 17894 / 10 ^ 9 / (28816 / 100) * (28816 / 100 + 110) * (Real.sqrt (s / (28816 / 100)) * (s / (s + 110))) := by
    intro s hs
    rw [← three_halves (by positivity)]
    have : s + 110 ≠ 0 := by positivity
    field_simp
  rw [e T hT, e T' hT'.le]
  apply mul_lt_mul_of_pos_left _ (by positivity)
  have a1 : Real.sqrt (T / (28816 / 100)) < Real.sqrt (T' / (28816 / 100)) := by
    apply Real.sqrt_lt_sqrt (by positivity)
    exact div_lt_div_of_pos_right h (by norm_num)
  have a2 : T / (T + 110) ≤ T' / (T' + 110) := by
    rw [div_le_div_iff₀ (by positivity) (by positivity)]
    linarith
  have a3 : 0 < T' / (T' + 110) := by positivity
  calc Real.sqrt (T / (28816 / 100)) * (T / (T + 110))
      ≤ Real.sqrt (T / (28816 / 100)) * (T' / (T' + 110)) := mul_le_mul_of_nonneg_left a2 (Real.sqrt_nonneg _)
    _ < _ := mul_lt_mul_of_pos_right a1 a3

/-- A case: at the reference temperature of the law, with the constants of the header, the scaled viscosity is one. -/
example : computeViscosity 1 (1 / (17894 / 10 ^ 9)) (28816 / 100) = some 1 := by
  rw [viscosity_partial _ _ (by norm_num)]
  unfold sutherland
  rw [div_self (by norm_num), Real.one_rpow]
  norm_num

end Verif.OldViscous
