import Verif.Granular.Model
import Verif.Granular.Spec
import Mathlib.Tactic.Linarith
import Mathlib.Tactic.FieldSimp
import Mathlib.Tactic.LinearCombination
import Mathlib.Tactic.Positivity

set_option linter.all false

namespace Verif.Granular

open Spec (tanDeg)

theorem tanDegrees_eq (x : ℝ) : tanDegrees x = tanDeg x := by
  unfold tanDegrees tanDeg
  congr 1
  ring

theorem tanDeg_lt {a b : ℝ} (ha : 0 ≤ a) (hab : a < b) (hb : b < 90) : tanDeg a < tanDeg b := by
  have hpi := Real.pi_pos
  refine Real.tan_lt_tan_of_lt_of_lt_pi_div_two ?_ ?_ ?_
  · have : 0 ≤ a * Real.pi / 180 := by positivity
    linarith
  · nlinarith
  · nlinarith

theorem tanDeg_pos {a : ℝ} (ha : 0 < a) (hb : a < 90) : 0 < tanDeg a := by
  have hpi := Real.pi_pos
  refine Real.tan_pos_of_pos_of_lt_pi_div_two (by positivity) (by nlinarith)

theorem pouliquen_bounds {h F : ℝ} (hh : 0 < h) (hF : 0 ≤ F) :
    ∃ mu, pouliquen h F = some mu ∧ tanDeg 17.518 < mu ∧ mu < tanDeg 29.712 := by
  have ht := tanDeg_lt (a := 17.518) (b := 29.712) (by norm_num) (by norm_num) (by norm_num)
  have hs : 0 < F - (-0.080) := by norm_num; linarith
  have hq : 0 < 0.189 * h / (5.29 * 2 * (F - (-0.080))) := by positivity
  refine ⟨tanDeg 17.518 + (tanDeg 29.712 - tanDeg 17.518) /
      (0.189 * h / (5.29 * 2 * (F - (-0.080))) + 1), ?_, ?_, ?_⟩
  · unfold pouliquen
    simp only [tanDegrees_eq]
    rw [if_neg hs.ne', if_neg (by positivity)]
  · have : 0 < (tanDeg 29.712 - tanDeg 17.518) /
      (0.189 * h / (5.29 * 2 * (F - (-0.080))) + 1) := by
      apply div_pos <;> linarith
    linarith
  · have : (tanDeg 29.712 - tanDeg 17.518) /
      (0.189 * h / (5.29 * 2 * (F - (-0.080))) + 1) < tanDeg 29.712 - tanDeg 17.518 := by
      apply div_lt_self <;> linarith
    linarith

theorem pouliquen_mono {h F G : ℝ} (hh : 0 < h) (hF : 0 ≤ F) (hG : F < G) :
    ∃ a b, pouliquen h F = some a ∧ pouliquen h G = some b ∧ a < b := by
  have ht := tanDeg_lt (a := 17.518) (b := 29.712) (by norm_num) (by norm_num) (by norm_num)
  have hs : 0 < F - (-0.080) := by norm_num; linarith
  have hs' : 0 < G - (-0.080) := by norm_num; linarith
  have hq : 0 < 0.189 * h / (5.29 * 2 * (F - (-0.080))) := by positivity
  have hq' : 0 < 0.189 * h / (5.29 * 2 * (G - (-0.080))) := by positivity
  have hlt : 0.189 * h / (5.29 * 2 * (G - (-0.080))) < 0.189 * h / (5.29 * 2 * (F - (-0.080))) := by
    apply div_lt_div_of_pos_left
    · positivity
    · positivity
    · linarith
  refine ⟨tanDeg 17.518 + (tanDeg 29.712 - tanDeg 17.518) /
      (0.189 * h / (5.29 * 2 * (F - (-0.080))) + 1), tanDeg 17.518 + (tanDeg 29.712 - tanDeg 17.518) /
      (0.189 * h / (5.29 * 2 * (G - (-0.080))) + 1), ?_, ?_, ?_⟩
  · unfold pouliquen
    simp only [tanDegrees_eq]
    rw [if_neg hs.ne', if_neg (by positivity)]
  · unfold pouliquen
    simp only [tanDegrees_eq]
    rw [if_neg hs'.ne', if_neg (by positivity)]
  · have := div_lt_div_of_pos_left (a := tanDeg 29.712 - tanDeg 17.518) (by linarith)
      (c := 0.189 * h / (5.29 * 2 * (G - (-0.080))) + 1)
      (b := 0.189 * h / (5.29 * 2 * (F - (-0.080))) + 1) (by positivity) (by linarith)
    linarith

/-- Every value below `tan δ1` and above `tan δ2` is taken for a negative Froude
number. -/
theorem pouliquen_any {h : ℝ} (hh : 0 < h) (M : ℝ)
    (hM : M < tanDeg 17.518 ∨ tanDeg 29.712 < M) :
    ∃ F : ℝ, F < -0.08 ∧ pouliquen h F = some M := by
  have ht := tanDeg_lt (a := 17.518) (b := 29.712) (by norm_num) (by norm_num) (by norm_num)
  set t1 := tanDeg 17.518 with h1
  set t2 := tanDeg 29.712 with h2
  have hM1 : M - t1 ≠ 0 := by rcases hM with h | h <;> intro e <;> linarith
  have hM2 : t2 - M ≠ 0 := by rcases hM with h | h <;> intro e <;> linarith
  -- `s = c (M - t1) / (t2 - M)`
  have hc : 0 < 0.189 * h / (5.29 * 2) := by positivity
  set c := 0.189 * h / (5.29 * 2) with hcdef
  have hs : c * ((M - t1) / (t2 - M)) < 0 := by
    apply mul_neg_of_pos_of_neg hc
    rcases hM with h | h
    · exact div_neg_of_neg_of_pos (by linarith) (by linarith)
    · exact div_neg_of_pos_of_neg (by linarith) (by linarith)
  refine ⟨c * ((M - t1) / (t2 - M)) - 0.08, by linarith, ?_⟩
  have es : c * ((M - t1) / (t2 - M)) - 0.08 - (-0.080) = c * ((M - t1) / (t2 - M)) := by norm_num
  have eq : 0.189 * h / (5.29 * 2 * (c * ((M - t1) / (t2 - M)))) + 1 = (t2 - t1) / (M - t1) := by
    have : 0.189 * h = c * (5.29 * 2) := by rw [hcdef]; field_simp
    rw [this]
    field_simp
    ring
  unfold pouliquen
  simp only [tanDegrees_eq]
  rw [es, if_neg hs.ne, eq, if_neg (by apply div_ne_zero _ hM1; linarith)]
  congr 1
  have : t2 - t1 ≠ 0 := by linarith
  rw [div_div_eq_mul_div, mul_comm, mul_div_assoc, div_self this]
  ring

end Verif.Granular
