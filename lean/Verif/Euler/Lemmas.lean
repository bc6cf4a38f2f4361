import Verif.Euler.Spec
import Mathlib.Tactic.Linarith
import Mathlib.Tactic.Ring
import Mathlib.Tactic.FieldSimp
import Mathlib.Tactic.LinearCombination
import Mathlib.Tactic.NormNum
import Mathlib.Algebra.BigOperators.Field
import Mathlib.Algebra.Order.BigOperators.Ring.Finset

set_option linter.all false

namespace Verif.Euler

open Spec

variable {d : ℕ}

theorem dot_comm (a b : Fin d → ℝ) : dot a b = dot b a := by
  simp only [dot, mul_comm]

theorem dot_lin (x y : ℝ) (a b c : Fin d → ℝ) :
    dot (fun i => x * a i + y * b i) c = x * dot a c + y * dot b c := by
  simp only [dot, Finset.mul_sum, ← Finset.sum_add_distrib]
  exact Finset.sum_congr rfl fun i _ => by ring

theorem dot_lin' (x y : ℝ) (a b c : Fin d → ℝ) :
    dot c (fun i => x * a i + y * b i) = x * dot c a + y * dot c b := by
  rw [dot_comm, dot_lin, dot_comm a, dot_comm b]

theorem dot_smul (x : ℝ) (a c : Fin d → ℝ) : dot (fun i => x * a i) c = x * dot a c := by
  simp only [dot, Finset.mul_sum]
  exact Finset.sum_congr rfl fun i _ => by ring

theorem dot_div (x : ℝ) (a c : Fin d → ℝ) : dot (fun i => a i / x) c = dot a c / x := by
  simp only [dot, Finset.sum_div]
  exact Finset.sum_congr rfl fun i _ => by ring

theorem dot_sub (a b c : Fin d → ℝ) : dot c (fun i => a i - b i) = dot c a - dot c b := by
  simp only [dot, ← Finset.sum_sub_distrib]
  exact Finset.sum_congr rfl fun i _ => by ring

theorem dot_neg (a b : Fin d → ℝ) : dot (fun i => -a i) b = -dot a b := by
  simp only [dot, ← Finset.sum_neg_distrib]
  exact Finset.sum_congr rfl fun i _ => by ring

theorem dot_neg' (a b : Fin d → ℝ) : dot a (fun i => -b i) = -dot a b := by
  rw [dot_comm, dot_neg, dot_comm]

theorem dot_self_nonneg (a : Fin d → ℝ) : 0 ≤ dot a a :=
  Finset.sum_nonneg fun i _ => mul_self_nonneg (a i)

theorem dot_mix_nonneg (x y : ℝ) (a b : Fin d → ℝ) :
    0 ≤ x ^ 2 * dot a a + 2 * x * y * dot a b + y ^ 2 * dot b b := by
  have := dot_self_nonneg (fun i => x * a i + y * b i)
  rw [dot_lin, dot_lin', dot_lin', dot_comm b a] at this
  nlinarith

theorem pressure_eq (g : ℝ) (q : State d) (h : q.rho ≠ 0) : pressure g q = press g q := by
  unfold pressure press dot
  norm_num
  left
  field_simp

/-- A state with a positive density, with the root of the density as parameter. -/
theorem param (q : State d) (h : 0 < q.rho) :
    ∃ z > 0, ∃ u : Fin d → ℝ, q.rho = z ^ 2 ∧ q.mom = (fun i => z ^ 2 * u i) ∧
      Real.sqrt q.rho = z := by
  refine ⟨Real.sqrt q.rho, Real.sqrt_pos.mpr h, fun i => q.mom i / q.rho, ?_, ?_, rfl⟩
  · exact (Real.sq_sqrt h.le).symm
  · funext i
    rw [Real.sq_sqrt h.le]
    have := ne_of_gt h
    field_simp

theorem average_eq (g : ℝ) (ql qr : State d) (hl : 0 < ql.rho) (hr : 0 < qr.rho) :
    average g ql qr = ⟨meanVel ql qr, meanEnt g ql qr⟩ := by
  have zl := Real.sqrt_pos.mpr hl
  have zr := Real.sqrt_pos.mpr hr
  have el := Real.sq_sqrt hl.le
  have er := Real.sq_sqrt hr.le
  unfold average
  rw [pressure_eq g ql (ne_of_gt hl), pressure_eq g qr (ne_of_gt hr)]
  unfold meanVel meanEnt mean vel enthalpy
  generalize press g ql = pl
  generalize press g qr = pr
  set a := Real.sqrt ql.rho
  set b := Real.sqrt qr.rho
  have ha : a ≠ 0 := ne_of_gt zl
  have hb : b ≠ 0 := ne_of_gt zr
  have hab : a + b ≠ 0 := by positivity
  have key : ∀ x y : ℝ, x * (1.0 / (ql.rho + a * b)) + y * (1.0 / (qr.rho + a * b)) =
      (a * (x / ql.rho) + b * (y / qr.rho)) / (a + b) := by
    intro x y
    rw [← el, ← er, show a ^ 2 + a * b = a * (a + b) by ring,
      show b ^ 2 + a * b = b * (a + b) by ring]
    norm_num
    field_simp
  dsimp only
  congr 1
  · funext i
    exact key _ _
  · exact key _ _

theorem correct_eq (x : ℝ) : correct |x| = size x := by
  unfold correct size
  rw [abs_mul_abs_self]
  norm_num
  congr 1
  ring

theorem size_ge (x : ℝ) : |x| ≤ size x := by
  unfold size
  split_ifs with h
  · have := sq_abs x
    rw [le_div_iff₀ (by norm_num)]
    nlinarith [sq_nonneg (|x| - 1 / 100)]
  · exact le_refl _

theorem size_neg (x : ℝ) : size (-x) = size x := by
  unfold size; rw [abs_neg, neg_sq]

/-- The mean enthalpy exceeds the kinetic energy of the mean velocity. -/
theorem mean_gap (g : ℝ) (hg : 1 < g) (ql qr : State d) (hl : Physical g ql) (hr : Physical g qr) :
    0 < (g - 1) * (meanEnt g ql qr - dot (meanVel ql qr) (meanVel ql qr) / 2) := by
  apply mul_pos (by linarith)
  obtain ⟨a, ha, u, e1, e2, e3⟩ := param ql hl.1
  obtain ⟨b, hb, v, f1, f2, f3⟩ := param qr hr.1
  have hs : 0 < a + b := by positivity
  have hv : meanVel ql qr = fun i => (a * u i + b * v i) / (a + b) := by
    funext i
    simp only [meanVel, mean, vel, e3, f3]
    rw [e1, e2, f1, f2]
    field_simp
  have gap : ∀ (q : State d) (z : ℝ) (w : Fin d → ℝ), 0 < z → Physical g q → q.rho = z ^ 2 →
      q.mom = (fun i => z ^ 2 * w i) → dot w w / 2 < enthalpy g q := by
    intro q z w hz hq h1 h2
    have hp := hq.2
    unfold enthalpy
    have hE : dot q.mom q.mom / (2 * q.rho) < q.en := by
      unfold press at hp
      have := (mul_pos_iff_of_pos_left (show (0:ℝ) < g - 1 by linarith)).mp hp
      linarith
    rw [lt_div_iff₀ hq.1]
    rw [h2, dot_smul, dot_comm, dot_smul, h1] at hE
    rw [h1]
    have : z ^ 2 * (z ^ 2 * dot w w) / (2 * z ^ 2) = dot w w / 2 * z ^ 2 := by
      field_simp
    linarith
  have hu := gap ql a u ha hl e1 e2
  have hw := gap qr b v hb hr f1 f2
  have hH : meanEnt g ql qr = (a * enthalpy g ql + b * enthalpy g qr) / (a + b) := by
    simp only [meanEnt, mean, e3, f3]
  rw [hH, hv, dot_div, dot_comm, dot_div, dot_lin, dot_lin', dot_lin', dot_comm v u]
  have h1 : (a * (dot u u / 2) + b * (dot v v / 2)) / (a + b) <
      (a * enthalpy g ql + b * enthalpy g qr) / (a + b) := by
    apply div_lt_div_of_pos_right _ hs
    have := mul_lt_mul_of_pos_left hu ha
    have := mul_lt_mul_of_pos_left hw hb
    linarith
  have h2 : (a * (a * dot u u + b * dot u v) + b * (a * dot u v + b * dot v v)) / (a + b) /
      (a + b) / 2 ≤ (a * (dot u u / 2) + b * (dot v v / 2)) / (a + b) := by
    rw [div_div, div_div, div_le_div_iff₀ (by positivity) hs]
    have m := dot_mix_nonneg 1 (-1) u v
    nlinarith [mul_nonneg (mul_nonneg (mul_nonneg ha.le hb.le) hs.le) m]
  linarith

end Verif.Euler
