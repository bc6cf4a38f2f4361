import Verif.Shallow.Model
import Verif.Shallow.Spec
import Mathlib.Tactic.Linarith
import Mathlib.Tactic.Ring
import Mathlib.Tactic.FieldSimp
import Mathlib.Tactic.FinCases
import Mathlib.Tactic.LinearCombination

set_option linter.all false

namespace Verif.Shallow

theorem root_nonneg {x : ℝ} (h : 0 ≤ x) : root x = some (Real.sqrt x) :=
  if_neg (not_lt.mpr h)

theorem combine_same {k : ℕ} (sl sr : ℝ) (f u : Fin k → ℝ) :
    combine sl sr f f u u = f := by
  unfold combine
  split_ifs with h1 h2
  · rfl
  · rfl
  · funext i
    have : sr - sl ≠ 0 := by
      have := not_le.mp h1; have := not_le.mp h2; linarith [not_le.mp h1]
    field_simp
    ring

theorem combine_swap {k : ℕ} (sl sr : ℝ) (fl fr ul ur : Fin k → ℝ)
    (h : ¬ (sl = 0 ∧ sr = 0)) (hle : sl ≤ sr) :
    combine (-sr) (-sl) (fun i => -fr i) (fun i => -fl i) ur ul =
      fun i => -combine sl sr fl fr ul ur i := by
  unfold combine
  by_cases h1 : 0 ≤ sl
  · rw [if_pos h1]
    by_cases h2 : 0 ≤ -sr
    · exact absurd ⟨by linarith, by linarith⟩ h
    · rw [if_neg h2, if_pos (by linarith)]
  · rw [if_neg h1]
    by_cases h2 : sr ≤ 0
    · rw [if_pos h2, if_pos (by linarith)]
    · rw [if_neg h2, if_neg (by linarith), if_neg (by linarith)]
      funext i
      have h1 := not_le.mp h1
      have h2 := not_le.mp h2
      have : sr - sl ≠ 0 := by linarith
      have : -sl - -sr ≠ 0 := by intro h; apply this; linarith
      field_simp
      ring

theorem hllc1_eq {m : ℕ} {P : Params} {F : (Fin (m + 2) → ℝ) → Option (Fin (m + 2) → ℝ)}
    {ul ur fl fr : Fin (m + 2) → ℝ} (hl : F ul = some fl) (hr : F ur = some fr)
    (hg : 0 ≤ P.eps * P.cosAngle) (pl : 0 ≤ ul 0) (pr : 0 ≤ ur 0) (n : ℝ) :
    hllc1 P F ul ur n = some (combine
          (min (normalSpeed1 P n ul - √(P.eps * P.cosAngle * ul 0))
            (normalSpeed1 P n ur - √(P.eps * P.cosAngle * ur 0)))
          (max (normalSpeed1 P n ul + √(P.eps * P.cosAngle * ul 0))
            (normalSpeed1 P n ur + √(P.eps * P.cosAngle * ur 0)))
          (fun i => n * fl i) (fun i => n * fr i) ul ur) := by
  simp only [hllc1, hl, hr, Option.bind_some, root_nonneg (mul_nonneg hg pl),
    root_nonneg (mul_nonneg hg pr)]

theorem hllc2_eq {P : Params} {F : (Fin 3 → ℝ) → Option (Fin 6 → ℝ)}
    {ul ur : Fin 3 → ℝ} {fl fr : Fin 6 → ℝ} (hl : F ul = some fl) (hr : F ur = some fr)
    (hg : 0 ≤ P.eps * P.cosAngle) (pl : 0 ≤ ul 0) (pr : 0 ≤ ur 0) (n : Fin 2 → ℝ) :
    hllc2 P F ul ur n = some (combine
          (min (normalSpeed2 P n ul - √(P.eps * P.cosAngle * ul 0))
            (normalSpeed2 P n ur - √(P.eps * P.cosAngle * ur 0)))
          (max (normalSpeed2 P n ul + √(P.eps * P.cosAngle * ul 0))
            (normalSpeed2 P n ur + √(P.eps * P.cosAngle * ur 0)))
          (normalFlux2 fl n) (normalFlux2 fr n) ul ur) := by
  simp only [hllc2, hl, hr, Option.bind_some, root_nonneg (mul_nonneg hg pl),
    root_nonneg (mul_nonneg hg pr)]

theorem normalSpeed1_neg {m : ℕ} (P : Params) (n : ℝ) (u : Fin (m + 2) → ℝ) :
    normalSpeed1 P (-n) u = -normalSpeed1 P n u := by
  unfold normalSpeed1; split_ifs <;> ring

theorem normalSpeed2_neg (P : Params) (n : Fin 2 → ℝ) (u : Fin 3 → ℝ) :
    normalSpeed2 P (-n) u = -normalSpeed2 P n u := by
  simp only [normalSpeed2, Pi.neg_apply]; ring

theorem normalFlux2_neg (f : Fin 6 → ℝ) (n : Fin 2 → ℝ) :
    normalFlux2 f (-n) = fun i => -normalFlux2 f n i := by
  funext i; simp only [normalFlux2, Pi.neg_apply]; ring

theorem normalSpeed1_eq {m : ℕ} (P : Params) (n : ℝ) (u : Fin (m + 2) → ℝ) :
    normalSpeed1 P n u = n * Spec.velocity P.dry (u 0) (u 1) := by
  unfold normalSpeed1 Spec.velocity; split_ifs <;> ring

theorem normalSpeed2_eq (P : Params) (n : Fin 2 → ℝ) (u : Fin 3 → ℝ) :
    normalSpeed2 P n u = Spec.velocity P.dry (u 0) (u 1) * n 0 +
      Spec.velocity P.dry (u 0) (u 2) * n 1 := rfl

/-- The wave speeds from the two sides. -/
theorem swap_speeds (a b c d : ℝ) :
    min (-b - d) (-a - c) = -max (a + c) (b + d) ∧
    max (-b + d) (-a + c) = -min (a - c) (b - d) := by
  constructor
  · rw [← min_neg_neg, min_comm]; congr 1 <;> ring
  · rw [← max_neg_neg, max_comm]; congr 1 <;> ring

theorem speeds_le {a b c d : ℝ} (hc : 0 ≤ c) (hd : 0 ≤ d) :
    min (a - c) (b - d) ≤ max (a + c) (b + d) :=
  le_trans (min_le_left _ _) (le_trans (by linarith) (le_max_left _ _))

theorem speeds_not_zero {a b c d : ℝ} (hc : 0 ≤ c) (hd : 0 ≤ d) (h : 0 < c ∨ 0 < d) :
    ¬ (min (a - c) (b - d) = 0 ∧ max (a + c) (b + d) = 0) := by
  rintro ⟨h1, h2⟩
  have := min_le_left (a - c) (b - d)
  have := min_le_right (a - c) (b - d)
  have := le_max_left (a + c) (b + d)
  have := le_max_right (a + c) (b + d)
  rcases h with h | h <;> linarith

/-- The height flux out of two states is a difference of two amounts, one drawn
from the left and one from the right. -/
theorem combine_amounts {k : ℕ} (sl sr : ℝ) (fl fr ul ur : Fin (k + 1) → ℝ) (vl vr S : ℝ)
    (hl : fl 0 = ul 0 * vl) (hr : fr 0 = ur 0 * vr)
    (h1 : sl ≤ vl) (h2 : sl ≤ vr) (h3 : vl ≤ sr) (h4 : vr ≤ sr) (h5 : sr ≤ S) (h6 : -S ≤ sl)
    (hS : 0 ≤ S) :
    ∃ a b, 0 ≤ a ∧ a ≤ S ∧ 0 ≤ b ∧ b ≤ S ∧
      combine sl sr fl fr ul ur 0 = a * ul 0 - b * ur 0 := by
  unfold combine
  by_cases c1 : 0 ≤ sl
  · refine ⟨vl, 0, by linarith, by linarith, le_refl _, hS, ?_⟩
    rw [if_pos c1, hl]; ring
  · rw [if_neg c1]
    by_cases c2 : sr ≤ 0
    · refine ⟨0, -vr, le_refl _, hS, by linarith, by linarith, ?_⟩
      rw [if_pos c2, hr]; ring
    · rw [if_neg c2]
      have c1 := not_le.mp c1
      have c2 := not_le.mp c2
      have hpos : 0 < sr - sl := by linarith
      refine ⟨sr * (vl - sl) / (sr - sl), -sl * (sr - vr) / (sr - sl), ?_, ?_, ?_, ?_, ?_⟩
      · exact div_nonneg (mul_nonneg c2.le (by linarith)) hpos.le
      · rw [div_le_iff₀ hpos]
        nlinarith [mul_nonneg c2.le (sub_nonneg.mpr h3), mul_nonneg (sub_nonneg.mpr h5) hpos.le]
      · exact div_nonneg (mul_nonneg (by linarith) (by linarith)) hpos.le
      · rw [div_le_iff₀ hpos]
        nlinarith [mul_nonneg (neg_nonneg.mpr c1.le) (sub_nonneg.mpr h2),
          mul_nonneg (show (0:ℝ) ≤ S + sl by linarith) hpos.le]
      · simp only [hl, hr]
        field_simp
        ring

end Verif.Shallow
