import Verif.NSSource.Model
import Mathlib.Tactic.NormNum
import Mathlib.Tactic.Ring
import Mathlib.Tactic.FieldSimp
import Mathlib.Tactic.FinCases
import Mathlib.Tactic.Positivity

/-!
# Theorems about the manufactured solution

C195: first derivatives and those of the conserved variables; C196: second derivatives of velocity and energy.
-/

namespace Verif.NSSource

open Real

theorem hcos (x : ℝ) : HasDerivAt (fun x => cos (2 * π * x)) (-(2 * π) * sin (2 * π * x)) x := by
  have := ((hasDerivAt_id x).const_mul (2 * π)).cos
  simp only [id, mul_one] at this
  exact this.congr_deriv (by ring)

theorem hsin (x : ℝ) : HasDerivAt (fun x => sin (2 * π * x)) (2 * π * cos (2 * π * x)) x := by
  have := ((hasDerivAt_id x).const_mul (2 * π)).sin
  simp only [id, mul_one] at this
  exact this.congr_deriv (by ring)

/-- The derivatives of the four products. -/
theorem zx (x y : ℝ) (v : Fin 4) : HasDerivAt (fun x => zVal x y v)
    ((![-(2 * π) * zVal x y 3, 2 * π * zVal x y 2, -(2 * π) * zVal x y 1, 2 * π * zVal x y 0] : Fin 4 → ℝ) v) x := by
  fin_cases v <;> simp [zVal]
  · exact ((hcos x).mul_const _).congr_deriv (by ring)
  · exact ((hsin x).mul_const _).congr_deriv (by ring)
  · exact ((hcos x).mul_const _).congr_deriv (by ring)
  · exact ((hsin x).mul_const _).congr_deriv (by ring)

theorem zy (x y : ℝ) (v : Fin 4) : HasDerivAt (fun y => zVal x y v)
    ((![-(2 * π) * zVal x y 2, 2 * π * zVal x y 3, 2 * π * zVal x y 0, -(2 * π) * zVal x y 1] : Fin 4 → ℝ) v) y := by
  fin_cases v <;> simp [zVal]
  · exact ((hcos y).const_mul _).congr_deriv (by ring)
  · exact ((hsin y).const_mul _).congr_deriv (by ring)
  · exact ((hsin y).const_mul _).congr_deriv (by ring)
  · exact ((hcos y).const_mul _).congr_deriv (by ring)

/-- **C195.** The tables of the conserved variables are their first and unmixed second derivatives. -/
theorem state_derivatives (c : Amp) (x y : ℝ) (v : Fin 4) :
    HasDerivAt (fun x => state c x y v) (stateX c x y v) x
    ∧ HasDerivAt (fun y => state c x y v) (stateY c x y v) y
    ∧ HasDerivAt (fun x => stateX c x y v) (stateXX c x y v) x
    ∧ HasDerivAt (fun y => stateY c x y v) (stateYY c x y v) y := by
  have X0 := zx x y 0
  have X1 := zx x y 1
  have X2 := zx x y 2
  have X3 := zx x y 3
  have Y0 := zy x y 0
  have Y1 := zy x y 1
  have Y2 := zy x y 2
  have Y3 := zy x y 3
  simp only [Matrix.cons_val] at X0 X1 X2 X3 Y0 Y1 Y2 Y3
  fin_cases v <;> refine ⟨?_, ?_, ?_, ?_⟩ <;>
    simp only [state, stateX, stateY, stateXX, stateYY, Fin.zero_eta, Fin.mk_one, Fin.reduceFinMk,
      Matrix.cons_val]
  · exact ((X0.const_mul c.C).const_add _).congr_deriv (by ring)
  · exact ((Y0.const_mul c.C).const_add _).congr_deriv (by ring)
  · exact (X3.const_mul _).congr_deriv (by ring)
  · exact (Y2.const_mul _).congr_deriv (by ring)
  · exact ((X3.const_mul c.C).const_add _).congr_deriv (by ring)
  · exact ((Y3.const_mul c.C).const_add _).congr_deriv (by ring)
  · exact (X0.const_mul _).congr_deriv (by ring)
  · exact (Y1.const_mul _).congr_deriv (by ring)
  · exact ((X2.const_mul c.C).const_add _).congr_deriv (by ring)
  · exact ((Y2.const_mul c.C).const_add _).congr_deriv (by ring)
  · exact (X1.const_mul _).congr_deriv (by ring)
  · exact (Y0.const_mul _).congr_deriv (by ring)
  · exact ((X0.const_mul c.C).const_add _).congr_deriv (by ring)
  · exact ((Y0.const_mul c.C).const_add _).congr_deriv (by ring)
  · exact (X3.const_mul _).congr_deriv (by ring)
  · exact (Y2.const_mul _).congr_deriv (by ring)

theorem d10 : (1.0 : ℝ) = 1 := by norm_num

/-- The quotient rule as in the code. -/
theorem quotient {q r : ℝ → ℝ} {q' r' s : ℝ} (hq : HasDerivAt q q' s) (hr : HasDerivAt r r' s) (h : r s ≠ 0) :
    HasDerivAt (fun s => q s * (1.0 / r s)) (1.0 / r s * (q' - q s * (1.0 / r s) * r')) s := by
  simp only [d10]
  have := hq.div hr h
  refine (this.congr_deriv ?_).congr_of_eventuallyEq ?_
  · field_simp
  · exact Filter.Eventually.of_forall fun s => by simp [div_eq_mul_inv]

/-- **C195.** The tables of velocity and energy per mass are their first derivatives. -/
theorem part_derivatives (c : Amp) (x y : ℝ) (h : state c x y 0 ≠ 0) (v : Fin 4) :
    HasDerivAt (fun x => part c x y v) (partX c x y v) x
    ∧ HasDerivAt (fun y => part c x y v) (partY c x y v) y := by
  obtain ⟨a1, a2, -, -⟩ := state_derivatives c x y v
  obtain ⟨b1, b2, -, -⟩ := state_derivatives c x y 0
  by_cases hv : v = 0
  · simp only [part, partX, partY, hv, if_true]
    exact ⟨b1, b2⟩
  · simp only [part, partX, partY, hv, if_false, inv]
    exact ⟨quotient a1 b1 h, quotient a2 b2 h⟩

/-- The derivative of the quotient rule. -/
theorem quotient2 {r p w z : ℝ → ℝ} {r1 p1 w1 z1 s : ℝ} (hr : HasDerivAt r r1 s) (hp : HasDerivAt p p1 s)
    (hw : HasDerivAt w w1 s) (hz : HasDerivAt z z1 s) (h : r s ≠ 0) :
    HasDerivAt (fun s => 1.0 / r s * (w s - p s * z s))
      (-r1 / (r s) ^ 2 * (w s - p s * z s) + 1 / r s * (w1 - (p1 * z s + p s * z1))) s := by
  simp only [d10]
  have := (hr.inv h).mul (hw.sub (hp.mul hz))
  refine (this.congr_deriv ?_).congr_of_eventuallyEq ?_
  · simp [one_div]
  · exact Filter.Eventually.of_forall fun s => by simp [one_div]

/-- The mixed derivatives of the conserved variables. -/
noncomputable def mixed (c : Amp) (x y : ℝ) : Fin 4 → ℝ :=
  ![4 * π * π * c.C * zVal x y 1, -4 * π * π * c.C * zVal x y 2, -4 * π * π * c.C * zVal x y 3,
    4 * π * π * c.C * zVal x y 1]

theorem state_yx (c : Amp) (x y : ℝ) (v : Fin 4) : HasDerivAt (fun x => stateY c x y v) (mixed c x y v) x := by
  have X0 := zx x y 0
  have X1 := zx x y 1
  have X2 := zx x y 2
  simp only [Matrix.cons_val] at X0 X1 X2
  fin_cases v <;> simp only [stateY, mixed, Fin.zero_eta, Fin.mk_one, Fin.reduceFinMk, Matrix.cons_val]
  · exact (X2.const_mul _).congr_deriv (by ring)
  · exact (X1.const_mul _).congr_deriv (by ring)
  · exact (X0.const_mul _).congr_deriv (by ring)
  · exact (X2.const_mul _).congr_deriv (by ring)

/-- **C196, partial.** The mixed derivatives of the momentum are right. Missing: those of density and energy
(`state_mixed_sign`). -/
theorem state_mixed_partial (c : Amp) (x y : ℝ) (v : Fin 4) (hv : v = 1 ∨ v = 2) :
    HasDerivAt (fun x => stateY c x y v) (stateXY c x y v) x := by
  rcases hv with rfl | rfl
  · exact state_yx c x y 1
  · exact state_yx c x y 2

/-- **C196, what the code computes.** The mixed derivatives of density and energy have the wrong sign. -/
theorem state_mixed_sign (c : Amp) (x y : ℝ) (v : Fin 4) (hv : v = 0 ∨ v = 3) :
    HasDerivAt (fun x => stateY c x y v) (-stateXY c x y v) x := by
  rcases hv with rfl | rfl
  · exact (state_yx c x y 0).congr_deriv (by simp only [mixed, stateXY, Matrix.cons_val]; ring)
  · exact (state_yx c x y 3).congr_deriv (by simp only [mixed, stateXY, Matrix.cons_val]; ring)

/-- **C196, negation.** So they are wrong wherever they are not zero. -/
theorem state_mixed_wrong (c : Amp) (x y : ℝ) (hC : c.C ≠ 0) (hx : sin (2 * π * x) ≠ 0) (hy : sin (2 * π * y) ≠ 0) :
    ¬ HasDerivAt (fun x => stateY c x y 0) (stateXY c x y 0) x := by
  intro h
  have e := h.unique (state_mixed_sign c x y 0 (Or.inl rfl))
  have hpi := Real.pi_ne_zero
  have hne : stateXY c x y 0 ≠ 0 := by
    simp only [stateXY, zVal, Matrix.cons_val]
    positivity
  exact hne (self_eq_neg.1 e)

/-- **C196.** The formulas for the unmixed second derivatives of velocity and energy are right. -/
theorem forms_right (c : Amp) (x y : ℝ) (h : state c x y 0 ≠ 0) (v : Fin 4) (hv : v ≠ 0) :
    HasDerivAt (fun x => partX c x y v) (formXX c x y v) x
    ∧ HasDerivAt (fun y => partY c x y v) (formYY c x y v) y := by
  obtain ⟨a1, a2, a3, a4⟩ := state_derivatives c x y v
  obtain ⟨b1, b2, b3, b4⟩ := state_derivatives c x y 0
  obtain ⟨p1, p2⟩ := part_derivatives c x y h v
  refine ⟨?_, ?_⟩
  · have := quotient2 b1 p1 a3 b3 h
    simp only [partX, hv, if_false, inv]
    refine this.congr_deriv ?_
    simp only [formXX, inv, d10, partX, hv, if_false]
    field_simp
    ring
  · have := quotient2 b2 p2 a4 b4 h
    simp only [partY, hv, if_false, inv]
    refine this.congr_deriv ?_
    simp only [formYY, inv, d10, partY, hv, if_false]
    field_simp
    ring

/-- **C196, what the code computes.** The formula for the mixed derivatives of the velocity lacks twice the term of
the density, because of the sign of `state_mixed_sign`. -/
theorem form_mixed (c : Amp) (x y : ℝ) (h : state c x y 0 ≠ 0) (v : Fin 4) (hv : v = 1 ∨ v = 2) :
    HasDerivAt (fun x => partY c x y v)
      (formXY c x y v + 2 * part c x y v * stateXY c x y 0 / state c x y 0) x := by
  have hv0 : v ≠ 0 := by rcases hv with rfl | rfl <;> decide
  obtain ⟨b1, -, -, -⟩ := state_derivatives c x y 0
  obtain ⟨p1, -⟩ := part_derivatives c x y h v
  have := quotient2 b1 p1 (state_mixed_partial c x y v hv) (state_mixed_sign c x y 0 (Or.inl rfl)) h
  simp only [partY, hv0, if_false, inv]
  refine this.congr_deriv ?_
  simp only [formXY, inv, d10, partX, hv0, if_false]
  field_simp
  ring

/-- **C196, partial.** Of the final tables the unmixed second derivatives of the density are right. Missing: all the
other entries (`tables_wrong`, `tables_missing`). -/
theorem tables_partial (c : Amp) (x y : ℝ) :
    HasDerivAt (fun x => partX c x y 0) ((tables c x y).1 0) x
    ∧ HasDerivAt (fun y => partY c x y 0) ((tables c x y).2.1 0) y := by
  obtain ⟨-, -, b3, b4⟩ := state_derivatives c x y 0
  exact ⟨b3, b4⟩

/-- **C196, what the code computes.** For velocity and energy the table of the second derivatives in `x` holds those
in `y`, the table in `y` is zero, the mixed one of the first velocity component is made from the energy and that of
the energy is zero. -/
theorem tables_wrong (c : Amp) (x y : ℝ) (h : state c x y 0 ≠ 0) :
    (∀ v, v ≠ 0 → HasDerivAt (fun y => partY c x y v) ((tables c x y).1 v) y ∧ (tables c x y).2.1 v = 0)
    ∧ (tables c x y).2.2 0 = stateXY c x y 0 ∧ (tables c x y).2.2 1 = formXY c x y 3
    ∧ (tables c x y).2.2 2 = formXY c x y 2 ∧ (tables c x y).2.2 3 = 0 := by
  refine ⟨?_, rfl, rfl, rfl, rfl⟩
  intro v hv
  have := (forms_right c x y h v hv).2
  fin_cases v
  · exact absurd rfl hv
  · exact ⟨this, rfl⟩
  · exact ⟨this, rfl⟩
  · exact ⟨this, rfl⟩

/-- **C196, negation.** With any amplitude the second derivative in `y` of the first velocity component at
`(1/4, 0)` is not the zero of the table. -/
theorem tables_missing (c : Amp) (hA : c.A ≠ 0) (hC : c.C ≠ 0) :
    ¬ HasDerivAt (fun y => partY c (1 / 4) y 1) ((tables c (1 / 4) 0).2.1 1) 0 := by
  intro h
  have e : 2 * π * (1 / 4) = π / 2 := by ring
  have hs : state c (1 / 4) 0 0 = c.A := by simp only [state, zVal, Matrix.cons_val, e]; simp
  have h0 : state c (1 / 4) 0 0 ≠ 0 := by rw [hs]; exact hA
  have hf := h.unique (forms_right c (1 / 4) 0 h0 1 (by decide)).2
  rw [show (tables c (1 / 4) 0).2.1 1 = 0 from rfl] at hf
  have y0 : stateY c (1 / 4) 0 0 = 0 := by simp only [stateY, zVal, Matrix.cons_val, e]; simp
  have yy0 : stateYY c (1 / 4) 0 0 = 0 := by simp only [stateYY, zVal, Matrix.cons_val, e]; simp
  have yy1 : stateYY c (1 / 4) 0 1 = -4 * π * π * c.C := by
    simp only [stateYY, zVal, Matrix.cons_val, e]; simp
  have hpi := Real.pi_ne_zero
  simp only [formYY, inv, d10, y0, yy0, yy1, hs, mul_zero, zero_add, sub_zero] at hf
  have : (1 / c.A * (-4 * π * π * c.C)) ≠ 0 := by positivity
  exact this hf.symm

/-- The numbers of the code meet the hypotheses. -/
example : (⟨1.225, 239750, 0.2, 50⟩ : Amp).A ≠ 0 ∧ (⟨1.225, 239750, 0.2, 50⟩ : Amp).C ≠ 0
    ∧ state ⟨1.225, 239750, 0.2, 50⟩ 0 0 0 ≠ 0 := by
  refine ⟨by norm_num, by norm_num, ?_⟩
  simp only [state, zVal, Matrix.cons_val]
  norm_num

end Verif.NSSource
