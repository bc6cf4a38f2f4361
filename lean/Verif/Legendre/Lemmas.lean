import Verif.Legendre.Model
import Verif.Legendre.Spec
import Mathlib.Analysis.Calculus.Deriv.Polynomial
import Mathlib.Analysis.SpecialFunctions.Integrals.Basic
import Mathlib.MeasureTheory.Integral.IntervalIntegral.FundThmCalculus
import Mathlib.Tactic.LinearCombination
import Mathlib.Topology.Algebra.Polynomial
import Mathlib.Tactic.FieldSimp
import Mathlib.Tactic.Positivity

set_option linter.all false

namespace Verif.Legendre
open Polynomial

/-! ### Rodrigues -/

noncomputable def U : ℝ[X] := X ^ 2 - 1
noncomputable def R (n : Nat) : ℝ[X] := derivative^[n] (U ^ n)

theorem dU : derivative U = 2 * X := by
  simp [U, derivative_X_pow]; norm_num

theorem dUpow (n : Nat) : derivative (U ^ (n + 1)) = C (2 * ((n : ℝ) + 1)) * (X * U ^ n) := by
  rw [derivative_pow_succ, dU]
  simp only [map_add, map_mul, map_natCast, map_one, map_ofNat]
  push_cast
  ring

theorem iter_X_mul (n : Nat) (p : ℝ[X]) :
    derivative^[n + 1] (X * p) = X * derivative^[n + 1] p + C ((n : ℝ) + 1) * derivative^[n] p := by
  induction n generalizing p with
  | zero => simp; ring
  | succ n ih =>
    rw [Function.iterate_succ_apply', ih]
    simp only [derivative_add, derivative_mul, derivative_X, derivative_C]
    rw [← Function.iterate_succ_apply' derivative (n + 1) p, ← Function.iterate_succ_apply' derivative n p]
    simp only [map_add, map_natCast, map_one]
    push_cast
    ring

theorem iter_C_mul (n : Nat) (c : ℝ) (p : ℝ[X]) :
    derivative^[n] (C c * p) = C c * derivative^[n] p := by
  induction n generalizing p with
  | zero => rfl
  | succ n ih => rw [Function.iterate_succ_apply, Function.iterate_succ_apply, derivative_C_mul, ih]

/-- `D R_{n+1} = 2(n+1) (X D R_n + (n+1) R_n)` -/
theorem dR (n : Nat) :
    derivative (R (n + 1)) = C (2 * ((n : ℝ) + 1)) * (X * derivative (R n) + C ((n : ℝ) + 1) * R n) := by
  unfold R
  rw [← Function.iterate_succ_apply' derivative (n + 1), Function.iterate_succ_apply, dUpow, iter_C_mul,
    iter_X_mul, Function.iterate_succ_apply']

/-- `R_{n+1} = 2 (U D R_n + (n+1) X R_n)` -/
theorem R_succ (n : Nat) :
    R (n + 1) = 2 * (U * derivative (R n) + C ((n : ℝ) + 1) * X * R n) := by
  cases n with
  | zero => simp [R, dU]
  | succ m =>
    -- first expression
    have h1 : R (m + 2) = C (2 * ((m : ℝ) + 2)) *
        (X * R (m + 1) + C ((m : ℝ) + 1) * derivative^[m] (U ^ (m + 1))) := by
      unfold R
      rw [Function.iterate_succ_apply, dUpow, iter_C_mul, iter_X_mul]
      congr 2
      push_cast; ring
    -- Leibniz
    have h2 : R (m + 2) = U * derivative (R (m + 1)) + C (2 * ((m : ℝ) + 2)) * X * R (m + 1) +
        C (((m : ℝ) + 2) * ((m : ℝ) + 1)) * derivative^[m] (U ^ (m + 1)) := by
      have e : U ^ (m + 2) = X * (X * U ^ (m + 1)) - U ^ (m + 1) := by unfold U; ring
      unfold R
      rw [e, iterate_derivative_sub, iter_X_mul, iter_X_mul, iter_X_mul]
      rw [← Function.iterate_succ_apply' derivative (m + 1)]
      simp only [map_add, map_mul, map_natCast, map_one, map_ofNat, U]
      push_cast
      ring
    have hC : ∀ a b : ℝ, (C (a * b) : ℝ[X]) = C a * C b := fun a b => map_mul C a b
    rw [h1] at h2 ⊢
    push_cast
    have e2 : (C ((m : ℝ) + 1 + 1) : ℝ[X]) = C ((m : ℝ) + 2) := by congr 1; ring
    rw [e2]
    rw [hC, hC] at h2
    rw [hC]
    have h3 : (C (2 : ℝ) : ℝ[X]) = 2 := map_ofNat C 2
    rw [h3] at h2 ⊢
    linear_combination 2 * h2

theorem rodrigues_eq (n : Nat) : C (2 ^ n * (n.factorial : ℝ)) * rodrigues n = R n := by
  unfold rodrigues R U
  rw [← mul_assoc, ← map_mul, mul_one_div_cancel (by positivity), map_one, one_mul]

theorem cancelC {c : ℝ} (hc : c ≠ 0) {p q : ℝ[X]} (h : C c * p = C c * q) : p = q :=
  mul_left_cancel₀ (by simpa using hc) h

theorem rodrigues_d (n : Nat) : derivative (rodrigues (n + 1)) =
    X * derivative (rodrigues n) + C ((n : ℝ) + 1) * rodrigues n := by
  have h := dR n
  rw [← rodrigues_eq, ← rodrigues_eq, derivative_C_mul, derivative_C_mul] at h
  refine cancelC (c := 2 ^ (n + 1) * ((n + 1).factorial : ℝ)) (by positivity) ?_
  rw [h, Nat.factorial_succ]
  push_cast
  simp only [map_add, map_mul, map_natCast, map_one, map_ofNat, map_pow]
  ring

theorem rodrigues_succ (n : Nat) : C ((n : ℝ) + 1) * rodrigues (n + 1) =
    U * derivative (rodrigues n) + C ((n : ℝ) + 1) * X * rodrigues n := by
  have h := R_succ n
  rw [← rodrigues_eq, ← rodrigues_eq, derivative_C_mul] at h
  refine cancelC (c := 2 ^ (n + 1) * (n.factorial : ℝ)) (by positivity) ?_
  rw [Nat.factorial_succ] at h
  push_cast at h
  simp only [map_add, map_mul, map_natCast, map_one, map_ofNat, map_pow] at h ⊢
  linear_combination h

theorem rodrigues_zero : rodrigues 0 = 1 := by simp [rodrigues]

theorem rodrigues_one : rodrigues 1 = X := by
  have := rodrigues_succ 0
  rw [rodrigues_zero] at this
  simpa using this

/-- Bonnet's recursion. -/
theorem rodrigues_rec (n : Nat) : C ((n : ℝ) + 2) * rodrigues (n + 2) =
    C (2 * (n : ℝ) + 3) * X * rodrigues (n + 1) - C ((n : ℝ) + 1) * rodrigues n := by
  have h1 := rodrigues_succ (n + 1)
  have h2 := rodrigues_d n
  have h3 := rodrigues_succ n
  rw [h2] at h1
  push_cast at h1
  simp only [map_add, map_mul, map_natCast, map_one, map_ofNat] at *
  simp only [U] at h1 h3
  linear_combination h1 - X * h3

theorem rodrigues_rec' (n : Nat) : rodrigues (n + 2) =
    C ((2 * ((n : ℝ) + 2) - 1) / ((n : ℝ) + 2)) * X * rodrigues (n + 1) -
      C (((n : ℝ) + 2 - 1) / ((n : ℝ) + 2)) * rodrigues n := by
  have hn : ((n : ℝ) + 2) ≠ 0 := by positivity
  refine cancelC hn ?_
  rw [rodrigues_rec, mul_sub, ← mul_assoc, ← mul_assoc, ← mul_assoc, ← map_mul, ← map_mul,
    mul_div_cancel₀ _ hn, mul_div_cancel₀ _ hn]
  simp only [map_add, map_sub, map_mul, map_natCast, map_one, map_ofNat]
  ring

theorem legendre_eq (n : Nat) (x : ℝ) : legendre n x = (rodrigues n).eval x := by
  induction n using Nat.strong_induction_on with
  | _ n ih =>
    match n with
    | 0 => rw [rodrigues_zero]; simp [legendre]
    | 1 => rw [rodrigues_one]; simp [legendre]
    | n + 2 =>
      rw [rodrigues_rec', legendre, ih (n + 1) (by omega), ih n (by omega)]
      simp

theorem legendreDeriv_eq (n : Nat) (x : ℝ) : legendreDeriv n x = (derivative (rodrigues n)).eval x := by
  induction n using Nat.strong_induction_on with
  | _ n ih =>
    match n with
    | 0 => rw [rodrigues_zero]; simp [legendreDeriv]
    | 1 => rw [rodrigues_one]; simp [legendreDeriv]
    | n + 2 =>
      rw [rodrigues_rec', legendreDeriv, ih (n + 1) (by omega), ih n (by omega), legendre_eq]
      simp
      ring

theorem hasDerivAt_legendre (n : Nat) (x : ℝ) : HasDerivAt (legendre n) (legendreDeriv n x) x := by
  have : legendre n = fun x => (rodrigues n).eval x := funext fun x => legendre_eq n x
  rw [this, legendreDeriv_eq]
  exact (rodrigues n).hasDerivAt x

/-- `((X^2-1) P_n')' = n(n+1) P_n` -/
theorem legendre_ode (n : Nat) :
    derivative (U * derivative (rodrigues n)) = C ((n : ℝ) * (n + 1)) * rodrigues n := by
  have h1 := rodrigues_succ n
  have h2 := rodrigues_d n
  have h3 : derivative (U * derivative (rodrigues n)) =
      C ((n : ℝ) + 1) * derivative (rodrigues (n + 1)) - C ((n : ℝ) + 1) * (rodrigues n + X * derivative (rodrigues n)) := by
    have : U * derivative (rodrigues n) = C ((n : ℝ) + 1) * rodrigues (n + 1) - C ((n : ℝ) + 1) * (X * rodrigues n) := by
      linear_combination -h1
    rw [this, derivative_sub, derivative_C_mul, derivative_C_mul, derivative_mul, derivative_X]
    ring
  rw [h3, h2]
  simp only [map_add, map_mul, map_natCast, map_one]
  ring

theorem legendre_one (n : Nat) : legendre n 1 = 1 := by
  induction n using Nat.strong_induction_on with
  | _ n ih =>
    match n with
    | 0 => rfl
    | 1 => rfl
    | n + 2 =>
      rw [legendre, ih (n + 1) (by omega), ih n (by omega)]
      have hn : ((n : ℝ) + 2) ≠ 0 := by positivity
      push_cast
      field_simp
      ring

theorem legendre_neg (n : Nat) (x : ℝ) : legendre n (-x) = (-1) ^ n * legendre n x := by
  induction n using Nat.strong_induction_on with
  | _ n ih =>
    match n with
    | 0 => simp [legendre]
    | 1 => simp [legendre]
    | n + 2 =>
      rw [legendre, legendre, ih (n + 1) (by omega), ih n (by omega)]
      ring

theorem natDegree_rodrigues (n : Nat) : (rodrigues n).natDegree = n ∧ 0 < (rodrigues n).coeff n := by
  have hdeg : ∀ n, (rodrigues n).natDegree ≤ n := by
    intro n
    induction n using Nat.strong_induction_on with
    | _ n ih =>
      match n with
      | 0 => simp [rodrigues_zero]
      | 1 => simp [rodrigues_one]
      | n + 2 =>
        rw [rodrigues_rec']
        refine (natDegree_sub_le _ _).trans (max_le ?_ ?_)
        · rw [mul_assoc]
          refine (natDegree_C_mul_le _ _).trans ?_
          refine (natDegree_mul_le).trans ?_
          have := ih (n + 1) (by omega)
          simp only [natDegree_X]; omega
        · refine (natDegree_C_mul_le _ _).trans ?_
          have := ih n (by omega)
          omega
  have hco : ∀ n, 0 < (rodrigues n).coeff n := by
    intro n
    induction n with
    | zero => simp [rodrigues_zero]
    | succ n ih =>
      cases n with
      | zero => simp [rodrigues_one]
      | succ n =>
        rw [rodrigues_rec', coeff_sub, mul_assoc, coeff_C_mul, coeff_C_mul, coeff_X_mul,
          coeff_eq_zero_of_natDegree_lt (p := rodrigues n) (by have := hdeg n; omega)]
        have : (0 : ℝ) < (2 * ((n : ℝ) + 2) - 1) / ((n : ℝ) + 2) := by
          apply div_pos <;> nlinarith [Nat.cast_nonneg (α := ℝ) n]
        simpa using mul_pos this ih
  refine ⟨Nat.le_antisymm (hdeg n) (le_natDegree_of_ne_zero (hco n).ne'), hco n⟩

/-! ### Integrals -/

noncomputable def I (p : ℝ[X]) : ℝ := ∫ x in (-1 : ℝ)..1, p.eval x

theorem I_integrable (p : ℝ[X]) : IntervalIntegrable (fun x => p.eval x) MeasureTheory.volume (-1) 1 :=
  Continuous.intervalIntegrable (by fun_prop) _ _

theorem I_add (p q : ℝ[X]) : I (p + q) = I p + I q := by
  unfold I
  simp only [eval_add]
  exact intervalIntegral.integral_add (I_integrable p) (I_integrable q)

theorem I_sub (p q : ℝ[X]) : I (p - q) = I p - I q := by
  unfold I
  simp only [eval_sub]
  exact intervalIntegral.integral_sub (I_integrable p) (I_integrable q)

theorem I_C_mul (c : ℝ) (p : ℝ[X]) : I (C c * p) = c * I p := by
  unfold I
  simp only [eval_mul, eval_C]
  exact intervalIntegral.integral_const_mul c _

theorem I_deriv (p : ℝ[X]) : I (derivative p) = p.eval 1 - p.eval (-1) := by
  unfold I
  apply intervalIntegral.integral_eq_sub_of_hasDerivAt (f := fun x => p.eval x)
  · intro x _; exact p.hasDerivAt x
  · exact I_integrable _

theorem orthogonal {m n : Nat} (h : m ≠ n) : I (rodrigues m * rodrigues n) = 0 := by
  have e : derivative (U * (derivative (rodrigues m) * rodrigues n - derivative (rodrigues n) * rodrigues m)) =
      C ((m : ℝ) * (m + 1) - n * (n + 1)) * (rodrigues m * rodrigues n) := by
    have hm := legendre_ode m
    have hn := legendre_ode n
    have : U * (derivative (rodrigues m) * rodrigues n - derivative (rodrigues n) * rodrigues m) =
        (U * derivative (rodrigues m)) * rodrigues n - (U * derivative (rodrigues n)) * rodrigues m := by ring
    rw [this, derivative_sub, derivative_mul, derivative_mul (f := U * derivative (rodrigues n)), hm, hn]
    rw [map_sub]
    ring
  have h1 := I_deriv (U * (derivative (rodrigues m) * rodrigues n - derivative (rodrigues n) * rodrigues m))
  rw [e, I_C_mul] at h1
  have hU1 : U.eval (1 : ℝ) = 0 := by simp [U]
  have hU2 : U.eval (-1 : ℝ) = 0 := by simp [U]
  rw [eval_mul, eval_mul, hU1, hU2] at h1
  have hne : (m : ℝ) * (m + 1) - n * (n + 1) ≠ 0 := by
    have : (m : ℝ) * (m + 1) - n * (n + 1) = ((m : ℝ) - n) * (m + n + 1) := by ring
    rw [this]
    refine mul_ne_zero (sub_ne_zero.mpr (by exact_mod_cast h)) (by positivity)
  have : ((m : ℝ) * (m + 1) - n * (n + 1)) * I (rodrigues m * rodrigues n) = 0 := by linarith
  exact (mul_eq_zero.mp this).resolve_left hne

theorem norm_succ (n : Nat) :
    (2 * (n : ℝ) + 3) * I (rodrigues (n + 1) * rodrigues (n + 1)) = (2 * n + 1) * I (rodrigues n * rodrigues n) := by
  cases n with
  | zero =>
    rw [rodrigues_zero, rodrigues_one]
    have h1 : I ((X : ℝ[X]) * X) = 2 / 3 := by
      have : (X : ℝ[X]) * X = derivative (C (1 / 3) * X ^ 3) := by
        rw [derivative_C_mul, derivative_X_pow]
        simp only [Nat.cast_ofNat]
        rw [show (C (3 : ℝ) : ℝ[X]) = 3 from map_ofNat C 3, ← mul_assoc]
        rw [show (C (1 / 3 : ℝ) : ℝ[X]) * 3 = 1 by
          rw [show (3 : ℝ[X]) = C 3 from (map_ofNat C 3).symm, ← map_mul]; norm_num]
        ring
      rw [this, I_deriv]; simp; norm_num
    have h2 : I ((1 : ℝ[X]) * 1) = 2 := by
      have : (1 : ℝ[X]) * 1 = derivative X := by simp
      rw [this, I_deriv]; simp; norm_num
    rw [h1, h2]; norm_num
  | succ n =>
    have o1 : I (rodrigues n * rodrigues (n + 2)) = 0 := orthogonal (by omega)
    have o2 : I (rodrigues (n + 3) * rodrigues (n + 1)) = 0 := orthogonal (by omega)
    have r1 := rodrigues_rec n
    have r2 := rodrigues_rec (n + 1)
    have e1 : C ((n : ℝ) + 2) * (rodrigues (n + 2) * rodrigues (n + 2)) =
        C (2 * (n : ℝ) + 3) * (X * (rodrigues (n + 1) * rodrigues (n + 2))) -
          C ((n : ℝ) + 1) * (rodrigues n * rodrigues (n + 2)) := by
      linear_combination rodrigues (n + 2) * r1
    have e2 : C ((n : ℝ) + 3) * (rodrigues (n + 3) * rodrigues (n + 1)) =
        C (2 * (n : ℝ) + 5) * (X * (rodrigues (n + 1) * rodrigues (n + 2))) -
          C ((n : ℝ) + 2) * (rodrigues (n + 1) * rodrigues (n + 1)) := by
      push_cast at r2
      simp only [map_add, map_mul, map_natCast, map_one, map_ofNat] at r2 ⊢
      linear_combination rodrigues (n + 1) * r2
    have i1 := congrArg I e1
    have i2 := congrArg I e2
    rw [I_C_mul, I_sub, I_C_mul, I_C_mul, o1] at i1
    rw [I_C_mul, I_sub, I_C_mul, I_C_mul, o2] at i2
    have hn : ((n : ℝ) + 2) ≠ 0 := by positivity
    push_cast
    apply mul_left_cancel₀ hn
    linear_combination (2 * (n : ℝ) + 5) * i1 - (2 * (n : ℝ) + 3) * i2

theorem norm_eq (n : Nat) : I (rodrigues n * rodrigues n) = 2 / (2 * n + 1) := by
  induction n with
  | zero =>
    rw [rodrigues_zero]
    have : (1 : ℝ[X]) * 1 = derivative X := by simp
    rw [this, I_deriv]; simp; norm_num
  | succ n ih =>
    have h := norm_succ n
    rw [ih] at h
    have h1 : (2 * (n : ℝ) + 1) ≠ 0 := by positivity
    have h3 : (2 * (n : ℝ) + 3) ≠ 0 := by positivity
    rw [mul_div_cancel₀ _ h1] at h
    push_cast
    rw [show 2 * ((n : ℝ) + 1) + 1 = 2 * n + 3 by ring, eq_div_iff h3]
    linarith

end Verif.Legendre
