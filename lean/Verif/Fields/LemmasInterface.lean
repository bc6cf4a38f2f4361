import Verif.Fields.Lemmas
import Mathlib.Analysis.SpecialFunctions.Integrals.Basic

/-! # Fields in closed form: the wave at an interface, and means over a period -/
namespace Verif.Fields

open MaxLocal (Tensor cast cross dot)
open Pml (Material partialDeriv)
open scoped Real ComplexConjugate
set_option linter.all false

theorem dotR_comm {d : Nat} (a b : Fin d → ℝ) : dotR a b = dotR b a := by
  unfold dotR; exact Finset.sum_congr rfl fun i _ => mul_comm _ _

theorem dotR_smul {d : Nat} (a b : Fin d → ℝ) (c : ℝ) : dotR (fun i => c * a i) b = c * dotR a b := by
  unfold dotR; rw [Finset.mul_sum]; exact Finset.sum_congr rfl fun i _ => by ring

theorem dotR_smul_right {d : Nat} (a b : Fin d → ℝ) (c : ℝ) : dotR a (fun i => c * b i) = c * dotR a b := by
  rw [dotR_comm, dotR_smul, dotR_comm]

theorem dotR_self_nonneg {d : Nat} (a : Fin d → ℝ) : 0 ≤ dotR a a := Finset.sum_nonneg fun i _ => mul_self_nonneg _

theorem dotR_self_pos {d : Nat} (a : Fin d → ℝ) (h : a ≠ 0) : 0 < dotR a a := by
  obtain ⟨i, hi⟩ := Function.ne_iff.1 h
  refine Finset.sum_pos' (fun i _ => mul_self_nonneg _) ⟨i, Finset.mem_univ _, ?_⟩
  exact mul_self_pos.2 hi

theorem dotR_continuous {d : Nat} (a : Fin d → ℝ) : Continuous (dotR a) := by
  unfold dotR
  exact continuous_finsetSum _ fun i _ => continuous_const.mul (continuous_apply i)

theorem phase_continuous {d : Nat} (w : PlaneWave d) : Continuous w.phaseFactor := by
  unfold PlaneWave.phaseFactor
  exact Complex.continuous_exp.comp (continuous_const.mul (Complex.continuous_ofReal.comp ((dotR_continuous _).add continuous_const)))

theorem field_continuous {d : Nat} (w : PlaneWave d) : Continuous w.field :=
  continuous_pi fun i => continuous_const.mul (phase_continuous w)

theorem curl_continuous {d : Nat} (w : PlaneWave d) (m : Tensor) : Continuous fun x => m.applyCurl (w.fieldCurl x) := by
  refine continuous_pi fun i => ?_
  have : (fun x => m.applyCurl (w.fieldCurl x) i) = fun x => m.applyCurl (cross (cast w.k) w.E0) i * (Complex.I * w.phaseFactor x) := by
    funext x; unfold PlaneWave.fieldCurl; rw [applyCurl_mul]
  rw [this]
  exact continuous_const.mul (continuous_const.mul (phase_continuous w))

/-- The refractive index and the impedance. -/
theorem index_impedance (m : Material) (he : 0 < m.permittivity) (hmu : 0 < m.permeability) : m.refractiveIndex = impedance m * m.permeability := by
  unfold Pml.Material.refractiveIndex impedance MaxLocal.impedance
  have : m.permittivity * m.permeability = m.permittivity / m.permeability * m.permeability ^ 2 := by field_simp
  rw [this, Real.sqrt_mul (by positivity), Real.sqrt_sq hmu.le]

theorem index_pos (m : Material) (he : 0 < m.permittivity) (hmu : 0 < m.permeability) : 0 < m.refractiveIndex := Real.sqrt_pos.2 (by positivity)

theorem impedance_pos (m : Material) (he : 0 < m.permittivity) (hmu : 0 < m.permeability) : 0 < impedance m := Real.sqrt_pos.2 (by positivity)

theorem index_sq (m : Material) (he : 0 < m.permittivity) (hmu : 0 < m.permeability) : m.refractiveIndex ^ 2 = m.permittivity * m.permeability :=
  Real.sq_sqrt (by positivity)

/-- The mean of the product of two oscillations. -/
theorem mean_product (sign : ℝ) (hs : sign = 1 ∨ sign = -1) (a b : ℂ) :
    ∫ angle in (0)..(2 * π), (a * Complex.exp (sign * angle * Complex.I)).re * (b * Complex.exp (sign * angle * Complex.I)).re = π * (a * conj b).re := by
  have e : ∀ (z : ℂ) (t : ℝ), (z * Complex.exp (sign * t * Complex.I)).re = z.re * Real.cos t - sign * (z.im * Real.sin t) := by
    intro z t
    have h1 : (sign : ℂ) * t * Complex.I = ((sign * t : ℝ) : ℂ) * Complex.I := by push_cast; ring
    rw [h1, Complex.mul_re, Complex.exp_ofReal_mul_I_re, Complex.exp_ofReal_mul_I_im]
    rcases hs with rfl | rfl
    · simp
    · simp
  have hsq : sign * sign = 1 := by rcases hs with rfl | rfl <;> norm_num
  have h2 : ∀ t : ℝ, (a * Complex.exp (sign * t * Complex.I)).re * (b * Complex.exp (sign * t * Complex.I)).re =
      (a.re * b.re) * Real.cos t ^ 2 + (a.im * b.im) * Real.sin t ^ 2 - (sign * (a.re * b.im + a.im * b.re)) * (Real.sin t * Real.cos t) := by
    intro t
    rw [e, e]
    linear_combination (a.im * b.im * Real.sin t ^ 2) * hsq
  simp only [h2]
  have c1 : Continuous fun t : ℝ => (a.re * b.re) * Real.cos t ^ 2 := by fun_prop
  have c2 : Continuous fun t : ℝ => (a.im * b.im) * Real.sin t ^ 2 := by fun_prop
  have c12 : Continuous fun t : ℝ => (a.re * b.re) * Real.cos t ^ 2 + (a.im * b.im) * Real.sin t ^ 2 := by fun_prop
  have c3 : Continuous fun t : ℝ => (sign * (a.re * b.im + a.im * b.re)) * (Real.sin t * Real.cos t) := by fun_prop
  rw [intervalIntegral.integral_sub (c12.intervalIntegrable _ _) (c3.intervalIntegrable _ _),
    intervalIntegral.integral_add (c1.intervalIntegrable _ _) (c2.intervalIntegrable _ _)]
  simp only [intervalIntegral.integral_const_mul, integral_cos_sq, integral_sin_sq, integral_sin_mul_cos₁]
  simp
  ring

end Verif.Fields
