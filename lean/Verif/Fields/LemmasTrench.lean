import Verif.Fields.ModelTrench
import Verif.Fields.LemmasInterface
import Verif.Pml.Props

/-! # The wave in a trench: four waves in stretched coordinates -/
namespace Verif.Fields

open MaxLocal (cast cross BC Tensor)
open Pml (Material partialDeriv stretchedCoordinate stretchedCurlPlane maxwellPlane)
open scoped Real ComplexConjugate
set_option linter.all false

section
variable (kx ky omega ys a : ℝ)

noncomputable def W (sg tau : ℂ) (p : Fin 2 → ℝ) : ℂ := Complex.exp (Complex.I * sg * kx * p 0) * Complex.exp (Complex.I * tau * ky * stretchedCoordinate omega ys 1 a (p 1))

noncomputable def comb (c : Fin 4 → ℂ) (p : Fin 2 → ℝ) : ℂ :=
  c 0 * W kx ky omega ys a 1 1 p + c 1 * W kx ky omega ys a (-1) 1 p + c 2 * W kx ky omega ys a 1 (-1) p + c 3 * W kx ky omega ys a (-1) (-1) p

theorem W_deriv0 (sg tau : ℂ) (p : Fin 2 → ℝ) :
    HasDerivAt (fun t : ℝ => W kx ky omega ys a sg tau (Function.update p 0 t)) (Complex.I * sg * kx * W kx ky omega ys a sg tau p) (p 0) := by
  have h1 : HasDerivAt (fun t : ℝ => Complex.I * sg * kx * (t : ℂ)) (Complex.I * sg * kx) (p 0) := by
    have := (hasDerivAt_id (p 0)).ofReal_comp.const_mul (Complex.I * sg * kx)
    simpa using this
  have h2 := (h1.cexp).mul_const (Complex.exp (Complex.I * tau * ky * stretchedCoordinate omega ys 1 a (p 1)))
  have e : (fun t : ℝ => W kx ky omega ys a sg tau (Function.update p 0 t)) =
      fun t : ℝ => Complex.exp (Complex.I * sg * kx * (t : ℂ)) * Complex.exp (Complex.I * tau * ky * stretchedCoordinate omega ys 1 a (p 1)) := by
    funext t
    simp only [W, Function.update_self, Function.update_of_ne (show (1 : Fin 2) ≠ 0 by decide)]
  rw [e]
  refine h2.congr_deriv ?_
  unfold W; ring

theorem W_deriv1 (sg tau : ℂ) (p : Fin 2 → ℝ) :
    HasDerivAt (fun t : ℝ => W kx ky omega ys a sg tau (Function.update p 1 t)) (Complex.I * tau * ky * stretchY omega ys a p 1 * W kx ky omega ys a sg tau p) (p 1) := by
  have h1 := (Pml.stretched_deriv omega ys 1 a (p 1) (.inl rfl)).const_mul (Complex.I * tau * ky)
  have h2 := (h1.cexp).const_mul (Complex.exp (Complex.I * sg * kx * p 0))
  have e : (fun t : ℝ => W kx ky omega ys a sg tau (Function.update p 1 t)) =
      fun t : ℝ => Complex.exp (Complex.I * sg * kx * p 0) * Complex.exp (Complex.I * tau * ky * stretchedCoordinate omega ys 1 a t) := by
    funext t
    simp only [W, Function.update_self, Function.update_of_ne (show (0 : Fin 2) ≠ 1 by decide)]
  rw [e]
  refine h2.congr_deriv ?_
  have hs : stretchY omega ys a p 1 =
      if (p 1 - ys) * 1 > 0 then 1 + Complex.I / omega * a * ((p 1 - ys) * 1 : ℝ) * ((p 1 - ys) * 1 : ℝ) else 1 := by
    simp only [stretchY, mul_one]
    by_cases h : p 1 - ys > 0
    · rw [if_pos h]; simp [h]
    · rw [if_neg h]; simp [h]
  rw [hs]
  unfold W; ring

theorem stretchY_ne (homega : omega ≠ 0) (p : Fin 2 → ℝ) : stretchY omega ys a p 1 ≠ 0 := by
  have : (stretchY omega ys a p 1).re = 1 := by
    simp only [stretchY]
    simp only [Matrix.cons_val_one, Matrix.cons_val_zero, Matrix.cons_val_fin_one]
    split
    · have : (1 : ℂ) + Complex.I / omega * a * ((p 1 - ys : ℝ) : ℂ) * ((p 1 - ys : ℝ) : ℂ) = 1 + ((a * (p 1 - ys) ^ 2 / omega : ℝ) : ℂ) * Complex.I := by
        push_cast; ring
      rw [this, Complex.add_re, Complex.mul_I_re, Complex.ofReal_im]; simp
    · simp
  intro h
  rw [h] at this
  simp at this

theorem comb_partial0 (c : Fin 4 → ℂ) (p : Fin 2 → ℝ) :
    partialDeriv 0 (comb kx ky omega ys a c) p = comb kx ky omega ys a ![Complex.I * kx * c 0, -(Complex.I * kx * c 1), Complex.I * kx * c 2, -(Complex.I * kx * c 3)] p := by
  have := (((((W_deriv0 kx ky omega ys a 1 1 p).const_mul (c 0)).add ((W_deriv0 kx ky omega ys a (-1) 1 p).const_mul (c 1))).add
    ((W_deriv0 kx ky omega ys a 1 (-1) p).const_mul (c 2))).add ((W_deriv0 kx ky omega ys a (-1) (-1) p).const_mul (c 3))).deriv
  refine Eq.trans this ?_
  simp [comb]
  ring

theorem comb_partial1 (homega : omega ≠ 0) (c : Fin 4 → ℂ) (p : Fin 2 → ℝ) :
    partialDeriv 1 (comb kx ky omega ys a c) p / stretchY omega ys a p 1 =
      comb kx ky omega ys a ![Complex.I * ky * c 0, Complex.I * ky * c 1, -(Complex.I * ky * c 2), -(Complex.I * ky * c 3)] p := by
  have hne := stretchY_ne omega ys a homega p
  have := (((((W_deriv1 kx ky omega ys a 1 1 p).const_mul (c 0)).add ((W_deriv1 kx ky omega ys a (-1) 1 p).const_mul (c 1))).add
    ((W_deriv1 kx ky omega ys a 1 (-1) p).const_mul (c 2))).add ((W_deriv1 kx ky omega ys a (-1) (-1) p).const_mul (c 3))).deriv
  have h2 : partialDeriv 1 (comb kx ky omega ys a c) p = _ := this
  rw [h2]
  simp [comb]
  field_simp

/-- The attenuation of the layer. -/
theorem atten (homega : omega ≠ 0) (y : ℝ) :
    ((if y - ys > 0 then Real.exp (-a * ky / (3 * omega) * (y - ys) * (y - ys) * (y - ys)) else 1 : ℝ) : ℂ) =
      Complex.exp (Complex.I * ky * (stretchedCoordinate omega ys 1 a y - y)) := by
  have ho : (omega : ℂ) ≠ 0 := by exact_mod_cast homega
  have hI : ∀ z : ℂ, Complex.I * (Complex.I * z) = -z := fun z => by rw [← mul_assoc, Complex.I_mul_I]; ring
  by_cases h : y - ys > 0
  · rw [if_pos h, Complex.ofReal_exp]
    congr 1
    simp only [stretchedCoordinate, mul_one]
    rw [max_eq_right h.le]
    push_cast
    field_simp
    linear_combination (-(a * ky * ((y : ℂ) - ys) ^ 3)) * Complex.I_sq
  · rw [if_neg h]
    simp only [stretchedCoordinate, mul_one]
    rw [max_eq_left (not_lt.1 h)]
    simp

end

/-- The reflection coefficient without a layer: that of the far end, for the coefficient `r` of an absorbing boundary. -/
noncomputable def farCoefficient (r : ℝ) : BC → ℝ
  | .dirichlet => 1
  | .silverMuller => r
  | .neumann => -1
  | .internal => 0

/-- What the constructor sets. -/
theorem make_eq {omega width length : ℝ} {n : Nat} {m : Material} {t : Trench} (h : Trench.make omega width n length m = some t) (hw : 0 < width) :
    ∃ kx ky : ℝ, 0 < kx ∧ 0 < ky ∧ kx * width = n * π ∧ kx ^ 2 + ky ^ 2 = omega ^ 2 * (m.permittivity * m.permeability) ∧
      t = ⟨omega, width, n, length, m, .silverMuller, 0, 0, ⟨![kx, ky], ![1, ((-kx / ky : ℝ) : ℂ)], 0⟩, ⟨![-kx, ky], ![1, ((kx / ky : ℝ) : ℂ)], 0⟩,
        ⟨![kx, -ky], ![1, ((kx / ky : ℝ) : ℂ)], 0⟩, ⟨![-kx, -ky], ![1, ((-kx / ky : ℝ) : ℂ)], 0⟩⟩ := by
  unfold Trench.make at h
  by_cases hn : ¬ n > 0
  · rw [if_pos hn] at h; cases h
  rw [if_neg hn] at h
  have hn' : 0 < n := not_not.1 hn
  simp only at h
  by_cases hk : ¬ omega * omega * m.permittivity * m.permeability - ↑n * π / width * (↑n * π / width) > 0
  · rw [if_pos hk] at h; cases h
  rw [if_neg hk] at h
  have hk' := not_not.1 hk
  refine ⟨n * π / width, Real.sqrt (omega * omega * m.permittivity * m.permeability - ↑n * π / width * (↑n * π / width)), by positivity, Real.sqrt_pos.2 hk', ?_, ?_,
    (Option.some.inj h).symm⟩
  · field_simp
  · rw [Real.sq_sqrt hk'.le]; ring

section
variable {kx ky omega ys a : ℝ}

theorem phase_atten (homega : omega ≠ 0) (sg : ℝ) (E0 : Fin 2 → ℂ) (p : Fin 2 → ℝ) :
    (PlaneWave.mk ![sg * kx, ky] E0 0).phaseFactor p * Complex.exp (Complex.I * ky * (stretchedCoordinate omega ys 1 a (p 1) - p 1)) = W kx ky omega ys a sg 1 p := by
  unfold PlaneWave.phaseFactor W
  rw [← Complex.exp_add, ← Complex.exp_add]
  congr 1
  simp only [dotR, Fin.sum_univ_two]
  simp
  ring

theorem phase_atten_back (homega : omega ≠ 0) (sg : ℝ) (E0 : Fin 2 → ℂ) (p : Fin 2 → ℝ) :
    (PlaneWave.mk ![sg * kx, -ky] E0 0).phaseFactor p / Complex.exp (Complex.I * ky * (stretchedCoordinate omega ys 1 a (p 1) - p 1)) = W kx ky omega ys a sg (-1) p := by
  unfold PlaneWave.phaseFactor W
  rw [← Complex.exp_sub, ← Complex.exp_add]
  congr 1
  simp only [dotR, Fin.sum_univ_two]
  simp
  ring

end

theorem combine_eq (t : Trench) (hbc : t.farEnd ≠ .internal) (homega : t.omega ≠ 0) (f b : Fin 2 → ℂ) (y : ℝ) :
    t.combineWaves f b y = some fun i =>
      (f i * Complex.exp (Complex.I * t.in1.k 1 * (stretchedCoordinate t.omega t.pmlYstart 1 t.pmlScaling y - y)) -
        ((farCoefficient (1 - 2 * dotR t.in1.k t.in1.k / (dotR t.in1.k t.in1.k + t.in1.k 1 * Real.sqrt (dotR t.in1.k t.in1.k))) t.farEnd *
          Real.exp (-t.pmlScaling * t.in1.k 1 / (3 * t.omega) * (t.length - t.pmlYstart) * (t.length - t.pmlYstart) * (t.length - t.pmlYstart) * 2) : ℝ) : ℂ) *
          Complex.exp (2 * Complex.I * ((t.length * t.in1.k 1 : ℝ) : ℂ)) *
          (b i / Complex.exp (Complex.I * t.in1.k 1 * (stretchedCoordinate t.omega t.pmlYstart 1 t.pmlScaling y - y)))) /
      (1 - ((farCoefficient (1 - 2 * dotR t.in1.k t.in1.k / (dotR t.in1.k t.in1.k + t.in1.k 1 * Real.sqrt (dotR t.in1.k t.in1.k))) t.farEnd *
          Real.exp (-t.pmlScaling * t.in1.k 1 / (3 * t.omega) * (t.length - t.pmlYstart) * (t.length - t.pmlYstart) * (t.length - t.pmlYstart) * 2) : ℝ) : ℂ) *
        ((1 - 2 * dotR t.in1.k t.in1.k / (dotR t.in1.k t.in1.k + t.in1.k 1 * Real.sqrt (dotR t.in1.k t.in1.k)) : ℝ) : ℂ) *
        Complex.exp (2 * Complex.I * ((t.length * t.in1.k 1 : ℝ) : ℂ))) := by
  rw [← atten (t.in1.k 1) t.omega t.pmlYstart t.pmlScaling homega y]
  unfold Trench.combineWaves
  by_cases h : y - t.pmlYstart > 0
  · simp only [if_pos h]
    cases hb : t.farEnd <;> simp [farCoefficient]
    exact absurd hb hbc
  · simp only [if_neg h]
    cases hb : t.farEnd <;> simp [farCoefficient]
    exact absurd hb hbc

/-- The relation between the coefficient of an absorbing boundary, the wave vector and the impedance. -/
theorem coefficient_eq (m : Material) (he : 0 < m.permittivity) (hmu : 0 < m.permeability) {omega kx ky : ℝ} (homega : 0 < omega) (hkx : 0 < kx) (hky : 0 < ky)
    (hk : kx ^ 2 + ky ^ 2 = omega ^ 2 * (m.permittivity * m.permeability)) (r : ℝ) (hr : r = 1 - 2 * (kx ^ 2 + ky ^ 2) / ((kx ^ 2 + ky ^ 2) + ky * Real.sqrt (kx ^ 2 + ky ^ 2))) :
    r * ((kx ^ 2 + ky ^ 2) / ky / m.permeability + omega * impedance m) = omega * impedance m - (kx ^ 2 + ky ^ 2) / ky / m.permeability ∧ |r| < 1 := by
  have hn := index_sq m he hmu
  have hnp := index_pos m he hmu
  have hz := impedance_pos m he hmu
  have hs : Real.sqrt (kx ^ 2 + ky ^ 2) = omega * m.refractiveIndex := by
    rw [hk, ← hn, ← mul_pow]; exact Real.sqrt_sq (by positivity)
  have hs2 : kx ^ 2 + ky ^ 2 = (omega * m.refractiveIndex) ^ 2 := by rw [hk, mul_pow, hn]
  rw [hs, hs2] at hr
  rw [hs2]
  set K := omega * m.refractiveIndex with hK
  have hKp : 0 < K := by positivity
  have hzK : omega * impedance m = K / m.permeability := by
    rw [hK, index_impedance m he hmu]; field_simp
  have hr' : r = (ky - K) / (ky + K) := by
    rw [hr]; field_simp; ring
  rw [hzK, hr']
  refine ⟨by field_simp; ring, ?_⟩
  rw [abs_div, abs_of_pos (show 0 < ky + K by positivity), div_lt_one (by positivity), abs_lt]
  constructor <;> linarith

end Verif.Fields
