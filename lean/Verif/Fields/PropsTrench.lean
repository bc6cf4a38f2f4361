import Verif.Fields.LemmasTrench
import Mathlib.Analysis.Real.Pi.Bounds

/-! # The wave in a trench: the properties -/
namespace Verif.Fields

set_option linter.unusedSimpArgs false

open MaxLocal (cast cross BC Tensor)
open Pml (Material partialDeriv stretchedCoordinate stretchedCurlPlane maxwellPlane)
open scoped Real ComplexConjugate

/-- **C105.** The constructor accepts a mode exactly if it has a half wave and can travel in the trench. -/
theorem make_isSome (omega width length : ℝ) (n : Nat) (m : Material) :
    (Trench.make omega width n length m).isSome ↔ 0 < n ∧ (n * π / width) ^ 2 < omega ^ 2 * (m.permittivity * m.permeability) := by
  unfold Trench.make
  by_cases hn : ¬ n > 0
  · rw [if_pos hn]; simp only [Option.isSome_none, Bool.false_eq_true, false_iff]; intro h; exact hn h.1
  · rw [if_neg hn]
    simp only
    by_cases hk : ¬ omega * omega * m.permittivity * m.permeability - ↑n * π / width * (↑n * π / width) > 0
    · rw [if_pos hk]; simp only [Option.isSome_none, Bool.false_eq_true, false_iff]; intro h; exact hk (by nlinarith [h.2])
    · rw [if_neg hk]
      simp only [Option.isSome_some, true_iff]
      exact ⟨not_not.1 hn, by nlinarith [not_not.1 hk]⟩

/-- **C105.** The wave in a trench, with any of the three conditions at the far end and with or without a layer before it. The field has the curl that is returned and solves the
equations, in stretched coordinates in the layer. It meets the conditions at the walls, at the entry with the wave that comes in, and at the far end. The value for the far side is
the root of the integral of the square of the field there. -/
theorem trench_solves (omega width length : ℝ) (n : Nat) (m : Material) (t0 : Trench) (hmake : Trench.make omega width n length m = some t0)
    (bc : BC) (hbc : bc ≠ .internal) (ys a : ℝ) (homega : 0 < omega) (hw : 0 < width) (he : 0 < m.permittivity) (hmu : 0 < m.permeability)
    (ha : 0 ≤ a) (hys : 0 ≤ ys) (hyl : ys ≤ length) :
    let t : Trench := { t0 with farEnd := bc, pmlYstart := ys, pmlScaling := a }
    ∃ E C : (Fin 2 → ℝ) → Fin 2 → ℂ, (∀ p, t.exact p = some (E p)) ∧ (∀ p, t.exactCurl p = some (C p)) ∧
      (∀ p, C p 0 = stretchedCurlPlane (stretchY omega ys a) E p ∧ C p 1 = 0) ∧
      (∀ p i, maxwellPlane m.eps m.mu (stretchY omega ys a) omega E p i = 0) ∧
      (t.boundaryType ![-1, 0] = .dirichlet ∧ t.boundaryType ![1, 0] = .dirichlet ∧ ∀ y i, cross (cast ![-1, 0]) (E ![0, y]) i = t.boundary ![-1, 0] ![0, y] i ∧
        cross (cast ![1, 0]) (E ![width, y]) i = t.boundary ![1, 0] ![width, y] i) ∧
      (t.boundaryType ![0, -1] = .silverMuller ∧ ∀ x i, C ![x, 0] i / m.permeability + Complex.I * (omega * impedance m : ℝ) * cross (E ![x, 0]) (cast ![0, -1]) i =
        t.boundary ![0, -1] ![x, 0] i) ∧
      (t.boundaryType ![0, 1] = bc ∧ (∀ p i, t.boundary ![0, 1] p i = 0) ∧
        ∀ x i, match bc with
          | .dirichlet => cross (cast ![0, 1]) (E ![x, length]) i = 0
          | .neumann => C ![x, length] i / m.permeability = 0
          | .silverMuller => C ![x, length] i / m.permeability + Complex.I * (omega * impedance m : ℝ) * cross (E ![x, length]) (cast ![0, 1]) i = 0
          | .internal => True) ∧
      t.farSide = some (Real.sqrt (∫ x in (0)..width, (‖E ![x, length] 0‖ ^ 2 + ‖E ![x, length] 1‖ ^ 2))) := by
  obtain ⟨kx, ky, hkx, hky, hkw, hkk, ht0⟩ := make_eq hmake hw
  intro t
  have ho : omega ≠ 0 := homega.ne'
  set r : ℝ := 1 - 2 * (kx ^ 2 + ky ^ 2) / ((kx ^ 2 + ky ^ 2) + ky * Real.sqrt (kx ^ 2 + ky ^ 2)) with hr
  obtain ⟨hrel, hr1⟩ := coefficient_eq m he hmu homega hkx hky hkk r hr
  set F : ℝ := Real.exp (-a * ky / (3 * omega) * (length - ys) * (length - ys) * (length - ys) * 2) with hF
  set A : ℂ := ((farCoefficient r bc * F : ℝ) : ℂ) * Complex.exp (2 * Complex.I * ((length * ky : ℝ) : ℂ)) with hA
  set D : ℂ := 1 - A * (r : ℂ) with hD
  set att : ℝ → ℂ := fun y => Complex.exp (Complex.I * ky * (stretchedCoordinate omega ys 1 a y - y)) with hatt
  have hkyc : (ky : ℂ) ≠ 0 := by exact_mod_cast hky.ne'
  have hmuc : (m.permeability : ℂ) ≠ 0 := by exact_mod_cast hmu.ne'
  have hDne : D ≠ 0 := by
    intro h
    have h1 : A * (r : ℂ) = 1 := (sub_eq_zero.1 h).symm
    have h2 := congrArg (‖·‖) h1
    have hF1 : F ≤ 1 := by
      rw [hF]; refine Real.exp_le_one_iff.2 ?_
      have : 0 ≤ length - ys := by linarith
      have e : -a * ky / (3 * omega) * (length - ys) * (length - ys) * (length - ys) * 2 = -(a * ky / (3 * omega) * (length - ys) ^ 3 * 2) := by ring
      rw [e, neg_nonpos]; positivity
    have hfc : |farCoefficient r bc| ≤ 1 := by
      cases bc <;> simp [farCoefficient]
      exact hr1.le
    have hF0 : 0 < F := Real.exp_pos _
    have hnA : ‖A‖ ≤ 1 := by
      rw [hA, norm_mul]
      have : ‖Complex.exp (2 * Complex.I * ((length * ky : ℝ) : ℂ))‖ = 1 := by
        rw [show 2 * Complex.I * ((length * ky : ℝ) : ℂ) = ((2 * (length * ky) : ℝ) : ℂ) * Complex.I by push_cast; ring]
        exact Complex.norm_exp_ofReal_mul_I _
      rw [this, mul_one, Complex.norm_real, Real.norm_eq_abs, abs_mul, abs_of_pos hF0]
      calc |farCoefficient r bc| * F ≤ 1 * 1 := mul_le_mul hfc hF1 hF0.le zero_le_one
        _ = 1 := one_mul _
    simp only [norm_mul, norm_one, Complex.norm_real, Real.norm_eq_abs] at h2
    have : ‖A‖ * |r| ≤ 1 * |r| := mul_le_mul_of_nonneg_right hnA (abs_nonneg _)
    linarith
  have hcomb : ∀ f b y, t.combineWaves f b y = some fun i => (f i * att y - A * (b i / att y)) / D := by
    intro f b y
    have := combine_eq t hbc (by simp only [t, ht0]; exact ho) f b y
    rw [this]
    have hd : dotR ![kx, ky] ![kx, ky] = kx ^ 2 + ky ^ 2 := by simp [dotR, Fin.sum_univ_two]; ring
    simp only [t, ht0, hd, Matrix.cons_val_one, Matrix.cons_val_zero, Matrix.cons_val_fin_one]
    rw [← hr, ← hF, ← hA, hD]
    simp only [hatt]
    congr 1
    funext i
    congr 1
    ring
  set kap : ℂ := ((kx / ky : ℝ) : ℂ) with hkap
  have hkap' : ((-kx / ky : ℝ) : ℂ) = -kap := by rw [hkap]; push_cast; ring
  have hkk' : kap * ky = kx := by rw [hkap]; push_cast; field_simp
  have hattne : ∀ y, att y ≠ 0 := fun y => Complex.exp_ne_zero _
  have w1 : ∀ (E0 : Fin 2 → ℂ) p, (PlaneWave.mk ![kx, ky] E0 0).phaseFactor p * att (p 1) = W kx ky omega ys a 1 1 p := by
    intro E0 p; have := phase_atten (kx := kx) (ky := ky) (ys := ys) (a := a) ho 1 E0 p; simpa using this
  have w2 : ∀ (E0 : Fin 2 → ℂ) p, (PlaneWave.mk ![-kx, ky] E0 0).phaseFactor p * att (p 1) = W kx ky omega ys a (-1) 1 p := by
    intro E0 p; have := phase_atten (kx := kx) (ky := ky) (ys := ys) (a := a) ho (-1) E0 p; simpa using this
  have w3 : ∀ (E0 : Fin 2 → ℂ) p, (PlaneWave.mk ![kx, -ky] E0 0).phaseFactor p / att (p 1) = W kx ky omega ys a 1 (-1) p := by
    intro E0 p; have := phase_atten_back (kx := kx) (ky := ky) (ys := ys) (a := a) ho 1 E0 p; simpa using this
  have w4 : ∀ (E0 : Fin 2 → ℂ) p, (PlaneWave.mk ![-kx, -ky] E0 0).phaseFactor p / att (p 1) = W kx ky omega ys a (-1) (-1) p := by
    intro E0 p; have := phase_atten_back (kx := kx) (ky := ky) (ys := ys) (a := a) ho (-1) E0 p; simpa using this
  let e0 : Fin 4 → ℂ := ![1 / D, 1 / D, -A / D, -A / D]
  let e1 : Fin 4 → ℂ := ![-kap / D, kap / D, -(A * kap) / D, A * kap / D]
  let q : ℂ := kx * kap + ky
  let ch : Fin 4 → ℂ := ![-(Complex.I * q) / D, -(Complex.I * q) / D, -(Complex.I * q * A) / D, -(Complex.I * q * A) / D]
  have hq : q * ky = (kx ^ 2 + ky ^ 2 : ℝ) := by
    simp only [q]; push_cast; linear_combination (kx : ℂ) * hkk'
  let E : (Fin 2 → ℝ) → Fin 2 → ℂ := fun p => ![comb kx ky omega ys a e0 p, comb kx ky omega ys a e1 p]
  let C : (Fin 2 → ℝ) → Fin 2 → ℂ := fun p => ![comb kx ky omega ys a ch p, 0]
  have hE : ∀ p, t.exact p = some (E p) := by
    intro p
    unfold Trench.exact
    rw [hcomb]
    congr 1
    funext i
    simp only [t, ht0, PlaneWave.field, hkap']
    fin_cases i
    · simp only [E, e0, comb, Fin.zero_eta, Matrix.cons_val_zero, Matrix.cons_val_one, Matrix.cons_val]
      rw [← w1 ![1, -kap] p, ← w2 ![1, kap] p, ← w3 ![1, kap] p, ← w4 ![1, -kap] p]
      field_simp
      ring
    · simp only [E, e1, comb, Fin.mk_one, Matrix.cons_val_zero, Matrix.cons_val_one, Matrix.cons_val]
      rw [← w1 ![1, -kap] p, ← w2 ![1, kap] p, ← w3 ![1, kap] p, ← w4 ![1, -kap] p]
      field_simp
      ring
  have hC : ∀ p, t.exactCurl p = some (C p) := by
    intro p
    unfold Trench.exactCurl
    rw [hcomb]
    congr 1
    funext i
    simp only [t, ht0, PlaneWave.fieldCurl, hkap', cross, MaxLocal.cast]
    fin_cases i
    · simp only [C, ch, comb, Fin.zero_eta, Matrix.cons_val_zero, Matrix.cons_val_one, Matrix.cons_val, Matrix.cons_val_fin_one]
      rw [← w1 ![1, -kap] p, ← w2 ![1, kap] p, ← w3 ![1, kap] p, ← w4 ![1, -kap] p]
      push_cast
      simp only [q]
      field_simp
      ring
    · simp [C]
  have hcurl : ∀ p, stretchedCurlPlane (stretchY omega ys a) E p = comb kx ky omega ys a ch p := by
    intro p
    have h0 : partialDeriv 0 (fun y => E y 1) p = _ := comb_partial0 kx ky omega ys a e1 p
    have h1 : partialDeriv 1 (fun y => E y 0) p / stretchY omega ys a p 1 = _ := comb_partial1 kx ky omega ys a ho e0 p
    unfold stretchedCurlPlane
    rw [h0, h1, show stretchY omega ys a p 0 = 1 from rfl, div_one]
    simp only [comb, e0, e1, ch, q, Matrix.cons_val_zero, Matrix.cons_val_one, Matrix.cons_val]
    ring
  have hmax : ∀ p i, maxwellPlane m.eps m.mu (stretchY omega ys a) omega E p i = 0 := by
    intro p i
    have hin : (fun y => (m.mu y).applyCurl ![stretchedCurlPlane (stretchY omega ys a) E y, 0] 0) = comb kx ky omega ys a (fun j => ch j / m.permeability) := by
      funext y
      rw [hcurl]
      simp only [Material.mu, Tensor.applyCurl, Matrix.cons_val_zero, comb]
      ring
    unfold maxwellPlane Pml.stretchedCurlNormal
    rw [hin]
    have h0 := comb_partial0 kx ky omega ys a (fun j => ch j / m.permeability) p
    have h1 := comb_partial1 kx ky omega ys a ho (fun j => ch j / m.permeability) p
    rw [h0, h1, show stretchY omega ys a p 0 = 1 from rfl, div_one]
    have hqm : q * ky = (omega : ℂ) ^ 2 * (m.permittivity * m.permeability) := by rw [hq, hkk]; push_cast; ring
    have hqx : q * kx = (omega : ℂ) ^ 2 * (m.permittivity * m.permeability) * kap := by rw [← hkk', ← hqm]; ring
    fin_cases i
    · have hm2 : (omega : ℂ) ^ 2 * m.permittivity = q * ky / m.permeability := by rw [hqm]; field_simp
      have hc : comb kx ky omega ys a ![Complex.I * ky * (ch 0 / m.permeability), Complex.I * ky * (ch 1 / m.permeability), -(Complex.I * ky * (ch 2 / m.permeability)),
          -(Complex.I * ky * (ch 3 / m.permeability))] p = -Complex.I ^ 2 * (q * ky / m.permeability) * comb kx ky omega ys a e0 p := by
        simp only [comb, ch, e0, Matrix.cons_val_zero, Matrix.cons_val_one, Matrix.cons_val]; ring
      simp only [Fin.zero_eta, Pi.sub_apply, Pi.smul_apply, smul_eq_mul, Matrix.cons_val_zero, Material.eps, Tensor.applyDiv, E]
      rw [hc, ← hm2, Complex.I_sq]; ring
    · have hm2 : (omega : ℂ) ^ 2 * m.permittivity * kap = q * kx / m.permeability := by rw [hqx]; field_simp
      have hc : comb kx ky omega ys a ![Complex.I * kx * (ch 0 / m.permeability), -(Complex.I * kx * (ch 1 / m.permeability)), Complex.I * kx * (ch 2 / m.permeability),
          -(Complex.I * kx * (ch 3 / m.permeability))] p = Complex.I ^ 2 * (q * kx / m.permeability) * comb kx ky omega ys a ![-1 / D, 1 / D, -A / D, A / D] p := by
        simp only [comb, ch, Matrix.cons_val_zero, Matrix.cons_val_one, Matrix.cons_val]; ring
      have hc1 : comb kx ky omega ys a e1 p = kap * comb kx ky omega ys a ![-1 / D, 1 / D, -A / D, A / D] p := by
        simp only [comb, e1, Matrix.cons_val_zero, Matrix.cons_val_one, Matrix.cons_val]; ring
      simp only [Fin.mk_one, Pi.sub_apply, Pi.smul_apply, smul_eq_mul, Matrix.cons_val_zero, Matrix.cons_val_one, Matrix.cons_val_fin_one, Material.eps, Tensor.applyDiv, E]
      rw [hc, hc1, ← hm2, Complex.I_sq]; ring
  have hwall0 : ∀ sg tau y, W kx ky omega ys a sg tau ![0, y] = Complex.exp (Complex.I * tau * ky * stretchedCoordinate omega ys 1 a y) := by
    intro sg tau y; simp [W]
  have hwall1 : ∀ tau y, W kx ky omega ys a 1 tau ![width, y] = W kx ky omega ys a (-1) tau ![width, y] := by
    intro tau y
    simp only [W, Matrix.cons_val_zero, Matrix.cons_val_one, Matrix.cons_val_fin_one]
    congr 1
    rw [Complex.exp_eq_exp_iff_exists_int]
    refine ⟨n, ?_⟩
    have : (kx : ℂ) * width = n * π := by exact_mod_cast hkw
    push_cast
    linear_combination 2 * Complex.I * this
  have hs0 : stretchedCoordinate omega ys 1 a 0 = 0 := by
    unfold stretchedCoordinate
    rw [max_eq_left (by simp; exact hys)]; simp
  have hbt1 : t.boundaryType ![0, 1] = bc := by
    simp only [Trench.boundaryType, t]
    norm_num
  have hbt0 : t.boundaryType ![0, -1] = .silverMuller := by
    simp only [Trench.boundaryType, t]
    norm_num
  have hbw0 : t.boundaryType ![-1, 0] = .dirichlet := by
    simp only [Trench.boundaryType, t]
    norm_num
  have hbw1 : t.boundaryType ![1, 0] = .dirichlet := by
    simp only [Trench.boundaryType, t]
    norm_num
  have hsum : ∀ x : ℝ, Complex.exp (Complex.I * kx * x) + Complex.exp (-(Complex.I * kx * x)) = ((2 * Real.cos (kx * x) : ℝ) : ℂ) := by
    intro x
    push_cast
    rw [Complex.cos, show Complex.I * kx * x = kx * x * Complex.I by ring, show -(kx * x * Complex.I) = -(kx * x : ℂ) * Complex.I by ring]
    ring
  have hdif : ∀ x : ℝ, Complex.exp (Complex.I * kx * x) - Complex.exp (-(Complex.I * kx * x)) = ((2 * Real.sin (kx * x) : ℝ) : ℂ) * Complex.I := by
    intro x
    push_cast
    rw [Complex.sin, show Complex.I * kx * x = kx * x * Complex.I by ring, show -(kx * x * Complex.I) = -(kx * x : ℂ) * Complex.I by ring]
    linear_combination (Complex.exp (kx * x * Complex.I) - Complex.exp (-(kx * x : ℂ) * Complex.I)) * Complex.I_sq
  set e : ℂ := Complex.exp (Complex.I * ky * stretchedCoordinate omega ys 1 a length) with hedef
  have hene : e ≠ 0 := Complex.exp_ne_zero _
  have hAe : A = (farCoefficient r bc : ℂ) * e ^ 2 := by
    have h := atten ky omega ys a ho length
    have hFF : (F : ℂ) = (((if length - ys > 0 then Real.exp (-a * ky / (3 * omega) * (length - ys) * (length - ys) * (length - ys)) else 1 : ℝ) : ℂ)) ^ 2 := by
      rw [← Complex.ofReal_pow]
      congr 1
      by_cases hl : length - ys > 0
      · rw [if_pos hl, hF, ← Real.exp_nat_mul]; congr 1; push_cast; ring
      · rw [if_neg hl, hF, show length - ys = 0 by linarith]; simp
    rw [hA, Complex.ofReal_mul, hFF, h, mul_assoc, hedef, ← Complex.exp_nat_mul, ← Complex.exp_nat_mul, ← Complex.exp_add]
    congr 2
    push_cast; ring
  have hWL : ∀ x, W kx ky omega ys a 1 1 ![x, length] = Complex.exp (Complex.I * kx * x) * e ∧
      W kx ky omega ys a (-1) 1 ![x, length] = Complex.exp (-(Complex.I * kx * x)) * e ∧
      W kx ky omega ys a 1 (-1) ![x, length] = Complex.exp (Complex.I * kx * x) / e ∧
      W kx ky omega ys a (-1) (-1) ![x, length] = Complex.exp (-(Complex.I * kx * x)) / e := by
    intro x
    simp only [W, Matrix.cons_val_zero, Matrix.cons_val_one, Matrix.cons_val_fin_one, div_eq_mul_inv, hedef, ← Complex.exp_neg]
    refine ⟨?_, ?_, ?_, ?_⟩ <;> · congr 2 <;> ring
  have hEL0 : ∀ x, E ![x, length] 0 = (e - A / e) / D * ((2 * Real.cos (kx * x) : ℝ) : ℂ) := by
    intro x
    obtain ⟨h1, h2, h3, h4⟩ := hWL x
    rw [← hsum]
    simp only [E, e0, comb, h1, h2, h3, h4, Matrix.cons_val_zero, Matrix.cons_val_one, Matrix.cons_val]
    ring
  have hEL1 : ∀ x, E ![x, length] 1 = -(kap * (e + A / e) / D) * (((2 * Real.sin (kx * x) : ℝ) : ℂ) * Complex.I) := by
    intro x
    obtain ⟨h1, h2, h3, h4⟩ := hWL x
    rw [← hdif]
    simp only [E, e1, comb, h1, h2, h3, h4, Matrix.cons_val_zero, Matrix.cons_val_one, Matrix.cons_val]
    ring
  have hCL0 : ∀ x, C ![x, length] 0 = -(Complex.I * q * (e + A / e) / D) * ((2 * Real.cos (kx * x) : ℝ) : ℂ) := by
    intro x
    obtain ⟨h1, h2, h3, h4⟩ := hWL x
    rw [← hsum]
    simp only [C, ch, comb, h1, h2, h3, h4, Matrix.cons_val_zero, Matrix.cons_val_one, Matrix.cons_val]
    ring
  have hrelc : (r : ℂ) * (q / m.permeability + omega * impedance m) = omega * impedance m - q / m.permeability := by
    have hq' : q = (((kx ^ 2 + ky ^ 2) / ky : ℝ) : ℂ) := by rw [Complex.ofReal_div, ← hq]; field_simp
    rw [hq']
    exact_mod_cast congrArg (fun z : ℝ => (z : ℂ)) hrel
  refine ⟨E, C, hE, hC, fun p => ⟨(hcurl p).symm, rfl⟩, hmax, ⟨hbw0, hbw1, fun y i => ⟨?_, ?_⟩⟩, ⟨hbt0, ?_⟩, ⟨hbt1, ?_, ?_⟩, ?_⟩
  · have h : E ![0, y] 1 = 0 := by simp only [E, comb, e1, hwall0, Matrix.cons_val_zero, Matrix.cons_val_one, Matrix.cons_val]; ring
    unfold Trench.boundary
    rw [hbw0, if_pos (.inl rfl)]
    fin_cases i <;> simp [cross, MaxLocal.cast, h]
  · have h : E ![width, y] 1 = 0 := by simp only [E, comb, e1, hwall1, Matrix.cons_val_zero, Matrix.cons_val_one, Matrix.cons_val]; ring
    unfold Trench.boundary
    rw [hbw1, if_pos (.inl rfl)]
    fin_cases i <;> simp [cross, MaxLocal.cast, h]
  · intro x i
    have hW0 : W kx ky omega ys a 1 1 ![x, 0] = Complex.exp (Complex.I * kx * x) ∧ W kx ky omega ys a (-1) 1 ![x, 0] = Complex.exp (-(Complex.I * kx * x)) ∧
        W kx ky omega ys a 1 (-1) ![x, 0] = Complex.exp (Complex.I * kx * x) ∧ W kx ky omega ys a (-1) (-1) ![x, 0] = Complex.exp (-(Complex.I * kx * x)) := by
      simp [W, hs0]
    obtain ⟨h1, h2, h3, h4⟩ := hW0
    have ha0 : att 0 = 1 := by simp only [hatt, hs0]; simp
    have v1 : ∀ E0, (PlaneWave.mk ![kx, ky] E0 0).phaseFactor ![x, 0] = Complex.exp (Complex.I * kx * x) := by
      intro E0; have := w1 E0 ![x, 0]; rw [h1] at this; simpa [ha0] using this
    have v2 : ∀ E0, (PlaneWave.mk ![-kx, ky] E0 0).phaseFactor ![x, 0] = Complex.exp (-(Complex.I * kx * x)) := by
      intro E0; have := w2 E0 ![x, 0]; rw [h2] at this; simpa [ha0] using this
    have hbd : t.boundary ![0, -1] ![x, 0] = fun i => (t.in1.fieldCurl ![x, 0] i + t.in2.fieldCurl ![x, 0] i) / (t.material.permeability : ℂ) +
        Complex.I * (t.omega : ℂ) * (impedance t.material : ℂ) * cross (fun i => t.in1.field ![x, 0] i + t.in2.field ![x, 0] i) (MaxLocal.cast ![0, -1]) i := by
      unfold Trench.boundary
      rw [hbt0, if_neg (by simp), if_neg (by norm_num)]
    rw [hbd]
    fin_cases i
    · simp only [t, ht0, PlaneWave.field, PlaneWave.fieldCurl, hkap', v1, v2]
      simp only [Fin.zero_eta, C, E, ch, comb, e0, e1, h1, h2, h3, h4, cross, MaxLocal.cast, Matrix.cons_val_zero, Matrix.cons_val_one, Matrix.cons_val]
      have hDD : D⁻¹ * (1 - A * r) = 1 := by rw [← hD]; exact inv_mul_cancel₀ hDne
      have hqd : q = kx * kap + ky := rfl
      set S := Complex.exp (Complex.I * kx * x) + Complex.exp (-(Complex.I * kx * x)) with hS
      push_cast
      clear_value D A q r
      linear_combination (-Complex.I * S * A * D⁻¹) * hrelc + (-Complex.I * S * (q / m.permeability + omega * impedance m)) * hDD - (Complex.I * S / m.permeability) * hqd
    · simp only [t, ht0, PlaneWave.field, PlaneWave.fieldCurl, hkap', v1, v2]
      norm_num
      simp [C, cross, MaxLocal.cast]
  · intro p i
    unfold Trench.boundary
    rw [hbt1]
    norm_num
  · intro x i
    cases bc with
    | dirichlet =>
      have hAe' : A / e = e := by rw [hAe]; simp only [farCoefficient, Complex.ofReal_one]; field_simp
      fin_cases i
      · simp only [Fin.zero_eta, cross, MaxLocal.cast, hEL0, hAe', Matrix.cons_val_zero, Matrix.cons_val_one, Matrix.cons_val_fin_one]; simp
      · simp [cross]
    | neumann =>
      have hAe' : A / e = -e := by rw [hAe]; simp only [farCoefficient]; push_cast; field_simp
      fin_cases i
      · simp only [Fin.zero_eta, hCL0, hAe']; simp
      · simp [C]
    | silverMuller =>
      have hAe' : A / e = r * e := by rw [hAe]; simp only [farCoefficient]; field_simp
      fin_cases i
      · simp only [Fin.zero_eta, cross, MaxLocal.cast, hEL0, hCL0, hAe', Matrix.cons_val_zero, Matrix.cons_val_one, Matrix.cons_val_fin_one]
        push_cast
        clear_value D A q r e
        linear_combination (-(Complex.I * e / D * (2 * Complex.cos (kx * x)))) * hrelc
      · simp [C, cross]
    | internal => exact True.intro
  · have hwidth : t.width = width := by simp only [t, ht0]
    have hlength : t.length = length := by simp only [t, ht0]
    set P := (e - A / e) / D with hP
    set N := kap * (e + A / e) / D with hN
    have hint : ∫ x in (0)..width, (‖E ![x, length] 0‖ ^ 2 + ‖E ![x, length] 1‖ ^ 2) = 2 * width * (‖P‖ ^ 2 + ‖N‖ ^ 2) := by
      have hf : ∀ x, ‖E ![x, length] 0‖ ^ 2 + ‖E ![x, length] 1‖ ^ 2 = 4 * ‖P‖ ^ 2 * Real.cos (kx * x) ^ 2 + 4 * ‖N‖ ^ 2 * Real.sin (kx * x) ^ 2 := by
        intro x
        rw [hEL0, hEL1]
        simp only [norm_mul, norm_neg, Complex.norm_real, Complex.norm_I, Real.norm_eq_abs, mul_one, mul_pow, sq_abs]
        ring
      simp only [hf]
      have hd : ∀ x ∈ Set.uIcc 0 width, HasDerivAt (fun x => 4 * ‖P‖ ^ 2 * (x / 2 + Real.sin (kx * x) * Real.cos (kx * x) / (2 * kx)) +
          4 * ‖N‖ ^ 2 * (x / 2 - Real.sin (kx * x) * Real.cos (kx * x) / (2 * kx))) (4 * ‖P‖ ^ 2 * Real.cos (kx * x) ^ 2 + 4 * ‖N‖ ^ 2 * Real.sin (kx * x) ^ 2) x := by
        intro x _
        have hk : HasDerivAt (fun x => kx * x) kx x := by simpa using (hasDerivAt_id x).const_mul kx
        have hsc := ((hk.sin).mul (hk.cos)).div_const (2 * kx)
        have hx := (hasDerivAt_id x).div_const 2
        have := ((hx.add hsc).const_mul (4 * ‖P‖ ^ 2)).add ((hx.sub hsc).const_mul (4 * ‖N‖ ^ 2))
        refine this.congr_deriv ?_
        have h1 := Real.sin_sq_add_cos_sq (kx * x)
        field_simp
        linear_combination (-(‖P‖ ^ 2 + ‖N‖ ^ 2)) * h1
      rw [intervalIntegral.integral_eq_sub_of_hasDerivAt hd (Continuous.intervalIntegrable (by fun_prop) _ _)]
      rw [hkw, Real.sin_nat_mul_pi]
      simp
      ring
    rw [hint]
    unfold Trench.farSide
    rw [hlength, hwidth]
    simp only [hcomb, Option.bind_eq_bind, Option.bind_some, Option.pure_def]
    obtain ⟨h1, h2, h3, h4⟩ := hWL 0
    have x1 := w1 ![1, -kap] ![0, length]
    have x2 := w2 ![1, kap] ![0, length]
    have x3 := w3 ![1, kap] ![0, length]
    have x4 := w4 ![1, -kap] ![0, length]
    rw [h1] at x1; rw [h2] at x2; rw [h3] at x3; rw [h4] at x4
    simp only [Matrix.cons_val_one, Matrix.cons_val_fin_one, Complex.ofReal_zero, mul_zero, neg_zero, Complex.exp_zero, one_mul] at x1 x2 x3 x4
    have hpar : (fun i => ((t.in1.field ![0, length] i + t.in2.field ![0, length] i) * att length -
        A * ((t.r1.field ![0, length] i + t.r2.field ![0, length] i) / att length)) / D) = ![2 * P, 0] := by
      funext i
      simp only [t, ht0, PlaneWave.field, hkap']
      fin_cases i
      · simp only [Fin.zero_eta, Matrix.cons_val_zero, hP]
        clear_value D A att e
        linear_combination (x1 + x2) / D - A / D * (x3 + x4)
      · simp only [Fin.mk_one, Matrix.cons_val_one, Matrix.cons_val_fin_one]
        clear_value D A att e
        linear_combination (-kap / D) * x1 + (kap / D) * x2 - A / D * kap * x3 + A / D * kap * x4
    have hnor : (fun i => ((t.in1.field ![0, length] i - t.in2.field ![0, length] i) * att length -
        A * ((t.r1.field ![0, length] i - t.r2.field ![0, length] i) / att length)) / D) = ![0, -(2 * N)] := by
      funext i
      simp only [t, ht0, PlaneWave.field, hkap']
      fin_cases i
      · simp only [Fin.zero_eta, Matrix.cons_val_zero]
        clear_value D A att e
        linear_combination (x1 - x2) / D - A / D * (x3 - x4)
      · simp only [Fin.mk_one, Matrix.cons_val_one, Matrix.cons_val_fin_one, hN]
        clear_value D A att e
        linear_combination (-kap / D) * x1 - (kap / D) * x2 - A / D * kap * x3 - A / D * kap * x4
    have hpar' := fun i => congrFun hpar i
    have hnor' := fun i => congrFun hnor i
    simp only [hpar', hnor']
    congr 2
    simp only [Fin.sum_univ_two, Matrix.cons_val_zero, Matrix.cons_val_one, Matrix.cons_val_fin_one, norm_mul, norm_neg, norm_zero, Complex.norm_ofNat, mul_pow]
    ring

/-- A trench of width one with one half wave, at a frequency that lets it through, with a layer that starts half way and a conducting end. -/
example : ∃ t0, Trench.make 5 1 1 2 ⟨1, 1⟩ = some t0 ∧ ((t0.setPML 1 3 1).setFarEnd .dirichlet) = { t0 with farEnd := .dirichlet, pmlYstart := 1, pmlScaling := 3 } := by
  have h : (Trench.make 5 1 1 2 ⟨1, 1⟩).isSome := by
    rw [make_isSome]
    refine ⟨one_pos, ?_⟩
    have h1 := Real.pi_lt_d2
    have h2 := Real.pi_pos
    push_cast
    nlinarith
  obtain ⟨t0, ht⟩ := Option.isSome_iff_exists.1 h
  refine ⟨t0, ht, ?_⟩
  simp [Trench.setPML, Trench.setFarEnd]

/-- A frequency that is too low is rejected. -/
example : Trench.make 3 1 1 2 ⟨1, 1⟩ = none := by
  rw [← Option.not_isSome_iff_eq_none, make_isSome]
  have h1 := Real.pi_gt_three
  push_cast
  intro h
  nlinarith [h.2]

end Verif.Fields
