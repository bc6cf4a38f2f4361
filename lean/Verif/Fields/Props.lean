import Verif.Fields.LemmasInterface

/-! # Fields in closed form: the properties -/
namespace Verif.Fields

open MaxLocal (Tensor cast cross dot)
open Pml (Material partialDeriv)
open scoped Real ComplexConjugate

/-- **C100.** The curl and the double curl of a plane wave are those of its field, for every tensor. -/
theorem wave_faithful {d : Nat} (hd : d = 2 ∨ d = 3) (w : PlaneWave d) (x : Fin d → ℝ) :
    w.pattern.fieldCurl x = curlE w.pattern.field x ∧
    ∀ m, w.pattern.fieldDoubleCurl x m = curlH (fun y => m.applyCurl (curlE w.pattern.field y)) x :=
  ⟨(wave_curl hd w x).symm, fun m => (wave_doubleCurl hd w m x).symm⟩

/-- **C100.** The wave `onDispersion` solves the equations in its material, travels in the direction it was given, and has the given amplitude. -/
theorem onDispersion_solves {d : Nat} (hd : d = 2 ∨ d = 3) (omega : ℝ) (khat : Fin d → ℝ) (E0 : Fin d → ℂ) (m : Material) (phase : ℝ) (he : 0 < m.permittivity)
    (hmu : 0 < m.permeability) (hk : khat ≠ 0) (ht : ∑ i, E0 i * (khat i : ℂ) = 0) :
    (∀ x i, residual m.eps m.mu omega (PlaneWave.onDispersion omega khat E0 m phase).pattern.field x i = 0) ∧
    (∀ i x, ‖(PlaneWave.onDispersion omega khat E0 m phase).pattern.field x i‖ = ‖E0 i‖) ∧
    ∃ s : ℝ, (0 < omega → 0 < s) ∧ ∀ x i, (PlaneWave.onDispersion omega khat E0 m phase).pattern.field x i =
      E0 i * Complex.exp (Complex.I * (s * ∑ j, khat j * x j + phase : ℝ)) := by
  have hpos := dotR_self_pos khat hk
  have hn : 0 < normR khat := Real.sqrt_pos.2 hpos
  have hnsq : normR khat ^ 2 = dotR khat khat := Real.sq_sqrt hpos.le
  have hkk : (PlaneWave.onDispersion omega khat E0 m phase).k = fun i => (omega * m.refractiveIndex / normR khat) * khat i :=
    funext fun i => mul_comm _ _
  refine ⟨fun x i => wave_residual hd _ m omega hmu.ne' ?_ ?_ x i, fun i x => ?_, omega * m.refractiveIndex / normR khat, fun h => ?_, fun x i => ?_⟩
  · rw [hkk, dotR_smul, dotR_smul_right, ← hnsq, ← index_sq m he hmu]
    field_simp
  · rw [hkk]
    have : ∀ i, E0 i * (((omega * m.refractiveIndex / normR khat) * khat i : ℝ) : ℂ) = (omega * m.refractiveIndex / normR khat : ℝ) * (E0 i * (khat i : ℂ)) := by
      intro i; push_cast; ring
    simp only [PlaneWave.onDispersion] at this ⊢
    simp only [this]
    rw [← Finset.mul_sum, ht, mul_zero]
  · simp only [PlaneWave.pattern, PlaneWave.field, PlaneWave.phaseFactor, norm_mul, Complex.norm_exp]
    simp [PlaneWave.onDispersion]
  · have := index_pos m he hmu
    positivity
  · simp only [PlaneWave.pattern, PlaneWave.field, PlaneWave.phaseFactor]
    rw [hkk, dotR_smul]
    rfl

section
variable {d : Nat}

theorem doubledCross_conj (hd : d = 2 ∨ d = 3) (a b : Fin d → ℂ) (i : Fin d) : doubledCross a b i = poynting a b i := by
  rcases hd with rfl | rfl
  · simp only [doubledCross, poynting]; fin_cases i <;> simp
  · rfl

theorem adjoint_conj (m : Tensor) (c : Fin d → ℂ) (i : Fin d) : m.adjoint.applyCurl (fun i => conj (c i)) i = conj (m.applyCurl c i) := by
  match d, m with
  | 2, .scalar z => simp only [Tensor.adjoint, Tensor.applyCurl]; fin_cases i <;> simp
  | 2, .diag z => simp only [Tensor.adjoint, Tensor.applyCurl]; fin_cases i <;> simp
  | 3, .scalar z => simp [Tensor.adjoint, Tensor.applyCurl]
  | 3, .diag z => simp [Tensor.adjoint, Tensor.applyCurl]
  | 0, _ => exact i.elim0
  | 1, .scalar z => rfl
  | 1, .diag z => rfl
  | _ + 4, .scalar z => rfl
  | _ + 4, .diag z => rfl

theorem meanFlux_eq (hd : d = 2 ∨ d = 3) (sign : ℝ) (hs : sign = 1 ∨ sign = -1) (E H : Fin d → ℂ) (i : Fin d) :
    meanFlux sign E H i = 1 / 2 * (poynting E (fun j => conj (H j)) i).re := by
  have hp := Real.pi_pos.ne'
  have ci : ∀ a b : Fin d, IntervalIntegrable (fun t : ℝ => (E a * Complex.exp (sign * t * Complex.I)).re * (H b * Complex.exp (sign * t * Complex.I)).re)
      MeasureTheory.volume 0 (2 * π) := by
    intro a b
    have : Continuous fun t : ℝ => (E a * Complex.exp (sign * t * Complex.I)).re * (H b * Complex.exp (sign * t * Complex.I)).re :=
      (Complex.continuous_re.comp (by fun_prop)).mul (Complex.continuous_re.comp (by fun_prop))
    exact this.intervalIntegrable _ _
  have key : ∀ a b c e : Fin d, 1 / (2 * π) * (∫ t in (0)..(2 * π), (atTime sign E t a * atTime sign H t b - atTime sign E t c * atTime sign H t e)) =
      1 / 2 * (E a * conj (H b) - E c * conj (H e)).re := by
    intro a b c e
    unfold atTime
    rw [intervalIntegral.integral_sub (ci a b) (ci c e), mean_product sign hs, mean_product sign hs, Complex.sub_re]
    field_simp
  have key1 : ∀ a b : Fin d, 1 / (2 * π) * (∫ t in (0)..(2 * π), atTime sign E t a * atTime sign H t b) = 1 / 2 * (E a * conj (H b)).re := by
    intro a b
    unfold atTime
    rw [mean_product sign hs]
    field_simp
  unfold meanFlux
  rcases hd with rfl | rfl
  · fin_cases i
    · exact key1 1 0
    · change 1 / (2 * π) * (∫ t in (0)..(2 * π), -(atTime sign E t 0 * atTime sign H t 0)) = 1 / 2 * (-(E 0 * conj (H 0))).re
      rw [intervalIntegral.integral_neg, Complex.neg_re, mul_neg, mul_neg, key1]
  · fin_cases i
    · exact key 1 2 2 1
    · exact key 2 0 0 2
    · exact key 0 1 1 0

/-- **C101.** What `localFlux` returns, for every pattern, material and frequency: if the field is `Re (E e^{-iωt})`, so that `curl E = iω μ H`, it is minus twice the mean of the
flux of energy. If it is `Re (E e^{iωt})`, so that `curl E = -iω μ H`, it is twice the mean. -/
theorem localFlux_partial (hd : d = 2 ∨ d = 3) (F : Pattern d) (x : Fin d → ℝ) (m : Tensor) (omega : ℝ) (homega : omega ≠ 0) (sign : ℝ) (hs : sign = 1 ∨ sign = -1)
    (H : Fin d → ℂ) (hH : ∀ i, m.applyCurl (F.fieldCurl x) i = -sign * Complex.I * omega * H i) (i : Fin d) :
    F.localFlux x m omega i = sign * 2 * meanFlux sign (F.field x) H i := by
  rw [meanFlux_eq hd sign hs]
  have ho : (omega : ℂ) ≠ 0 := by exact_mod_cast homega
  have h1 : (m.adjoint.applyCurl fun i => conj (F.fieldCurl x i)) = fun i => conj (H i) * (sign * Complex.I * omega) := by
    funext i
    rw [adjoint_conj, hH]
    simp only [map_mul, map_neg, Complex.conj_I, Complex.conj_ofReal]
    ring
  simp only [Pattern.localFlux]
  rw [h1, doubledCross_mul, doubledCross_conj hd]
  set P := poynting (F.field x) (fun j => conj (H j)) i
  have h2 : P * (sign * Complex.I * omega) = ((sign * omega : ℝ) : ℂ) * (P * Complex.I) := by push_cast; ring
  rw [h2, Complex.im_ofReal_mul, Complex.mul_I_im]
  field_simp

end

/-- **C101.** The negation of the property in the convention of the equations of the program, `e^{-iωt}`, in which the layers absorb waves that travel along their wave vector: for
a plane wave in a material the value points against the direction of the wave. -/
theorem localFlux_backwards {d : Nat} (hd : d = 2 ∨ d = 3) (w : PlaneWave d) (ht : ∑ i, w.E0 i * (w.k i : ℂ) = 0) (mu omega : ℝ) (x : Fin d → ℝ) (i : Fin d) :
    w.pattern.localFlux x (.scalar mu) omega i = -(w.k i * (∑ j, ‖w.E0 j‖ ^ 2) / (omega * mu)) := by
  have ht' : ∑ i, conj (w.E0 i) * (w.k i : ℂ) = 0 := by
    have := congrArg conj ht
    simpa [map_sum] using this
  have hph : w.phaseFactor x * conj (w.phaseFactor x) = 1 := by
    rw [Complex.mul_conj, Complex.normSq_eq_norm_sq]
    simp [PlaneWave.phaseFactor, Complex.norm_exp]
  have hn : ∀ j, ((‖w.E0 j‖ ^ 2 : ℝ) : ℂ) = w.E0 j * conj (w.E0 j) := by
    intro j; rw [Complex.mul_conj, Complex.normSq_eq_norm_sq]
  have e : doubledCross (w.field x) ((Tensor.scalar mu).adjoint.applyCurl fun i => conj (w.fieldCurl x i)) i =
      ((-(w.k i * (∑ j, ‖w.E0 j‖ ^ 2) / mu) : ℝ) : ℂ) * Complex.I := by
    push_cast
    simp only [← Complex.ofReal_pow, hn]
    unfold PlaneWave.field PlaneWave.fieldCurl
    rcases hd with rfl | rfl
    · simp only [Fin.sum_univ_two] at ht ht' ⊢
      simp only [doubledCross, Tensor.adjoint, Tensor.applyCurl, cross, MaxLocal.cast]
      fin_cases i <;> simp
      · linear_combination (-(Complex.I / mu) * (w.k 0 * (w.E0 0 * conj (w.E0 0) + w.E0 1 * conj (w.E0 1)) - conj (w.E0 0) * (w.E0 0 * w.k 0 + w.E0 1 * w.k 1))) * hph + (Complex.I / mu * conj (w.E0 0)) * ht
      · linear_combination ((Complex.I / mu) * (w.k 1 * (w.E0 0 * conj (w.E0 0) + w.E0 1 * conj (w.E0 1)) - conj (w.E0 1) * (w.E0 0 * w.k 0 + w.E0 1 * w.k 1))) * hph - (Complex.I / mu * conj (w.E0 1)) * ht
    · simp only [Fin.sum_univ_three] at ht ht' ⊢
      simp only [doubledCross, Tensor.adjoint, Tensor.applyCurl, cross, MaxLocal.cast]
      fin_cases i <;> simp
      · linear_combination (-(Complex.I / mu) * (w.k 0 * (w.E0 0 * conj (w.E0 0) + w.E0 1 * conj (w.E0 1) + w.E0 2 * conj (w.E0 2)) - conj (w.E0 0) * (w.E0 0 * w.k 0 + w.E0 1 * w.k 1 + w.E0 2 * w.k 2))) * hph + (Complex.I / mu * conj (w.E0 0)) * ht
      · linear_combination (-(Complex.I / mu) * (w.k 1 * (w.E0 0 * conj (w.E0 0) + w.E0 1 * conj (w.E0 1) + w.E0 2 * conj (w.E0 2)) - conj (w.E0 1) * (w.E0 0 * w.k 0 + w.E0 1 * w.k 1 + w.E0 2 * w.k 2))) * hph + (Complex.I / mu * conj (w.E0 1)) * ht
      · linear_combination (-(Complex.I / mu) * (w.k 2 * (w.E0 0 * conj (w.E0 0) + w.E0 1 * conj (w.E0 1) + w.E0 2 * conj (w.E0 2)) - conj (w.E0 2) * (w.E0 0 * w.k 0 + w.E0 1 * w.k 1 + w.E0 2 * w.k 2))) * hph + (Complex.I / mu * conj (w.E0 2)) * ht
  simp only [Pattern.localFlux, PlaneWave.pattern]
  rw [e, Complex.mul_I_im, Complex.ofReal_re]
  rw [one_div, ← div_eq_inv_mul, neg_div, div_div, mul_comm mu]

section
variable {d : Nat}

/-- **C102.** Off the interface, the curl and the double curl are those of the field. -/
theorem interface_faithful (hd : d = 2 ∨ d = 3) (s : Interface d) (x : Fin d → ℝ) (hx : ∑ i, s.normal i * x i ≠ s.position) :
    s.pattern.fieldCurl x = curlE s.pattern.field x ∧
    ∀ m, s.pattern.fieldDoubleCurl x m = curlH (fun y => m.applyCurl (curlE s.pattern.field y)) x := by
  rcases lt_or_gt_of_ne hx with h | h
  · have hU : IsOpen {y : Fin d → ℝ | dotR s.normal y < s.position} := isOpen_lt (dotR_continuous _) continuous_const
    have hf : ∀ y ∈ {y : Fin d → ℝ | dotR s.normal y < s.position}, s.pattern.field y = fun i => s.incident.field y i + s.reflected.field y i :=
      fun y hy => if_pos hy
    have hc : ∀ y ∈ {y : Fin d → ℝ | dotR s.normal y < s.position}, curlE s.pattern.field y = fun i => s.incident.fieldCurl y i + s.reflected.fieldCurl y i := by
      intro y hy
      rw [curlE_congr hU hf hy]
      funext i
      rw [curlE_add (wave_partials _ _) (wave_partials _ _), wave_curl hd, wave_curl hd]
    refine ⟨?_, fun m => ?_⟩
    · rw [hc x h]; exact if_pos h
    · have hm : ∀ y ∈ {y : Fin d → ℝ | dotR s.normal y < s.position}, m.applyCurl (curlE s.pattern.field y) =
          fun i => m.applyCurl (curlE s.incident.field y) i + m.applyCurl (curlE s.reflected.field y) i := by
        intro y hy
        rw [hc y hy]
        funext i
        rw [applyCurl_add, wave_curl hd, wave_curl hd]
      rw [curlH_congr hU hm h]
      refine Eq.trans (if_pos h) (funext fun i => ?_)
      rw [curlH_add (wave_curl_partials hd _ m x) (wave_curl_partials hd _ m x), wave_doubleCurl hd, wave_doubleCurl hd]
  · have h' : ¬ dotR s.normal x < s.position := not_lt.2 h.le
    have hU : IsOpen {y : Fin d → ℝ | s.position < dotR s.normal y} := isOpen_lt continuous_const (dotR_continuous _)
    have hf : ∀ y ∈ {y : Fin d → ℝ | s.position < dotR s.normal y}, s.pattern.field y = s.transmitted.field y :=
      fun y hy => if_neg (not_lt.2 (le_of_lt hy))
    have hc : ∀ y ∈ {y : Fin d → ℝ | s.position < dotR s.normal y}, curlE s.pattern.field y = s.transmitted.fieldCurl y := by
      intro y hy
      rw [curlE_congr hU hf hy, wave_curl hd]
    refine ⟨?_, fun m => ?_⟩
    · rw [hc x h]; exact if_neg h'
    · have hm : ∀ y ∈ {y : Fin d → ℝ | s.position < dotR s.normal y}, m.applyCurl (curlE s.pattern.field y) = m.applyCurl (curlE s.transmitted.field y) := by
        intro y hy
        rw [hc y hy, wave_curl hd]
      rw [curlH_congr hU hm h, wave_doubleCurl hd]
      exact if_neg h'

/-- **C102.** A plane wave that falls on an interface along its unit normal. The constructor accepts it. In front of the interface the field is the given wave and one that travels
back, behind it is a wave that travels on. On each side it solves the equations of the material there. It is continuous, and so is the curl divided by the permeability. -/
theorem interface_solves_partial (hd : d = 2 ∨ d = 3) (w : PlaneWave d) (mat1 mat2 : Material) (n : Fin d → ℝ) (position omega c : ℝ)
    (he1 : 0 < mat1.permittivity) (hm1 : 0 < mat1.permeability) (he2 : 0 < mat2.permittivity) (hm2 : 0 < mat2.permeability)
    (hn : ∑ i, n i * n i = 1) (hk : ∀ i, w.k i = c * n i) (hc : c = omega * mat1.refractiveIndex) (homega : omega ≠ 0) (ht : ∑ i, w.E0 i * (w.k i : ℂ) = 0) :
    ∃ s, Interface.make w mat1 mat2 n position = some s ∧
      (∃ R T : PlaneWave d, (∀ i, R.k i = -(c * n i)) ∧ (∀ i, T.k i = omega * mat2.refractiveIndex * n i) ∧
        (∀ x, ∑ i, n i * x i < position → s.pattern.field x = fun i => w.field x i + R.field x i) ∧
        ∀ x, position ≤ ∑ i, n i * x i → s.pattern.field x = T.field x) ∧
      (∀ x i, ∑ i, n i * x i < position → residual mat1.eps mat1.mu omega s.pattern.field x i = 0) ∧
      (∀ x i, position < ∑ i, n i * x i → residual mat2.eps mat2.mu omega s.pattern.field x i = 0) ∧
      Continuous s.pattern.field ∧
      Continuous fun x => (Tensor.scalar (open Classical in if ∑ i, n i * x i < position then mat1.permeability else mat2.permeability : ℝ)).applyCurl (s.pattern.fieldCurl x) := by
  have hn1 := index_pos mat1 he1 hm1
  have hn2 := index_pos mat2 he2 hm2
  have hc0 : c ≠ 0 := by rw [hc]; exact mul_ne_zero homega hn1.ne'
  have hk' : w.k = fun i => c * n i := funext hk
  have hnn : dotR n n = 1 := hn
  have hkn : dotR w.k n = c := by rw [hk', dotR_smul, hnn, mul_one]
  have hkk : dotR w.k w.k = c ^ 2 := by rw [hk', dotR_smul, dotR_smul_right, hnn]; ring
  have hnorm : normR w.k = |c| := by rw [normR, hkk, Real.sqrt_sq_eq_abs]
  have hcond : |(|dotR w.k n|) - normR w.k| < 1e-8 * normR w.k := by
    rw [hkn, hnorm, sub_self, abs_zero]
    have := abs_pos.2 hc0
    positivity
  set beta := impedance mat2 / impedance mat1 with hbeta
  have hz1 := impedance_pos mat1 he1 hm1
  have hz2 := impedance_pos mat2 he2 hm2
  have hb : 0 < beta := div_pos hz2 hz1
  set E0 := w.field (fun _ => 0) with hE0
  set kref : Fin d → ℝ := fun i => w.k i - 2 * dotR n w.k * n i with hkref
  set ktrans : Fin d → ℝ := fun i => w.k i * mat2.refractiveIndex / mat1.refractiveIndex with hktrans
  set pos : Fin d → ℝ := fun i => n i * position with hpos
  have hkref' : kref = fun i => -c * n i := by
    funext i
    simp only [hkref, dotR_comm n w.k, hkn, hk]
    ring
  have hktrans' : ktrans = fun i => (omega * mat2.refractiveIndex) * n i := by
    funext i
    simp only [hktrans, hk, hc]
    field_simp
  have hpos' : pos = fun i => position * n i := funext fun i => mul_comm _ _
  set R : PlaneWave d := ⟨kref, fun i => ((1 - beta) / (1 + beta) : ℝ) * E0 i, dotR pos w.k - dotR kref pos⟩ with hR
  set T : PlaneWave d := ⟨ktrans, fun i => (2 / (1 + beta) : ℝ) * E0 i, dotR pos w.k - dotR ktrans pos⟩ with hT
  set s : Interface d := ⟨n, position, w, R, T⟩ with hs
  have hmake : Interface.make w mat1 mat2 n position = some s := by
    unfold Interface.make
    rw [if_pos hcond]
  have ht0 : ∑ i, E0 i * (n i : ℂ) = 0 := by
    have h1 : ∑ i, w.E0 i * (w.k i : ℂ) = c * ∑ i, w.E0 i * (n i : ℂ) := by
      rw [Finset.mul_sum]; refine Finset.sum_congr rfl fun i _ => ?_
      rw [hk]; push_cast; ring
    have h2 : ∑ i, E0 i * (n i : ℂ) = w.phaseFactor (fun _ => 0) * ∑ i, w.E0 i * (n i : ℂ) := by
      rw [Finset.mul_sum]; refine Finset.sum_congr rfl fun i _ => ?_
      rw [hE0]; unfold PlaneWave.field; ring
    rw [h1] at ht
    rcases mul_eq_zero.1 ht with h | h
    · exact absurd (by exact_mod_cast h) hc0
    · rw [h2, h, mul_zero]
  have tr : ∀ a b : ℝ, ∑ i, ((a : ℂ) * E0 i) * ((b * n i : ℝ) : ℂ) = 0 := by
    intro a b
    have : ∀ i, ((a : ℂ) * E0 i) * ((b * n i : ℝ) : ℂ) = (a * b : ℂ) * (E0 i * (n i : ℂ)) := by intro i; push_cast; ring
    simp only [this]
    rw [← Finset.mul_sum, ht0, mul_zero]
  have rw1 : ∀ x i, residual mat1.eps mat1.mu omega w.field x i = 0 := fun x i =>
    wave_residual hd w mat1 omega hm1.ne' (by rw [hkk, hc, mul_pow, index_sq mat1 he1 hm1]) ht x i
  have rw2 : ∀ x i, residual mat1.eps mat1.mu omega R.field x i = 0 := fun x i => by
    refine wave_residual hd R mat1 omega hm1.ne' ?_ ?_ x i
    · simp only [hR, hkref']
      rw [dotR_smul, dotR_smul_right, hnn, hc, ← index_sq mat1 he1 hm1]; ring
    · simp only [hR, hkref']
      exact tr _ _
  have rw3 : ∀ x i, residual mat2.eps mat2.mu omega T.field x i = 0 := fun x i => by
    refine wave_residual hd T mat2 omega hm2.ne' ?_ ?_ x i
    · simp only [hT, hktrans']
      rw [dotR_smul, dotR_smul_right, hnn, ← index_sq mat2 he2 hm2]; ring
    · simp only [hT, hktrans']
      exact tr _ _
  have hfw : ∀ x, w.phaseFactor x = w.phaseFactor (fun _ => 0) * Complex.exp (Complex.I * (c * dotR n x : ℝ)) := by
    intro x
    unfold PlaneWave.phaseFactor
    rw [← Complex.exp_add, hk', dotR_smul]
    congr 1
    have : dotR (fun i => c * n i) (fun _ => (0 : ℝ)) = 0 := by simp [dotR]
    rw [this]; push_cast; ring
  have hpR : ∀ x, dotR n x = position → R.phaseFactor x = Complex.exp (Complex.I * (c * dotR n x : ℝ)) := by
    intro x hx
    unfold PlaneWave.phaseFactor
    congr 2
    simp only [hR, hkref', hpos', dotR_smul, dotR_smul_right, dotR_comm n w.k, hkn, hx, hnn]
    congr 1
    ring
  have hpT : ∀ x, dotR n x = position → T.phaseFactor x = Complex.exp (Complex.I * (c * dotR n x : ℝ)) := by
    intro x hx
    unfold PlaneWave.phaseFactor
    congr 2
    simp only [hT, hktrans', hpos', dotR_smul, dotR_smul_right, dotR_comm n w.k, hkn, hx, hnn]
    congr 1
    ring
  have hbc : (1 + beta : ℂ) ≠ 0 := by
    have : (1 + beta : ℝ) ≠ 0 := by positivity
    exact_mod_cast this
  have jump : ∀ x, dotR n x = position → ∀ i, w.field x i + R.field x i = T.field x i := by
    intro x hx i
    have e0 : w.field x i = E0 i * Complex.exp (Complex.I * (c * dotR n x : ℝ)) := by
      rw [hE0]; unfold PlaneWave.field; rw [hfw x]; ring
    rw [e0]
    unfold PlaneWave.field
    rw [hpR x hx, hpT x hx]
    simp only [hR, hT]
    push_cast
    field_simp
    ring
  have zmu : mat2.refractiveIndex / mat1.refractiveIndex * mat1.permeability = beta * mat2.permeability := by
    rw [index_impedance mat1 he1 hm1, index_impedance mat2 he2 hm2, hbeta]
    field_simp
  have hm1c : (mat1.permeability : ℂ) ≠ 0 := by exact_mod_cast hm1.ne'
  have hm2c : (mat2.permeability : ℂ) ≠ 0 := by exact_mod_cast hm2.ne'
  have jumpC : ∀ x, dotR n x = position → ∀ i, (Tensor.scalar mat1.permeability).applyCurl (w.fieldCurl x) i + (Tensor.scalar mat1.permeability).applyCurl (R.fieldCurl x) i =
      (Tensor.scalar mat2.permeability).applyCurl (T.fieldCurl x) i := by
    intro x hx i
    have e0 : w.fieldCurl x = fun i => (cross (cast n) E0 i * c) * (Complex.I * Complex.exp (Complex.I * (c * dotR n x : ℝ))) := by
      funext i
      unfold PlaneWave.fieldCurl
      rw [hfw x, hE0, hk']
      unfold PlaneWave.field
      rcases hd with rfl | rfl
      · simp only [cross, MaxLocal.cast]; fin_cases i <;> (simp; try ring)
      · simp only [cross, MaxLocal.cast]; fin_cases i <;> (simp; try ring)
    have e1 : ∀ (a b : ℝ) (i : Fin d), cross (cast fun i => b * n i) (fun i => (a : ℂ) * E0 i) i = cross (cast n) E0 i * (a * b) := by
      intro a b i
      rcases hd with rfl | rfl
      · simp only [cross, MaxLocal.cast]; fin_cases i <;> (simp; try ring)
      · simp only [cross, MaxLocal.cast]; fin_cases i <;> (simp; try ring)
    have e2 : R.fieldCurl x = fun i => (cross (cast n) E0 i * (((1 - beta) / (1 + beta) : ℝ) * (-c : ℝ))) * (Complex.I * Complex.exp (Complex.I * (c * dotR n x : ℝ))) := by
      funext i
      unfold PlaneWave.fieldCurl
      rw [hpR x hx]
      simp only [hR, hkref', e1]
    have e3 : T.fieldCurl x = fun i => (cross (cast n) E0 i * ((2 / (1 + beta) : ℝ) * (omega * mat2.refractiveIndex : ℝ))) *
        (Complex.I * Complex.exp (Complex.I * (c * dotR n x : ℝ))) := by
      funext i
      unfold PlaneWave.fieldCurl
      rw [hpT x hx]
      simp only [hT, hktrans', e1]
    have e4 : (omega : ℂ) * mat2.refractiveIndex * mat1.permeability = c * beta * mat2.permeability := by
      have : omega * mat2.refractiveIndex * mat1.permeability = c * beta * mat2.permeability := by
        rw [mul_assoc c, ← zmu, hc]; field_simp
      exact_mod_cast this
    have key : ∀ v : ℂ, v * c / (mat1.permeability : ℂ) + v * (((1 - beta) / (1 + beta) : ℝ) * (-c : ℝ)) / (mat1.permeability : ℂ) =
        v * ((2 / (1 + beta) : ℝ) * (omega * mat2.refractiveIndex : ℝ)) / (mat2.permeability : ℂ) := by
      intro v
      push_cast
      field_simp
      linear_combination (-2 * v) * e4
    rw [e0, e2, e3, applyCurl_mul _ (fun i => cross (cast n) E0 i * (c : ℂ)), applyCurl_mul _ (fun i => cross (cast n) E0 i * (((1 - beta) / (1 + beta) : ℝ) * (-c : ℝ))),
      applyCurl_mul _ (fun i => cross (cast n) E0 i * ((2 / (1 + beta) : ℝ) * (omega * mat2.refractiveIndex : ℝ))), ← add_mul]
    congr 1
    rcases hd with rfl | rfl
    · fin_cases i
      · exact key _
      · simp [Tensor.applyCurl, cross]
    · exact key _
  refine ⟨s, hmake, ⟨R, T, fun i => by simp only [hR, hkref']; ring, fun i => by simp only [hT, hktrans'], fun x hx => if_pos hx, fun x hx => if_neg (not_lt.2 hx)⟩, ?_, ?_, ?_, ?_⟩
  · intro x i hx
    have hU : IsOpen {y : Fin d → ℝ | dotR n y < position} := isOpen_lt (dotR_continuous _) continuous_const
    rw [residual_congr omega hU (E := s.pattern.field) (F := fun y i => w.field y i + R.field y i) (fun y hy => if_pos hy) hx]
    rw [residual_add (mu := mat1.mu) (m := .scalar mat1.permeability) hU (fun y _ => rfl) omega (fun y _ => ⟨wave_partials _ _, wave_curl_partials hd _ _ _⟩)
      (fun y _ => ⟨wave_partials _ _, wave_curl_partials hd _ _ _⟩) hx, rw1, rw2, add_zero]
  · intro x i hx
    have hU : IsOpen {y : Fin d → ℝ | position < dotR n y} := isOpen_lt continuous_const (dotR_continuous _)
    rw [residual_congr omega hU (E := s.pattern.field) (F := T.field) (fun y hy => if_neg (not_lt.2 (show position ≤ dotR n y from le_of_lt hy))) hx, rw3]
  · have : s.pattern.field = fun x => open Classical in if position ≤ dotR n x then T.field x else fun i => w.field x i + R.field x i := by
      funext x
      simp only [Interface.pattern, hs]
      by_cases h : dotR n x < position
      · rw [if_pos h, if_neg (not_le.2 h)]
      · rw [if_neg h, if_pos (not_lt.1 h)]
    rw [this]
    refine Continuous.if_le (field_continuous T) (continuous_pi fun i => ((continuous_apply i).comp (field_continuous w)).add ((continuous_apply i).comp (field_continuous R)))
      continuous_const (dotR_continuous n) fun x hx => ?_
    exact funext fun i => (jump x hx.symm i).symm
  · have : (fun x => (Tensor.scalar (open Classical in if ∑ i, n i * x i < position then mat1.permeability else mat2.permeability : ℝ)).applyCurl (s.pattern.fieldCurl x)) =
        fun x => open Classical in if position ≤ dotR n x then (Tensor.scalar mat2.permeability).applyCurl (T.fieldCurl x) else
          fun i => (Tensor.scalar mat1.permeability).applyCurl (w.fieldCurl x) i + (Tensor.scalar mat1.permeability).applyCurl (R.fieldCurl x) i := by
      funext x
      simp only [Interface.pattern, hs]
      by_cases h : dotR n x < position
      · have h' : ∑ i, n i * x i < position := h
        rw [if_pos h, if_pos h', if_neg (not_le.2 h)]
        funext i
        rw [applyCurl_add]
      · have h' : ¬ ∑ i, n i * x i < position := h
        rw [if_neg h, if_neg h', if_pos (not_lt.1 h)]
    rw [this]
    refine Continuous.if_le (curl_continuous T _) (continuous_pi fun i => ((continuous_apply i).comp (curl_continuous w _)).add ((continuous_apply i).comp (curl_continuous R _)))
      continuous_const (dotR_continuous n) fun x hx => ?_
    exact funext fun i => (jumpC x hx.symm i).symm

end

/-- **C102.** The constructor with a frequency builds such a field for every frequency but zero. -/
theorem legacy_solves {d : Nat} (hd : d = 0 ∨ d = 1) (omega phase : ℝ) (mat1 mat2 : Material) (position : ℝ) (he1 : 0 < mat1.permittivity) (hm1 : 0 < mat1.permeability)
    (he2 : 0 < mat2.permittivity) (hm2 : 0 < mat2.permeability) (homega : omega ≠ 0) :
    ∃ s : Interface (d + 2), Interface.legacy omega phase mat1 mat2 position = some s ∧
      (∀ x i, x 1 < position → residual mat1.eps mat1.mu omega s.pattern.field x i = 0) ∧
      (∀ x i, position < x 1 → residual mat2.eps mat2.mu omega s.pattern.field x i = 0) ∧ Continuous s.pattern.field := by
  have h1 : ∀ x : Fin (d + 2) → ℝ, ∑ i, (if i = 1 then (1 : ℝ) else 0) * x i = x 1 := by
    intro x; simp
  obtain ⟨s, hs, -, ha, hb, hc, -⟩ := interface_solves_partial (d := d + 2) (by omega)
    ⟨fun i => if i = 1 then omega * mat1.refractiveIndex else 0, fun i => if i = 0 then 1 else 0, phase⟩ mat1 mat2 (fun i => if i = 1 then 1 else 0) position omega
    (omega * mat1.refractiveIndex) he1 hm1 he2 hm2 (by simp) (fun i => by by_cases h : i = 1 <;> simp [h]) rfl homega (by simp)
  refine ⟨s, hs, fun x i hx => ha x i (by rw [h1]; exact hx), fun x i hx => hb x i (by rw [h1]; exact hx), hc⟩

/-- **C102.** The negation for the inputs the constructor accepts. Its assertion only compares the length of the wave vector with its product with the normal. It accepts a wave and a
normal that is neither a unit vector nor parallel to the wave, and then builds a field that is not continuous. All three waves are transversal. -/
theorem interface_unchecked : ∃ (w : PlaneWave 3) (mat1 mat2 : Material) (n : Fin 3 → ℝ) (s : Interface 3),
    0 < mat1.permittivity ∧ 0 < mat1.permeability ∧ 0 < mat2.permittivity ∧ 0 < mat2.permeability ∧
    Interface.make w mat1 mat2 n 0 = some s ∧ w.Checked ∧ s.reflected.Checked ∧ s.transmitted.Checked ∧ ¬ Continuous s.pattern.field := by
  have hs4 : Real.sqrt 4 = 2 := by rw [show (4 : ℝ) = 2 ^ 2 by norm_num]; exact Real.sqrt_sq (by norm_num)
  have z1 : impedance ⟨1, 1⟩ = 1 := by simp [impedance, MaxLocal.impedance]
  have z2 : impedance ⟨4, 1⟩ = 2 := by simp [impedance, MaxLocal.impedance, hs4]
  have n1 : Pml.Material.refractiveIndex ⟨1, 1⟩ = 1 := by simp [Pml.Material.refractiveIndex]
  have n2 : Pml.Material.refractiveIndex ⟨4, 1⟩ = 2 := by simp [Pml.Material.refractiveIndex, hs4]
  let w : PlaneWave 3 := ⟨![1, 0, 0], ![0, 0, 1], 0⟩
  let n : Fin 3 → ℝ := ![1, 5, 0]
  have hE : w.field (fun _ => 0) = ![0, 0, 1] := by
    funext i
    simp only [PlaneWave.field, PlaneWave.phaseFactor, dotR, w]
    fin_cases i <;> simp
  have hnorm : normR w.k = 1 := by simp [normR, dotR, Fin.sum_univ_three, w]
  have hkn : dotR w.k n = 1 := by simp [dotR, Fin.sum_univ_three, w, n]
  have hnk : dotR n w.k = 1 := by rw [dotR_comm, hkn]
  have hcond : |(|dotR w.k n|) - normR w.k| < 1e-8 * normR w.k := by rw [hkn, hnorm]; norm_num
  have hmake : ∃ s, Interface.make w ⟨1, 1⟩ ⟨4, 1⟩ n 0 = some s ∧ s.normal = n ∧ s.position = 0 ∧ s.incident = w ∧
      s.reflected.k = ![-1, -10, 0] ∧ s.reflected.E0 = ![0, 0, -1 / 3] ∧ s.reflected.phase = 0 ∧
      s.transmitted.k = ![2, 0, 0] ∧ s.transmitted.E0 = ![0, 0, 2 / 3] ∧ s.transmitted.phase = 0 := by
    unfold Interface.make
    rw [if_pos hcond]
    refine ⟨_, rfl, rfl, rfl, rfl, ?_, ?_, ?_, ?_, ?_, ?_⟩
    · funext i
      simp only [hnk]
      fin_cases i <;> norm_num [w, n]
    · funext i
      simp only [hE, z1, z2]
      fin_cases i <;> norm_num
    · simp [dotR]
    · funext i
      simp only [n1, n2]
      fin_cases i <;> norm_num [w]
    · funext i
      simp only [hE, z1, z2]
      fin_cases i <;> norm_num
    · simp [dotR]
  obtain ⟨s, hs, sn, sp, si, rk, re, rp, tk, te, tp⟩ := hmake
  refine ⟨w, ⟨1, 1⟩, ⟨4, 1⟩, n, s, by norm_num, by norm_num, by norm_num, by norm_num, hs, ?_, ?_, ?_, ?_⟩
  · have : dot w.E0 (cast w.k) = 0 := by simp [dot, MaxLocal.cast, Fin.sum_univ_three, w]
    rw [PlaneWave.Checked, this, norm_zero]
    unfold normR; positivity
  · have : dot s.reflected.E0 (cast s.reflected.k) = 0 := by simp [dot, MaxLocal.cast, Fin.sum_univ_three, rk, re]
    rw [PlaneWave.Checked, this, norm_zero]
    unfold normR; positivity
  · have : dot s.transmitted.E0 (cast s.transmitted.k) = 0 := by simp [dot, MaxLocal.cast, Fin.sum_univ_three, tk, te]
    rw [PlaneWave.Checked, this, norm_zero]
    unfold normR; positivity
  · intro hc
    have hcurve : Continuous fun t : ℝ => s.pattern.field ![π - t, -π / 5, 0] 2 := by
      refine (continuous_apply 2).comp (hc.comp ?_)
      refine continuous_pi fun i => ?_
      fin_cases i
      · exact continuous_const.sub continuous_id
      · exact continuous_const
      · exact continuous_const
    have hdot : ∀ t : ℝ, dotR s.normal ![π - t, -π / 5, 0] = -t := by
      intro t
      rw [sn]
      simp only [dotR, Fin.sum_univ_three, n]
      simp
      ring
    have h0 : s.pattern.field ![π - 0, -π / 5, 0] 2 = 2 / 3 := by
      have : ¬ dotR s.normal ![π - 0, -π / 5, 0] < s.position := by rw [hdot, sp]; norm_num
      simp only [Interface.pattern]
      rw [if_neg this]
      unfold PlaneWave.field PlaneWave.phaseFactor
      rw [tk, te, tp]
      have : Complex.I * ((dotR ![2, 0, 0] ![π - 0, -π / 5, 0] + 0 : ℝ) : ℂ) = 2 * π * Complex.I := by
        simp [dotR, Fin.sum_univ_three]; ring
      rw [this, Complex.exp_two_pi_mul_I]
      simp
    have h1 : ∀ t : ℝ, 0 < t → s.pattern.field ![π - t, -π / 5, 0] 2 = Complex.exp (Complex.I * (π - t)) + (-1 / 3) * Complex.exp (Complex.I * (π + t)) := by
      intro t ht
      have : dotR s.normal ![π - t, -π / 5, 0] < s.position := by rw [hdot, sp]; linarith
      simp only [Interface.pattern]
      rw [if_pos this, si]
      unfold PlaneWave.field PlaneWave.phaseFactor
      rw [rk, re, rp]
      have e1 : Complex.I * ((dotR w.k ![π - t, -π / 5, 0] + w.phase : ℝ) : ℂ) = Complex.I * (π - t) := by
        simp [dotR, Fin.sum_univ_three, w]
      have e2 : Complex.I * ((dotR ![-1, -10, 0] ![π - t, -π / 5, 0] + 0 : ℝ) : ℂ) = Complex.I * (π + t) := by
        simp [dotR, Fin.sum_univ_three]; ring
      rw [e1, e2]
      simp [w]
    have l1 : Filter.Tendsto (fun t : ℝ => s.pattern.field ![π - t, -π / 5, 0] 2) (nhdsWithin 0 (Set.Ioi 0)) (nhds (2 / 3)) := by
      rw [← h0]
      exact (hcurve.tendsto 0).mono_left nhdsWithin_le_nhds
    have l2 : Filter.Tendsto (fun t : ℝ => s.pattern.field ![π - t, -π / 5, 0] 2) (nhdsWithin 0 (Set.Ioi 0))
        (nhds (Complex.exp (Complex.I * (π - (0 : ℝ))) + (-1 / 3) * Complex.exp (Complex.I * (π + (0 : ℝ))))) := by
      have hcc : Continuous fun t : ℝ => Complex.exp (Complex.I * (π - t)) + (-1 / 3) * Complex.exp (Complex.I * (π + t)) := by fun_prop
      refine ((hcc.tendsto 0).mono_left nhdsWithin_le_nhds).congr' ?_
      filter_upwards [self_mem_nhdsWithin] with t ht
      exact (h1 t ht).symm
    have := tendsto_nhds_unique l1 l2
    simp only [Complex.ofReal_zero, sub_zero, add_zero, mul_comm Complex.I, Complex.exp_pi_mul_I] at this
    norm_num at this

section
variable {d : Nat}

/-- **C103.** A scattering problem. In an element that is no layer and has a constant permeability, a scattered field solves the equations with the source of the program exactly if the
total field solves them without source. -/
theorem scattering_total (omega : ℝ) (F : Pattern d) (infos : Infos d) (U : Set (Fin d → ℝ)) (hU : IsOpen U) (m : Tensor) (hm : ∀ y ∈ U, infos.mu y = m)
    (hl : infos.layer = false) (hcurl : ∀ y ∈ U, ∀ t, F.fieldDoubleCurl y t = curlH (fun z => t.applyCurl (curlE F.field z)) y)
    (hF : ∀ y ∈ U, Partials F.field y ∧ Partials (fun z => m.applyCurl (curlE F.field z)) y) (E : (Fin d → ℝ) → Fin d → ℂ)
    (hE : ∀ y ∈ U, Partials E y ∧ Partials (fun z => m.applyCurl (curlE E z)) y) (x : Fin d → ℝ) (hx : x ∈ U) (i : Fin d) :
    residual infos.div infos.mu omega E x i = scatteringSource omega F infos x i ↔ residual infos.div infos.mu omega (fun y i => E y i + F.field y i) x i = 0 := by
  rw [residual_add hU hm omega hE hF hx]
  have h : scatteringSource omega F infos x i = -residual infos.div infos.mu omega F.field x i := by
    simp only [scatteringSource, hl, Bool.false_eq_true, if_false, residual]
    rw [hcurl x hx]
    have : curlH (fun y => (infos.mu y).applyCurl (curlE F.field y)) x = curlH (fun z => (infos.mu x).applyCurl (curlE F.field z)) x :=
      curlH_congr hU (fun y hy => by rw [hm y hy, hm x hx]) hx
    rw [this]
    push_cast
    ring
  rw [h, eq_neg_iff_add_eq_zero]

/-- **C103.** In a layer there is no source. -/
theorem scattering_layer (omega : ℝ) (F : Pattern d) (infos : Infos d) (hl : infos.layer = true) (x : Fin d → ℝ) (i : Fin d) : scatteringSource omega F infos x i = 0 := by
  simp [scatteringSource, hl]

/-- **C103.** Without the obstacle nothing is scattered: where the incident field solves the equations of the element, the source is zero. -/
theorem scattering_free (hd : d = 2 ∨ d = 3) (omega : ℝ) (w : PlaneWave d) (mat : Material) (layer : Bool) (hmu : mat.permeability ≠ 0)
    (hk : ∑ i, w.k i * w.k i = omega ^ 2 * (mat.permittivity * mat.permeability)) (ht : ∑ i, w.E0 i * (w.k i : ℂ) = 0) (x : Fin d → ℝ) (i : Fin d) :
    scatteringSource omega w.pattern ⟨layer, mat.eps, mat.mu⟩ x i = 0 := by
  cases layer
  · have := wave_residual hd w mat omega hmu hk ht x i
    simp only [residual] at this
    simp only [scatteringSource, Bool.false_eq_true, if_false, PlaneWave.pattern]
    rw [← wave_doubleCurl hd]
    push_cast
    have e : (fun y => (Pml.Material.mu mat x).applyCurl (curlE w.field y)) = fun y => (Pml.Material.mu mat y).applyCurl (curlE w.field y) := rfl
    rw [e]
    linear_combination -this
  · rfl

/-- **C103.** The source of a problem with a given solution is what is left of the equations for this solution, in an element with a constant permeability. -/
theorem exact_source (omega : ℝ) (F : Pattern d) (infos : Infos d) (U : Set (Fin d → ℝ)) (hU : IsOpen U) (m : Tensor) (hm : ∀ y ∈ U, infos.mu y = m)
    (hcurl : ∀ y ∈ U, ∀ t, F.fieldDoubleCurl y t = curlH (fun z => t.applyCurl (curlE F.field z)) y) (x : Fin d → ℝ) (hx : x ∈ U) (i : Fin d) :
    exactSource omega F infos x i = residual infos.div infos.mu omega F.field x i := by
  simp only [exactSource, residual]
  rw [hcurl x hx]
  have : curlH (fun y => (infos.mu y).applyCurl (curlE F.field y)) x = curlH (fun z => (infos.mu x).applyCurl (curlE F.field z)) x :=
    curlH_congr hU (fun y hy => by rw [hm y hy, hm x hx]) hx
  rw [this]
  push_cast
  ring

end

section Example

/-- A wave in a glass, at an angle, polarized in the plane. -/
noncomputable def slanted : PlaneWave 2 := .onDispersion 3 ![3, 4] ![4, -3] ⟨4, 1⟩ 1

example : (∑ i, (![4, -3] : Fin 2 → ℂ) i * ((![3, 4] : Fin 2 → ℝ) i : ℂ) = 0) ∧ (![3, 4] : Fin 2 → ℝ) ≠ 0 := by
  refine ⟨?_, ?_⟩
  · norm_num [Fin.sum_univ_two]
  · intro h; have := congrFun h 0; norm_num at this

/-- Its wave vector has the length `ω n = 6`. -/
example : slanted.k = ![18 / 5, 24 / 5] := by
  have h25 : Real.sqrt 25 = 5 := by rw [show (25 : ℝ) = 5 ^ 2 by norm_num]; exact Real.sqrt_sq (by norm_num)
  have hs4 : Real.sqrt 4 = 2 := by rw [show (4 : ℝ) = 2 ^ 2 by norm_num]; exact Real.sqrt_sq (by norm_num)
  have hn : normR ![3, 4] = 5 := by
    have : dotR ![3, 4] ![3, 4] = 25 := by norm_num [dotR, Fin.sum_univ_two]
    rw [normR, this, h25]
  have hr : Pml.Material.refractiveIndex ⟨4, 1⟩ = 2 := by simp [Pml.Material.refractiveIndex, hs4]
  funext i
  simp only [slanted, PlaneWave.onDispersion, hn, hr]
  fin_cases i <;> norm_num

end Example

end Verif.Fields
