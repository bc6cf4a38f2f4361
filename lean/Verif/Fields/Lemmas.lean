import Verif.Fields.Model
import Verif.Fields.Spec
import Mathlib.Analysis.SpecialFunctions.ExpDeriv
import Mathlib.Tactic.LinearCombination
import Mathlib.Tactic.FieldSimp

/-! # Fields in closed form: derivatives of plane waves -/
namespace Verif.Fields

open MaxLocal (Tensor cast cross dot)
open Pml (Material partialDeriv)
set_option linter.all false

theorem dotR_update {d : Nat} (k x : Fin d → ℝ) (j : Fin d) (t : ℝ) : dotR k (Function.update x j t) = dotR k x + k j * (t - x j) := by
  unfold dotR
  have : ∀ i, k i * Function.update x j t i = k i * x i + if i = j then k j * (t - x j) else 0 := by
    intro i
    by_cases h : i = j
    · subst h; rw [Function.update_self, if_pos rfl]; ring
    · rw [Function.update_of_ne h, if_neg h]; ring
  simp only [this, Finset.sum_add_distrib, Finset.sum_ite_eq', Finset.mem_univ, if_true]

theorem phase_deriv {d : Nat} (w : PlaneWave d) (j : Fin d) (x : Fin d → ℝ) :
    HasDerivAt (fun t : ℝ => w.phaseFactor (Function.update x j t)) (Complex.I * w.k j * w.phaseFactor x) (x j) := by
  have h : HasDerivAt (fun t : ℝ => Complex.I * ((dotR w.k (Function.update x j t) + w.phase : ℝ) : ℂ)) (Complex.I * w.k j) (x j) := by
    have h1 : HasDerivAt (fun t : ℝ => (dotR w.k (Function.update x j t) + w.phase : ℝ)) (w.k j) (x j) := by
      simp only [dotR_update]
      have := ((((hasDerivAt_id (x j)).sub_const (x j)).const_mul (w.k j)).const_add (dotR w.k x)).add_const w.phase
      simpa using this
    exact (h1.ofReal_comp).const_mul Complex.I
  have := h.cexp
  simp only [Function.update_eq_self] at this
  refine this.congr_deriv ?_
  unfold PlaneWave.phaseFactor
  ring

theorem phase_partial {d : Nat} (w : PlaneWave d) (j : Fin d) (x : Fin d → ℝ) (c : ℂ) :
    partialDeriv j (fun y => c * w.phaseFactor y) x = c * (Complex.I * w.k j * w.phaseFactor x) :=
  ((phase_deriv w j x).const_mul c).deriv

theorem applyCurl_mul {d : Nat} (m : Tensor) (v : Fin d → ℂ) (c : ℂ) (i : Fin d) : m.applyCurl (fun i => v i * c) i = m.applyCurl v i * c := by
  match d, m with
  | 2, .scalar z => fin_cases i <;> simp [Tensor.applyCurl, div_mul_eq_mul_div]
  | 2, .diag z => fin_cases i <;> simp [Tensor.applyCurl, div_mul_eq_mul_div]
  | 3, .scalar z => simp [Tensor.applyCurl, div_mul_eq_mul_div]
  | 3, .diag z => simp [Tensor.applyCurl, div_mul_eq_mul_div]
  | 0, _ => exact i.elim0
  | 1, .scalar z => rfl
  | 1, .diag z => rfl
  | _ + 4, .scalar z => rfl
  | _ + 4, .diag z => rfl

theorem applyCurl_add {d : Nat} (m : Tensor) (v w : Fin d → ℂ) (i : Fin d) : m.applyCurl (fun i => v i + w i) i = m.applyCurl v i + m.applyCurl w i := by
  match d, m with
  | 2, .scalar z => fin_cases i <;> simp [Tensor.applyCurl, add_div]
  | 2, .diag z => fin_cases i <;> simp [Tensor.applyCurl, add_div]
  | 3, .scalar z => simp [Tensor.applyCurl, add_div]
  | 3, .diag z => simp [Tensor.applyCurl, add_div]
  | 0, _ => exact i.elim0
  | 1, .scalar z => rfl
  | 1, .diag z => rfl
  | _ + 4, .scalar z => rfl
  | _ + 4, .diag z => rfl

theorem applyDiv_add {d : Nat} (m : Tensor) (v w : Fin d → ℂ) (i : Fin d) : m.applyDiv (fun i => v i + w i) i = m.applyDiv v i + m.applyDiv w i := by
  cases m <;> simp [Tensor.applyDiv, add_mul]

/-- The field of a wave with another amplitude. -/
theorem curlE_wave {d : Nat} (hd : d = 2 ∨ d = 3) (w : PlaneWave d) (A : Fin d → ℂ) (x : Fin d → ℝ) (i : Fin d) :
    curlE (fun y i => A i * w.phaseFactor y) x i = cross (cast w.k) A i * (Complex.I * w.phaseFactor x) := by
  rcases hd with rfl | rfl
  · simp only [curlE, phase_partial, cross, MaxLocal.cast]
    fin_cases i
    · simp; ring
    · simp
  · simp only [curlE, phase_partial, cross, MaxLocal.cast]
    fin_cases i <;> (simp; ring)

theorem curlH_wave {d : Nat} (hd : d = 2 ∨ d = 3) (w : PlaneWave d) (A : Fin d → ℂ) (x : Fin d → ℝ) (i : Fin d) :
    curlH (fun y i => A i * w.phaseFactor y) x i = doubledCross (cast w.k) A i * (Complex.I * w.phaseFactor x) := by
  rcases hd with rfl | rfl
  · simp only [curlH, phase_partial, doubledCross, MaxLocal.cast]
    fin_cases i <;> (simp; ring)
  · exact curlE_wave (.inr rfl) w A x i

theorem wave_curl {d : Nat} (hd : d = 2 ∨ d = 3) (w : PlaneWave d) (x : Fin d → ℝ) : curlE w.field x = w.fieldCurl x :=
  funext fun i => curlE_wave hd w w.E0 x i

theorem doubledCross_mul {d : Nat} (l r : Fin d → ℂ) (c : ℂ) (i : Fin d) : doubledCross l (fun i => r i * c) i = doubledCross l r i * c := by
  match d with
  | 2 => simp only [doubledCross]; fin_cases i <;> simp [mul_assoc]
  | 3 => simp only [doubledCross, cross]; fin_cases i <;> (simp; ring)
  | 0 => exact i.elim0
  | 1 => simp [doubledCross, cross]
  | _ + 4 => simp [doubledCross, cross]

theorem wave_doubleCurl {d : Nat} (hd : d = 2 ∨ d = 3) (w : PlaneWave d) (m : Tensor) (x : Fin d → ℝ) :
    curlH (fun y => m.applyCurl (curlE w.field y)) x = w.fieldDoubleCurl x m := by
  funext i
  have h : (fun y => m.applyCurl (curlE w.field y)) = fun y i => (m.applyCurl (cross (cast w.k) w.E0) i * Complex.I) * w.phaseFactor y := by
    funext y i
    rw [wave_curl hd]
    unfold PlaneWave.fieldCurl
    rw [applyCurl_mul]
    ring
  rw [h, curlH_wave hd, doubledCross_mul]
  unfold PlaneWave.fieldDoubleCurl
  linear_combination (doubledCross (cast w.k) (m.applyCurl (cross (cast w.k) w.E0)) i * w.phaseFactor x) * Complex.I_mul_I

theorem partialDeriv_congr {d : Nat} {f g : (Fin d → ℝ) → ℂ} {U : Set (Fin d → ℝ)} (hU : IsOpen U) (h : ∀ y ∈ U, f y = g y) {x : Fin d → ℝ} (hx : x ∈ U) (j : Fin d) :
    partialDeriv j f x = partialDeriv j g x := by
  unfold partialDeriv
  refine Filter.EventuallyEq.deriv_eq ?_
  have hc : Continuous fun t : ℝ => Function.update x j t := continuous_const.update j continuous_id
  have : (fun t : ℝ => Function.update x j t) ⁻¹' U ∈ nhds (x j) := by
    refine (hU.preimage hc).mem_nhds ?_
    rw [Set.mem_preimage, Function.update_eq_self]; exact hx
  filter_upwards [this] with t ht
  exact h _ ht

theorem curlE_congr {d : Nat} {F G : (Fin d → ℝ) → Fin d → ℂ} {U : Set (Fin d → ℝ)} (hU : IsOpen U) (h : ∀ y ∈ U, F y = G y) {x : Fin d → ℝ} (hx : x ∈ U) :
    curlE F x = curlE G x := by
  have e : ∀ (i j : Fin d), partialDeriv j (fun y => F y i) x = partialDeriv j (fun y => G y i) x :=
    fun i j => partialDeriv_congr hU (fun y hy => congrFun (h y hy) i) hx j
  match d with
  | 2 => simp only [curlE, e]
  | 3 => simp only [curlE, e]
  | 0 => rfl
  | 1 => rfl
  | _ + 4 => rfl

theorem curlH_congr {d : Nat} {F G : (Fin d → ℝ) → Fin d → ℂ} {U : Set (Fin d → ℝ)} (hU : IsOpen U) (h : ∀ y ∈ U, F y = G y) {x : Fin d → ℝ} (hx : x ∈ U) :
    curlH F x = curlH G x := by
  match d with
  | 2 =>
    have e : ∀ (i j : Fin 2), partialDeriv j (fun y => F y i) x = partialDeriv j (fun y => G y i) x :=
      fun i j => partialDeriv_congr hU (fun y hy => congrFun (h y hy) i) hx j
    simp only [curlH, e]
  | 3 => exact curlE_congr hU h hx
  | 0 => rfl
  | 1 => rfl
  | _ + 4 => rfl

theorem partialDeriv_add {d : Nat} {f g : (Fin d → ℝ) → ℂ} {x : Fin d → ℝ} {j : Fin d} (hf : DifferentiableAt ℝ (fun t : ℝ => f (Function.update x j t)) (x j))
    (hg : DifferentiableAt ℝ (fun t : ℝ => g (Function.update x j t)) (x j)) :
    partialDeriv j (fun y => f y + g y) x = partialDeriv j f x + partialDeriv j g x :=
  (hf.hasDerivAt.add hg.hasDerivAt).deriv

theorem curlE_add {d : Nat} {F G : (Fin d → ℝ) → Fin d → ℂ} {x : Fin d → ℝ} (hF : Partials F x) (hG : Partials G x) (i : Fin d) :
    curlE (fun y i => F y i + G y i) x i = curlE F x i + curlE G x i := by
  have e : ∀ (i j : Fin d), partialDeriv j (fun y => F y i + G y i) x = partialDeriv j (fun y => F y i) x + partialDeriv j (fun y => G y i) x :=
    fun i j => partialDeriv_add (hF j i) (hG j i)
  match d with
  | 2 => simp only [curlE, e]; fin_cases i <;> (simp; try ring)
  | 3 => simp only [curlE, e]; fin_cases i <;> (simp; ring)
  | 0 => exact i.elim0
  | 1 => simp [curlE]
  | _ + 4 => simp [curlE]

theorem curlH_add {d : Nat} {F G : (Fin d → ℝ) → Fin d → ℂ} {x : Fin d → ℝ} (hF : Partials F x) (hG : Partials G x) (i : Fin d) :
    curlH (fun y i => F y i + G y i) x i = curlH F x i + curlH G x i := by
  match d with
  | 2 =>
    have e : ∀ (i j : Fin 2), partialDeriv j (fun y => F y i + G y i) x = partialDeriv j (fun y => F y i) x + partialDeriv j (fun y => G y i) x :=
      fun i j => partialDeriv_add (hF j i) (hG j i)
    simp only [curlH, e]; fin_cases i <;> (simp; try ring)
  | 3 => exact curlE_add hF hG i
  | 0 => exact i.elim0
  | 1 => exact curlE_add hF hG i
  | _ + 4 => exact curlE_add hF hG i

theorem amplitude_partials {d : Nat} (w : PlaneWave d) (A : Fin d → ℂ) (x : Fin d → ℝ) : Partials (fun y i => A i * w.phaseFactor y) x :=
  fun j i => ((phase_deriv w j x).const_mul (A i)).differentiableAt

theorem wave_partials {d : Nat} (w : PlaneWave d) (x : Fin d → ℝ) : Partials w.field x := amplitude_partials w w.E0 x

theorem wave_curl_partials {d : Nat} (hd : d = 2 ∨ d = 3) (w : PlaneWave d) (m : Tensor) (x : Fin d → ℝ) : Partials (fun y => m.applyCurl (curlE w.field y)) x := by
  have h : (fun y => m.applyCurl (curlE w.field y)) = fun y i => (m.applyCurl (cross (cast w.k) w.E0) i * Complex.I) * w.phaseFactor y := by
    funext y i
    rw [wave_curl hd]
    unfold PlaneWave.fieldCurl
    rw [applyCurl_mul]
    ring
  rw [h]
  exact amplitude_partials w _ x

theorem residual_add {d : Nat} {eps mu : (Fin d → ℝ) → Tensor} {m : Tensor} {U : Set (Fin d → ℝ)} (hU : IsOpen U) (hm : ∀ y ∈ U, mu y = m) (omega : ℝ)
    {E F : (Fin d → ℝ) → Fin d → ℂ} (hE : ∀ y ∈ U, Partials E y ∧ Partials (fun z => m.applyCurl (curlE E z)) y)
    (hF : ∀ y ∈ U, Partials F y ∧ Partials (fun z => m.applyCurl (curlE F z)) y) {x : Fin d → ℝ} (hx : x ∈ U) (i : Fin d) :
    residual eps mu omega (fun y i => E y i + F y i) x i = residual eps mu omega E x i + residual eps mu omega F x i := by
  have e1 : ∀ G : (Fin d → ℝ) → Fin d → ℂ, curlH (fun y => (mu y).applyCurl (curlE G y)) x = curlH (fun y => m.applyCurl (curlE G y)) x :=
    fun G => curlH_congr hU (fun y hy => by rw [hm y hy]) hx
  have e2 : curlH (fun y => m.applyCurl (curlE (fun y i => E y i + F y i) y)) x =
      curlH (fun y i => m.applyCurl (curlE E y) i + m.applyCurl (curlE F y) i) x := by
    refine curlH_congr hU (fun y hy => ?_) hx
    funext i
    have : curlE (fun y i => E y i + F y i) y = fun i => curlE E y i + curlE F y i := funext (curlE_add (hE y hy).1 (hF y hy).1)
    rw [this, applyCurl_add]
  simp only [residual, e1]
  rw [e2, curlH_add (hE x hx).2 (hF x hx).2, applyDiv_add]
  ring

theorem residual_congr {d : Nat} {eps mu : (Fin d → ℝ) → Tensor} (omega : ℝ) {U : Set (Fin d → ℝ)} (hU : IsOpen U) {E F : (Fin d → ℝ) → Fin d → ℂ}
    (h : ∀ y ∈ U, E y = F y) {x : Fin d → ℝ} (hx : x ∈ U) : residual eps mu omega E x = residual eps mu omega F x := by
  funext i
  have : curlH (fun y => (mu y).applyCurl (curlE E y)) x = curlH (fun y => (mu y).applyCurl (curlE F y)) x :=
    curlH_congr hU (fun y hy => by rw [curlE_congr hU h hy]) hx
  simp only [residual, this, h x hx]

/-- A transversal wave with the wave vector of the material solves the equations. -/
theorem wave_residual {d : Nat} (hd : d = 2 ∨ d = 3) (w : PlaneWave d) (m : Material) (omega : ℝ) (hmu : m.permeability ≠ 0)
    (hk : dotR w.k w.k = omega ^ 2 * (m.permittivity * m.permeability)) (ht : ∑ i, w.E0 i * (w.k i : ℂ) = 0) (x : Fin d → ℝ) (i : Fin d) :
    residual m.eps m.mu omega w.field x i = 0 := by
  have hmu' : (m.permeability : ℂ) ≠ 0 := by exact_mod_cast hmu
  have hk' : ((dotR w.k w.k : ℝ) : ℂ) = (omega : ℂ) ^ 2 * ((m.permittivity : ℂ) * m.permeability) := by rw [hk]; push_cast; ring
  unfold residual
  have : (fun y => (Material.mu m y).applyCurl (curlE w.field y)) = fun y => (Tensor.scalar m.permeability).applyCurl (curlE w.field y) := rfl
  rw [this, wave_doubleCurl hd]
  unfold PlaneWave.fieldDoubleCurl PlaneWave.field
  simp only [Material.eps, Tensor.applyDiv]
  rcases hd with rfl | rfl
  · simp only [dotR, Fin.sum_univ_two] at hk' ht
    push_cast at hk'
    simp only [doubledCross, Tensor.applyCurl, cross, MaxLocal.cast]
    fin_cases i
    · simp
      field_simp
      linear_combination (w.E0 0 * w.phaseFactor x) * hk' - (w.phaseFactor x * w.k 0) * ht
    · simp
      field_simp
      linear_combination (w.E0 1 * w.phaseFactor x) * hk' - (w.phaseFactor x * w.k 1) * ht
  · simp only [dotR, Fin.sum_univ_three] at hk' ht
    push_cast at hk'
    simp only [doubledCross, Tensor.applyCurl, cross, MaxLocal.cast]
    fin_cases i
    · simp
      field_simp
      linear_combination (w.E0 0 * w.phaseFactor x) * hk' - (w.phaseFactor x * w.k 0) * ht
    · simp
      field_simp
      linear_combination (w.E0 1 * w.phaseFactor x) * hk' - (w.phaseFactor x * w.k 1) * ht
    · simp
      field_simp
      linear_combination (w.E0 2 * w.phaseFactor x) * hk' - (w.phaseFactor x * w.k 2) * ht

end Verif.Fields
