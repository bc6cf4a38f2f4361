import Verif.NavierStokes.Lemmas
import Verif.Euler.LemmasFlux

set_option linter.all false

namespace Verif.NavierStokes

open Verif.Euler (State)
open Verif.Euler.Spec Spec

variable {d : ℕ}

theorem state_ext {a b : State d} (h : ∀ v, get a v = get b v) : a = b := by
  rcases a with ⟨a1, a2, a3⟩
  rcases b with ⟨b1, b2, b3⟩
  have h1 := h .rho
  have h2 : a2 = b2 := funext fun i => h (.mom i)
  have h3 := h .en
  simp only [get] at h1 h3
  rw [h1, h2, h3]

@[simp] theorem get_ofVars (f : Var d → ℝ) (v : Var d) : get (ofVars f) v = f v := by
  cases v <;> rfl

@[simp] theorem ofVars_get (q : State d) : ofVars (get q) = q := by
  apply state_ext; intro v; simp

theorem get_scale (c : ℝ) (q : State d) (v : Var d) : get (scale c q) v = c * get q v := by
  cases v <;> rfl

theorem get_plus (a b : State d) (v : Var d) : get (plus a b) v = get a v + get b v := by
  cases v <;> rfl

theorem get_sub (a b : State d) (v : Var d) : get (a.sub b) v = get a v - get b v := by
  cases v <;> rfl

/-- What a struct holds for a physical state. -/
structure Fits (g mu ka : ℝ) (q : State d) (j : Mat d) (c : Coefs d) : Prop where
  state : c.state = q
  jac : c.jac = j
  pressure : c.pressure = press g q
  sound : c.sound = Real.sqrt (g * press g q / q.rho)
  flux : ∀ n v, ∑ i, c.hyp v i * n i = get (flux g q n) v
  tensor : c.tensor = computeEllipticTensor mu ka (computePartialState q)

theorem hyp_flux (g : ℝ) (q : State d) (hq : q.rho ≠ 0) (n : Fin d → ℝ) (v : Var d) :
    ∑ i, computeHyperbolicMatrix q (press g q) v i * n i = get (flux g q n) v := by
  cases v with
  | rho => simp [computeHyperbolicMatrix, get, flux, dot]
  | mom j =>
    simp only [computeHyperbolicMatrix, get, flux, dot, vel, add_mul, Finset.sum_add_distrib,
      ite_mul, zero_mul, Finset.sum_ite_eq, Finset.mem_univ, if_true, Finset.mul_sum]
    congr 1
    exact Finset.sum_congr rfl fun i _ => by ring
  | en =>
    simp only [computeHyperbolicMatrix, get, flux, dot, vel, Finset.mul_sum]
    exact Finset.sum_congr rfl fun i _ => by ring

theorem pressure_some (g : ℝ) (q : State d) :
    computePressure g q = if q.rho = 0 ∨ press g q ≤ 0 then none else some (press g q) := by
  rfl

theorem air_some (g mu ka : ℝ) (q : State d) (j : Mat d) (hg : 0 < g) (h : Physical g q) :
    ∃ c, air g mu ka q j = some c ∧ Fits g mu ka q j c := by
  have h0 : q.rho ≠ 0 := ne_of_gt h.1
  have hs : ¬ g * press g q / q.rho < 0 :=
    not_lt_of_ge (div_nonneg (mul_nonneg hg.le h.2.le) h.1.le)
  refine ⟨⟨q, j, press g q, Real.sqrt (g * press g q / q.rho),
    computeHyperbolicMatrix q (press g q),
    computeEllipticTensor mu ka (computePartialState q)⟩, ?_, ?_⟩
  · unfold air
    rw [pressure_some, if_neg (by push Not; exact ⟨h0, h.2⟩)]
    show (computeSpeedOfSound g q (press g q)).bind _ = _
    unfold computeSpeedOfSound
    rw [if_neg hs]
    rfl
  · exact ⟨rfl, rfl, rfl, rfl, hyp_flux g q h0, rfl⟩

theorem air_fits {g mu ka : ℝ} {q : State d} {j : Mat d} {c : Coefs d} (hg : 0 < g)
    (h : Physical g q) (hc : air g mu ka q j = some c) : Fits g mu ka q j c := by
  obtain ⟨c', h1, h2⟩ := air_some g mu ka q j hg h
  rw [hc] at h1
  cases h1
  exact h2

theorem speed_eq (q : State d) (n : Fin d → ℝ) : normalSpeed q n = dot (vel q) n := by
  unfold normalSpeed dot vel
  exact Finset.sum_congr rfl fun i _ => by ring

theorem sound_sq {g : ℝ} (hg : 1 < g) {q : State d} (h : Physical g q) :
    0 < Real.sqrt (g * press g q / q.rho) ∧
      q.rho * Real.sqrt (g * press g q / q.rho) ^ 2 = g * press g q := by
  have hp : 0 < g * press g q / q.rho := div_pos (mul_pos (by linarith) h.2) h.1
  refine ⟨Real.sqrt_pos.mpr hp, ?_⟩
  rw [Real.sq_sqrt hp.le]
  have := ne_of_gt h.1
  field_simp

/-- The speeds of the waves, as numbers. -/
theorem wave_order {g rl rr pl pr vl vr al ar : ℝ} (hg : 1 < g) (hrl : 0 < rl) (hrr : 0 < rr)
    (hpl : 0 < pl) (hpr : 0 < pr) (hal : 0 < al) (har : 0 < ar) (el : rl * al ^ 2 = g * pl)
    (er : rr * ar ^ 2 = g * pr) {sl sr : ℝ} (hsl : sl ≤ vl - al) (hsl' : sl ≤ vr - ar)
    (hsr : vl + al ≤ sr) (hsr' : vr + ar ≤ sr) :
    let bot := rr * (sr - vr) - rl * (sl - vl)
    let sm := ((rr * vr * (sr - vr) - pr) - (rl * vl * (sl - vl) - pl)) / bot
    0 < bot ∧ sl < sm ∧ sm < sr := by
  intro bot sm
  have hb : 0 < bot := by
    have h1 := mul_pos hrr (by linarith : 0 < sr - vr)
    have h2 := mul_pos hrl (by linarith : 0 < vl - sl)
    show 0 < rr * (sr - vr) - rl * (sl - vl)
    nlinarith
  refine ⟨hb, ?_, ?_⟩
  · show sl < _ / bot
    rw [lt_div_iff₀ hb]
    show sl * (rr * (sr - vr) - rl * (sl - vl)) < _
    have h1 : ar * ar ≤ (sr - vr) * (vr - sl) :=
      mul_le_mul (by linarith) (by linarith) har.le (by linarith)
    have h2 : rr * (ar * ar) ≤ rr * ((sr - vr) * (vr - sl)) := mul_le_mul_of_nonneg_left h1 hrr.le
    have h3 : 0 ≤ rl * ((vl - sl) * (vl - sl)) := mul_nonneg hrl.le (mul_self_nonneg _)
    have h4 : pr < g * pr := by nlinarith
    nlinarith
  · show _ / bot < sr
    rw [div_lt_iff₀ hb]
    show _ < sr * (rr * (sr - vr) - rl * (sl - vl))
    have h1 : al * al ≤ (vl - sl) * (sr - vl) :=
      mul_le_mul (by linarith) (by linarith) hal.le (by linarith)
    have h2 : rl * (al * al) ≤ rl * ((vl - sl) * (sr - vl)) := mul_le_mul_of_nonneg_left h1 hrl.le
    have h3 : 0 ≤ rr * ((sr - vr) * (sr - vr)) := mul_nonneg hrr.le (mul_self_nonneg _)
    have h4 : pl < g * pl := by nlinarith
    nlinarith

/-- The jump over an outer wave. -/
theorem outer_jump {g mu ka : ℝ} {q : State d} {j : Mat d} {c : Coefs d} (hf : Fits g mu ka q j c)
    {s sm p : ℝ} (hs : s ≠ sm) (n : Fin d → ℝ) (v : Var d) (hq : q.rho ≠ 0) :
    get (movingFlux sm p (hllcState c s sm p n) n) v - get (flux g q n) v =
      s * (get (hllcState c s sm p n) v - get q v) := by
  have h : s - sm ≠ 0 := sub_ne_zero.mpr hs
  have e := speed_eq q n
  have hd : dot q.mom n = q.rho * dot (vel q) n := by
    rw [show vel q = fun i => q.mom i / q.rho from rfl, Euler.dot_div]
    field_simp
  unfold hllcState movingFlux flux
  rw [hf.state, hf.pressure, e]
  cases v with
  | rho =>
    simp only [get]
    rw [hd]
    field_simp
    ring
  | mom i =>
    simp only [get]
    field_simp
    ring
  | en =>
    simp only [get]
    field_simp
    ring

end Verif.NavierStokes
