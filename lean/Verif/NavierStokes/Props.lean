import Verif.NavierStokes.LemmasFlux
import Mathlib.Algebra.Order.Chebyshev

/-!
# Properties of the Navier-Stokes application: viscous flux and numerical fluxes
-/

namespace Verif.NavierStokes

open Verif.Euler (State)
open Verif.Euler.Spec Spec

variable {d : ℕ}

theorem along_zero (x : Fin d → ℝ) (k : Fin d) : along x k 0 = x := by
  funext i; simp [along]

/-- **C134.**  For every flow field, the tensor applied to the derivatives of the
unknowns is the flux of a Newtonian fluid that conducts heat: the stress belongs to
the derivatives of the velocity, the heat to those of the internal energy.  In any
number of directions. -/
theorem viscous_flux (mu ka : ℝ) (U : (Fin d → ℝ) → State d) (x : Fin d → ℝ)
    (hx : (U x).rho ≠ 0) (J : Mat d)
    (hJ : ∀ v k, HasDerivAt (fun t => get (U (along x k t)) v) (J v k) 0) :
    ∃ (dv : Fin d → Fin d → ℝ) (de : Fin d → ℝ),
      (∀ i k, HasDerivAt (fun t => vel (U (along x k t)) i) (dv i k) 0) ∧
      (∀ k, HasDerivAt (fun t => internal (U (along x k t))) (de k) 0) ∧
      ∀ k, ofVars (fun v => contraction
        (computeEllipticTensor mu ka (computePartialState (U x))) J v k) =
        viscousFlux mu ka (vel (U x)) dv de k := by
  set v := computePartialState (U x) with hv
  have hvm : v.mom = vel (U x) := by
    funext i; simp only [hv, computePartialState, vel]; ring
  have hvr : v.rho = (U x).rho := rfl
  have hve : v.en = (U x).en / (U x).rho := by
    simp only [hv, computePartialState]; ring
  have hdv : ∀ i k, HasDerivAt (fun t => vel (U (along x k t)) i) (gv v J i k) 0 := by
    intro i k
    have h1 := hJ (.mom i) k
    have h2 := hJ .rho k
    have h3 := h1.div h2 (by simp only [get, along_zero]; exact hx)
    refine h3.congr_deriv ?_
    simp only [get, along_zero, gv, hvm, hvr, vel]
    field_simp
  refine ⟨gv v J, ge v J, hdv, ?_, ?_⟩
  · intro k
    have h1 := (hJ .en k).div (hJ .rho k) (by simp only [get, along_zero]; exact hx)
    have h2 : HasDerivAt (fun t => dot (vel (U (along x k t))) (vel (U (along x k t))) / 2)
        (∑ j, v.mom j * gv v J j k) 0 := by
      have h3 : HasDerivAt (fun t => ∑ j, vel (U (along x k t)) j * vel (U (along x k t)) j)
          (∑ j, (gv v J j k * vel (U (along x k 0)) j + vel (U (along x k 0)) j * gv v J j k))
          0 := HasDerivAt.fun_sum fun j _ => (hdv j k).mul (hdv j k)
      refine (h3.div_const 2).congr_deriv ?_
      rw [Finset.sum_div]
      refine Finset.sum_congr rfl fun j _ => ?_
      rw [along_zero, hvm]
      ring
    refine (h1.sub h2).congr_deriv ?_
    simp only [get, along_zero, ge, hve, hvr]
    field_simp
  · intro k
    rw [contraction_eq, hvm]

/-- A flow for `viscous_flux`: the first velocity grows with the second coordinate.
The viscous flux is not zero. -/
example : ∃ (U : (Fin 2 → ℝ) → State 2) (x : Fin 2 → ℝ) (J : Mat 2), (U x).rho ≠ 0 ∧
    (∀ v k, HasDerivAt (fun t => get (U (along x k t)) v) (J v k) 0) ∧ J (.mom 0) 1 = 1 := by
  refine ⟨fun x => ⟨1, ![x 1, 0], 1⟩, fun _ => 0,
    fun v k => if v = .mom 0 ∧ k = 1 then 1 else 0, one_ne_zero, ?_, by simp⟩
  intro v k
  cases v with
  | rho => simpa [get] using hasDerivAt_const (0 : ℝ) (1 : ℝ)
  | en => simpa [get] using hasDerivAt_const (0 : ℝ) (1 : ℝ)
  | mom i =>
    fin_cases i <;> fin_cases k
    · simpa [get, along] using hasDerivAt_const (0 : ℝ) (0 : ℝ)
    · simpa [get, along] using hasDerivAt_id' (0 : ℝ)
    · simpa [get, along] using hasDerivAt_const (0 : ℝ) (0 : ℝ)
    · simpa [get, along] using hasDerivAt_const (0 : ℝ) (0 : ℝ)

/-- **C134, friction only heats.**  In up to three directions the work of the stress
on the flow is never negative. -/
theorem dissipation (mu : ℝ) (hmu : 0 ≤ mu) (hd : d ≤ 3) (dv : Fin d → Fin d → ℝ) :
    0 ≤ ∑ i, ∑ j, stress mu dv i j * dv i j := by
  have e : ∑ i, ∑ j, stress mu dv i j * dv i j =
      mu * ((∑ i, ∑ j, (dv i j + dv j i) ^ 2) / 2 - 2 / 3 * (∑ k, dv k k) ^ 2) := by
    have h1 : ∑ i, ∑ j, stress mu dv i j * dv i j =
        mu * ((∑ i, ∑ j, (dv i j + dv j i) * dv i j) - 2 / 3 * (∑ k, dv k k) ^ 2) := by
      have : ∀ i, ∑ j, stress mu dv i j * dv i j = mu * ((∑ j, (dv i j + dv j i) * dv i j) -
          2 / 3 * (∑ k, dv k k) * dv i i) := by
        intro i
        have h : ∀ j, stress mu dv i j * dv i j = mu * ((dv i j + dv j i) * dv i j) -
            if i = j then mu * (2 / 3 * (∑ k, dv k k) * dv i i) else 0 := by
          intro j
          unfold stress
          by_cases hij : i = j
          · subst hij; simp; ring
          · simp [hij]; ring
        rw [Finset.sum_congr rfl fun j _ => h j, Finset.sum_sub_distrib, ← Finset.mul_sum]
        simp
        ring
      rw [Finset.sum_congr rfl fun i _ => this i, ← Finset.mul_sum, Finset.sum_sub_distrib,
        ← Finset.mul_sum]
      ring
    have h2 : ∑ i, ∑ j, (dv i j + dv j i) * dv i j = (∑ i, ∑ j, (dv i j + dv j i) ^ 2) / 2 := by
      have hs : ∑ i, ∑ j, (dv i j + dv j i) * dv i j = ∑ i, ∑ j, (dv i j + dv j i) * dv j i := by
        rw [Finset.sum_comm]
        exact Finset.sum_congr rfl fun i _ => Finset.sum_congr rfl fun j _ => by ring
      have ht : ∑ i, ∑ j, (dv i j + dv j i) ^ 2 = (∑ i, ∑ j, (dv i j + dv j i) * dv i j) +
          ∑ i, ∑ j, (dv i j + dv j i) * dv j i := by
        simp only [← Finset.sum_add_distrib]
        exact Finset.sum_congr rfl fun i _ => Finset.sum_congr rfl fun j _ => by ring
      rw [ht, ← hs]; ring
    rw [h1, h2]
  rw [e]
  apply mul_nonneg hmu
  have h1 : ∑ i, (2 * dv i i) ^ 2 ≤ ∑ i, ∑ j, (dv i j + dv j i) ^ 2 := by
    refine Finset.sum_le_sum fun i _ => ?_
    have := Finset.single_le_sum (f := fun j => (dv i j + dv j i) ^ 2)
      (fun j _ => sq_nonneg _) (Finset.mem_univ i)
    refine le_trans (le_of_eq ?_) this
    ring
  have h2 : (∑ k, dv k k) ^ 2 ≤ d * ∑ k, dv k k ^ 2 := by
    have := sq_sum_le_card_mul_sum_sq (s := (Finset.univ : Finset (Fin d))) (f := fun k => dv k k)
    simpa using this
  have h3 : (d : ℝ) ≤ 3 := by exact_mod_cast hd
  have h4 : 0 ≤ ∑ k, dv k k ^ 2 := Finset.sum_nonneg fun k _ => sq_nonneg _
  have h5 : ∑ i, (2 * dv i i) ^ 2 = 4 * ∑ k, dv k k ^ 2 := by
    rw [Finset.mul_sum]
    exact Finset.sum_congr rfl fun i _ => by ring
  have h6 : (d : ℝ) * ∑ k, dv k k ^ 2 ≤ 3 * ∑ k, dv k k ^ 2 :=
    mul_le_mul_of_nonneg_right h3 h4
  rw [h5] at h1
  linarith

/-- **C134, rigid motion.**  A flow that only turns and moves has no stress, and if
its temperature is uniform no viscous flux at all. -/
theorem rigid_no_flux (mu ka : ℝ) (u : Fin d → ℝ) (dv : Fin d → Fin d → ℝ)
    (h : ∀ i j, dv i j = -dv j i) (k : Fin d) :
    viscousFlux mu ka u dv (fun _ => 0) k = ⟨0, fun _ => 0, 0⟩ := by
  have h0 : ∀ i, dv i i = 0 := fun i => by have := h i i; linarith
  have hs : ∀ j, stress mu dv j k = 0 := by
    intro j
    unfold stress
    simp only [h0, Finset.sum_const_zero, mul_zero, ite_self]
    rw [h j k]; ring
  simp [viscousFlux, hs]

/-- `viscosity` (`VISCOSITY_SCALING`) and `thermalFactor` of the program,
`Air/AirParameters.h` 53-61 and 77, `StateCoefficientsStructAir.cpp` 189. -/
noncomputable def programViscosity : ℝ := 1 / 100

/-- `GAMMA / (REYNOLDS * PRANDTL)`. -/
noncomputable def programThermal : ℝ := 7 / 5 / (500 * (18 / 25))

/-- **C134, negation.**  The conduction of heat is not tied to the viscosity: the
viscosity has been changed to 0.01 while the conduction still uses the Reynolds
number 500, so that the gas has the Prandtl number 3.6 in place of the 0.72 given
by the parameters (`γ μ / κ`, with `κ` per internal energy). -/
theorem prandtl_wrong : 7 / 5 * programViscosity / programThermal = 18 / 5 ∧
    7 / 5 * programViscosity / programThermal ≠ 18 / 25 := by
  constructor <;> norm_num [programViscosity, programThermal]

/-- **C135.**  The contraction that skips entries known to be zero gives the same
result as the plain one, for every state, every matrix and any number of
directions. -/
theorem contraction_fast (mu ka : ℝ) (v : State d) (x : Mat d) :
    contractionFast (computeEllipticTensor mu ka v) x =
      contraction (computeEllipticTensor mu ka v) x := fast_eq mu ka v x

/-- The skipping is right only for this tensor. -/
theorem contraction_fast_needs_zeros :
    ∃ (a : Tensor 1) (x : Mat 1), contractionFast a x ≠ contraction a x := by
  refine ⟨fun _ _ v w => if v = .rho ∧ w = .rho then 1 else 0, fun _ _ => 1, fun h => ?_⟩
  have := congrFun (congrFun h .rho) 0
  simp [contractionFast, contraction, fastDiagonal, sumVars, single, fastOff] at this

/-! ### Numerical fluxes -/

/-- What the constructors accept: the program ends for states without positive
pressure. -/
theorem air_accepts (g mu ka : ℝ) (hg : 0 < g) (q : State d) (hq : 0 < q.rho) (j : Mat d) :
    (air g mu ka q j).isSome ↔ 0 < press g q := by
  constructor
  · intro h
    by_contra hn
    unfold air at h
    rw [pressure_some, if_pos (Or.inr (not_lt.mp hn))] at h
    simp at h
  · intro h
    obtain ⟨c, hc, _⟩ := air_some g mu ka q j hg ⟨hq, h⟩
    simp [hc]

section

variable {g mu ka : ℝ} {ql qr : State d} {jl jr : Mat d} {l r : Coefs d}

/-- **C136.**  With equal states the local Lax-Friedrichs flux is the flux of the
gas. -/
theorem llf_consistent (hg : 1 < g) (q : State d) (hq : Physical g q)
    (hl : air g mu ka q jl = some l) (hr : air g mu ka q jr = some r) (n : Fin d → ℝ) :
    llf l r n = flux g q n := by
  have fl := air_fits (by linarith) hq hl
  have fr := air_fits (by linarith) hq hr
  apply state_ext
  intro v
  simp only [llf, get_ofVars, fl.state, fr.state, add_mul, Finset.sum_add_distrib, fl.flux, fr.flux]
  ring

theorem speed_neg (q : State d) (n : Fin d → ℝ) :
    normalSpeed q (fun i => -n i) = -normalSpeed q n := by
  unfold normalSpeed
  rw [← Finset.sum_neg_distrib]
  exact Finset.sum_congr rfl fun i _ => by ring

theorem waveLeft_turn (l r : Coefs d) (n : Fin d → ℝ) :
    waveLeft r l (fun i => -n i) = -waveRight l r n := by
  unfold waveLeft waveRight
  rw [speed_neg, speed_neg, max_comm, ← min_neg_neg]
  congr 1 <;> ring

theorem waveRight_turn (l r : Coefs d) (n : Fin d → ℝ) :
    waveRight r l (fun i => -n i) = -waveLeft l r n := by
  unfold waveLeft waveRight
  rw [speed_neg, speed_neg, min_comm, ← max_neg_neg]
  congr 1 <;> ring

/-- **C136, both sides agree.**  With the sides exchanged and the normal turned the
flux is the opposite: what leaves one element enters the other. -/
theorem llf_opposite (l r : Coefs d) (n : Fin d → ℝ) :
    llf r l (fun i => -n i) = scale (-1) (llf l r n) := by
  apply state_ext
  intro v
  simp only [get_scale, llf, get_ofVars, waveLeft_turn, waveRight_turn, abs_neg]
  rw [max_comm |waveRight l r n|]
  have e : ∑ i, (r.hyp v i + l.hyp v i) * -n i = -∑ i, (l.hyp v i + r.hyp v i) * n i := by
    rw [← Finset.sum_neg_distrib]
    exact Finset.sum_congr rfl fun i _ => by ring
  rw [e]
  ring

/-- **C136, enough damping.**  The flux is the mean flux with the jump damped by a
speed that is at least the speed of every wave on either side. -/
theorem llf_damping (hg : 1 < g) (pl : Physical g ql) (pr : Physical g qr)
    (hl : air g mu ka ql jl = some l) (hr : air g mu ka qr jr = some r) (n : Fin d → ℝ) :
    ∃ s, llf l r n = (scale (1 / 2) (plus (flux g ql n) (flux g qr n))).sub
        (scale (s / 2) (qr.sub ql)) ∧
      |dot (vel ql) n| + Real.sqrt (g * press g ql / ql.rho) ≤ s ∧
      |dot (vel qr) n| + Real.sqrt (g * press g qr / qr.rho) ≤ s := by
  have fl := air_fits (by linarith) pl hl
  have fr := air_fits (by linarith) pr hr
  refine ⟨max |waveLeft l r n| |waveRight l r n|, ?_, ?_, ?_⟩
  · apply state_ext
    intro v
    simp only [llf, get_ofVars, fl.state, fr.state, add_mul, Finset.sum_add_distrib, fl.flux,
      fr.flux, get_sub, get_scale, get_plus]
    ring
  all_goals
    rw [← speed_eq]
    rw [waveLeft, waveRight, fl.state, fr.state, fl.sound, fr.sound]
    generalize Real.sqrt (g * press g ql / ql.rho) = al
    generalize Real.sqrt (g * press g qr / qr.rho) = ar
    generalize normalSpeed ql n = vl
    generalize normalSpeed qr n = vr
    have h1 := neg_le_abs (min (vl - al) (vr - ar))
    have h2 := le_abs_self (max (vl + al) (vr + ar))
    have h3 := le_max_left |min (vl - al) (vr - ar)| |max (vl + al) (vr + ar)|
    have h4 := le_max_right |min (vl - al) (vr - ar)| |max (vl + al) (vr + ar)|
    have h5 := min_le_left (vl - al) (vr - ar)
    have h6 := min_le_right (vl - al) (vr - ar)
    have h7 := le_max_left (vl + al) (vr + ar)
    have h8 := le_max_right (vl + al) (vr + ar)
  · rcases abs_cases vl with ⟨h, _⟩ | ⟨h, _⟩ <;> linarith
  · rcases abs_cases vr with ⟨h, _⟩ | ⟨h, _⟩ <;> linarith

/-- The order of the wave speeds of the HLLC flux. -/
theorem hllc_order (hg : 1 < g) (pl : Physical g ql) (pr : Physical g qr)
    (hl : air g mu ka ql jl = some l) (hr : air g mu ka qr jr = some r) (n : Fin d → ℝ) :
    0 < hllcBottom l r n ∧ waveLeft l r n < waveMiddle l r n ∧
      waveMiddle l r n < waveRight l r n := by
  have fl := air_fits (by linarith) pl hl
  have fr := air_fits (by linarith) pr hr
  have sl := sound_sq hg pl
  have sr := sound_sq hg pr
  have h := wave_order (vl := normalSpeed ql n) (vr := normalSpeed qr n) hg pl.1 pr.1 pl.2 pr.2
    sl.1 sr.1 sl.2 sr.2 (min_le_left _ _) (min_le_right _ _) (le_max_left _ _) (le_max_right _ _)
  unfold hllcBottom waveMiddle hllcBottom waveLeft waveRight
  rw [fl.state, fr.state, fl.pressure, fr.pressure, fl.sound, fr.sound]
  exact h

/-- The value of the HLLC flux in terms of the states between the waves. -/
theorem hllc_value (hg : 1 < g) (pl : Physical g ql) (pr : Physical g qr)
    (hl : air g mu ka ql jl = some l) (hr : air g mu ka qr jr = some r) (n : Fin d → ℝ) :
    ∃ f, hllc l r n = some f ∧ ∀ v,
      get f v = 1 / 2 * (get (flux g ql n) v + get (flux g qr n) v +
      (|waveMiddle l r n| - |waveLeft l r n|) *
        get (hllcState l (waveLeft l r n) (waveMiddle l r n) (hllcPressure l r n) n) v +
      |waveLeft l r n| * get ql v +
      (|waveRight l r n| - |waveMiddle l r n|) *
        get (hllcState r (waveRight l r n) (waveMiddle l r n) (hllcPressure l r n) n) v -
      |waveRight l r n| * get qr v) := by
  have fl := air_fits (by linarith) pl hl
  have fr := air_fits (by linarith) pr hr
  obtain ⟨hb, h1, h2⟩ := hllc_order hg pl pr hl hr n
  have hn : ¬ (l.state.rho = 0 ∨ r.state.rho = 0 ∨ hllcBottom l r n = 0 ∨
      waveLeft l r n - waveMiddle l r n = 0 ∨ waveRight l r n - waveMiddle l r n = 0) := by
    rw [fl.state, fr.state]
    push Not
    exact ⟨ne_of_gt pl.1, ne_of_gt pr.1, ne_of_gt hb, by linarith, by linarith⟩
  unfold hllc
  dsimp only
  rw [if_neg hn]
  refine ⟨_, rfl, fun v => ?_⟩
  rw [get_ofVars, fl.flux, fr.flux]
  rw [fl.state, fr.state]

/-- **C137.**  The HLLC flux is never undefined, and it is the flux on the face of a
flow with three waves: outer waves at least as fast as the sound on either side and
a contact between them.  The two states beside the contact move with it, have
positive density and one pressure, the outer waves keep mass, momentum and energy,
and the result belongs to the region the face lies in. -/
theorem hllc_waves (hg : 1 < g) (pl : Physical g ql) (pr : Physical g qr)
    (hl : air g mu ka ql jl = some l) (hr : air g mu ka qr jr = some r) (n : Fin d → ℝ)
    (hn : dot n n = 1) :
    ∃ (sl sm sr p : ℝ) (wl wr : State d),
      sl < sm ∧ sm < sr ∧
      sl ≤ dot (vel ql) n - Real.sqrt (g * press g ql / ql.rho) ∧
      sl ≤ dot (vel qr) n - Real.sqrt (g * press g qr / qr.rho) ∧
      dot (vel ql) n + Real.sqrt (g * press g ql / ql.rho) ≤ sr ∧
      dot (vel qr) n + Real.sqrt (g * press g qr / qr.rho) ≤ sr ∧
      0 < wl.rho ∧ 0 < wr.rho ∧
      dot (vel wl) n = sm ∧ dot (vel wr) n = sm ∧
      (movingFlux sm p wl n).sub (flux g ql n) = scale sl (wl.sub ql) ∧
      (movingFlux sm p wr n).sub (flux g qr n) = scale sr (wr.sub qr) ∧
      hllc l r n = some (if 0 ≤ sl then flux g ql n else if 0 ≤ sm then movingFlux sm p wl n
        else if 0 ≤ sr then movingFlux sm p wr n else flux g qr n) := by
  have fl := air_fits (by linarith) pl hl
  have fr := air_fits (by linarith) pr hr
  have al := sound_sq hg pl
  have ar := sound_sq hg pr
  obtain ⟨hb, h1, h2⟩ := hllc_order hg pl pr hl hr n
  obtain ⟨f, hf, hv⟩ := hllc_value hg pl pr hl hr n
  have eb : hllcBottom l r n = qr.rho * (waveRight l r n - normalSpeed qr n) -
      ql.rho * (waveLeft l r n - normalSpeed ql n) := by
    unfold hllcBottom; rw [fl.state, fr.state]
  have em : waveMiddle l r n * hllcBottom l r n =
      (qr.rho * normalSpeed qr n * (waveRight l r n - normalSpeed qr n) - press g qr) -
      (ql.rho * normalSpeed ql n * (waveLeft l r n - normalSpeed ql n) - press g ql) := by
    unfold waveMiddle
    rw [fl.state, fr.state, fl.pressure, fr.pressure]
    exact div_mul_cancel₀ _ (ne_of_gt hb)
  have ep : hllcPressure l r n = ql.rho * (waveLeft l r n - normalSpeed ql n) *
      (waveMiddle l r n - normalSpeed ql n) + press g ql := by
    unfold hllcPressure; rw [fl.state, fl.pressure]
  have ep' : hllcPressure l r n = qr.rho * (waveRight l r n - normalSpeed qr n) *
      (waveMiddle l r n - normalSpeed qr n) + press g qr := by
    rw [ep]
    rw [eb] at em
    linear_combination (-1 : ℝ) * em
  have jl' := fun v => outer_jump fl (s := waveLeft l r n) (sm := waveMiddle l r n)
    (p := hllcPressure l r n) (ne_of_lt h1) n v (ne_of_gt pl.1)
  have jr' := fun v => outer_jump fr (s := waveRight l r n) (sm := waveMiddle l r n)
    (p := hllcPressure l r n) (ne_of_gt h2) n v (ne_of_gt pr.1)
  have e1 : waveLeft l r n ≤ dot (vel ql) n - Real.sqrt (g * press g ql / ql.rho) := by
    rw [← speed_eq, ← fl.sound]
    have := min_le_left (normalSpeed l.state n - l.sound) (normalSpeed r.state n - r.sound)
    rw [← fl.state]; exact this
  have e2 : waveLeft l r n ≤ dot (vel qr) n - Real.sqrt (g * press g qr / qr.rho) := by
    rw [← speed_eq, ← fr.sound]
    have := min_le_right (normalSpeed l.state n - l.sound) (normalSpeed r.state n - r.sound)
    rw [← fr.state]; exact this
  have e3 : dot (vel ql) n + Real.sqrt (g * press g ql / ql.rho) ≤ waveRight l r n := by
    rw [← speed_eq, ← fl.sound]
    have := le_max_left (normalSpeed l.state n + l.sound) (normalSpeed r.state n + r.sound)
    rw [← fl.state]; exact this
  have e4 : dot (vel qr) n + Real.sqrt (g * press g qr / qr.rho) ≤ waveRight l r n := by
    rw [← speed_eq, ← fr.sound]
    have := le_max_right (normalSpeed l.state n + l.sound) (normalSpeed r.state n + r.sound)
    rw [← fr.state]; exact this
  rw [← speed_eq] at e1 e2 e3 e4
  have side : ∀ {q : State d} {j : Mat d} {c : Coefs d} (fc : Fits g mu ka q j c)
      (hq : 0 < q.rho) {s : ℝ},
      s ≠ waveMiddle l r n → 0 < (s - normalSpeed q n) / (s - waveMiddle l r n) →
      hllcPressure l r n = q.rho * (s - normalSpeed q n) *
        (waveMiddle l r n - normalSpeed q n) + press g q →
      0 < (hllcState c s (waveMiddle l r n) (hllcPressure l r n) n).rho ∧
      dot (vel (hllcState c s (waveMiddle l r n) (hllcPressure l r n) n)) n =
        waveMiddle l r n := by
    intro q j c fc hq s hs hpos hp
    generalize waveMiddle l r n = sm at *
    generalize hllcPressure l r n = p at *
    have hsm : s - sm ≠ 0 := sub_ne_zero.mpr hs
    have hrho : (hllcState c s sm p n).rho = (s - normalSpeed q n) / (s - sm) * q.rho := by
      simp only [hllcState, fc.state]; ring
    have hr : 0 < (hllcState c s sm p n).rho := by rw [hrho]; exact mul_pos hpos hq
    refine ⟨hr, ?_⟩
    have hd : dot q.mom n = q.rho * normalSpeed q n := by
      rw [speed_eq, show vel q = fun i => q.mom i / q.rho from rfl, Euler.dot_div]
      have := ne_of_gt hq
      field_simp
    have hm : dot (hllcState c s sm p n).mom n = sm * (hllcState c s sm p n).rho := by
      have : (hllcState c s sm p n).mom = fun i =>
          (s - normalSpeed q n) / (s - sm) * q.mom i + (p - press g q) / (s - sm) * n i := by
        funext i
        simp only [hllcState, fc.state, fc.pressure]
        ring
      rw [this, Euler.dot_lin, hn, hd, hrho, hp]
      field_simp
      ring
    rw [show vel (hllcState c s sm p n) = fun i => (hllcState c s sm p n).mom i /
      (hllcState c s sm p n).rho from rfl, Euler.dot_div, hm]
    exact mul_div_cancel_right₀ _ (ne_of_gt hr)
  obtain ⟨rl, ml⟩ := side fl pl.1 (ne_of_lt h1)
    (div_pos_of_neg_of_neg (by linarith [al.1]) (by linarith)) ep
  obtain ⟨rr, mr⟩ := side fr pr.1 (ne_of_gt h2)
    (div_pos (by linarith [ar.1]) (by linarith)) ep'
  rw [speed_eq] at e1 e2 e3 e4
  refine ⟨waveLeft l r n, waveMiddle l r n, waveRight l r n, hllcPressure l r n, _, _, h1, h2,
    e1, e2, e3, e4, rl, rr, ml, mr, ?_, ?_, ?_⟩
  · apply state_ext; intro v; rw [get_sub, get_scale, get_sub]; exact jl' v
  · apply state_ext; intro v; rw [get_sub, get_scale, get_sub]; exact jr' v
  · rw [hf]
    congr 1
    apply state_ext
    intro v
    rw [hv v]
    have a1 := jl' v
    have a2 := jr' v
    have b1 : get (movingFlux (waveMiddle l r n) (hllcPressure l r n)
        (hllcState r (waveRight l r n) (waveMiddle l r n) (hllcPressure l r n) n) n) v -
        get (movingFlux (waveMiddle l r n) (hllcPressure l r n)
        (hllcState l (waveLeft l r n) (waveMiddle l r n) (hllcPressure l r n) n) n) v =
        waveMiddle l r n *
        (get (hllcState r (waveRight l r n) (waveMiddle l r n) (hllcPressure l r n) n) v -
        get (hllcState l (waveLeft l r n) (waveMiddle l r n) (hllcPressure l r n) n) v) := by
      cases v <;> simp only [get, movingFlux] <;> ring
    generalize hml : movingFlux (waveMiddle l r n) (hllcPressure l r n)
      (hllcState l (waveLeft l r n) (waveMiddle l r n) (hllcPressure l r n) n) n = ML at *
    generalize hmr : movingFlux (waveMiddle l r n) (hllcPressure l r n)
      (hllcState r (waveRight l r n) (waveMiddle l r n) (hllcPressure l r n) n) n = MR at *
    generalize get (hllcState l (waveLeft l r n) (waveMiddle l r n) (hllcPressure l r n) n) v = wl
      at *
    generalize get (hllcState r (waveRight l r n) (waveMiddle l r n) (hllcPressure l r n) n) v = wr
      at *
    generalize waveLeft l r n = sl at *
    generalize waveMiddle l r n = sm at *
    generalize waveRight l r n = sr at *
    by_cases c1 : 0 ≤ sl
    · rw [if_pos c1, abs_of_nonneg c1, abs_of_nonneg (c1.trans h1.le),
        abs_of_nonneg (c1.trans (h1.trans h2).le)]
      linarith
    · rw [if_neg c1, abs_of_neg (not_le.mp c1)]
      by_cases c2 : 0 ≤ sm
      · rw [if_pos c2, abs_of_nonneg c2, abs_of_nonneg (c2.trans h2.le)]
        linarith
      · rw [if_neg c2, abs_of_neg (not_le.mp c2)]
        by_cases c3 : 0 ≤ sr
        · rw [if_pos c3, abs_of_nonneg c3]
          linarith
        · rw [if_neg c3, abs_of_neg (not_le.mp c3)]
          linarith

/-- States for `hllc_waves`: they differ in everything. -/
example : ∃ (l r : Coefs 2), air (7 / 5) 1 1 ⟨1, ![1, 2], 10⟩ (fun _ _ => 1) = some l ∧
    air (7 / 5) 1 1 ⟨2, ![-1, 3], 20⟩ (fun _ _ => 2) = some r ∧ (hllc l r ![3 / 5, 4 / 5]).isSome := by
  have hl : Physical (7 / 5) (⟨1, ![1, 2], 10⟩ : State 2) := by
    constructor <;> norm_num [press, dot, Fin.sum_univ_two]
  have hr : Physical (7 / 5) (⟨2, ![-1, 3], 20⟩ : State 2) := by
    constructor <;> norm_num [press, dot, Fin.sum_univ_two]
  obtain ⟨l, el, _⟩ := air_some (7 / 5) 1 1 _ (fun _ _ => 1) (by norm_num) hl
  obtain ⟨r, er, _⟩ := air_some (7 / 5) 1 1 _ (fun _ _ => 2) (by norm_num) hr
  obtain ⟨sl, sm, sr, p, wl, wr, h⟩ := hllc_waves (by norm_num) hl hr el er ![3 / 5, 4 / 5]
    (by norm_num [dot, Fin.sum_univ_two])
  exact ⟨l, r, el, er, by rw [h.2.2.2.2.2.2.2.2.2.2.2.2]; rfl⟩

/-- **C137, both sides agree**, for any data, also where the flux is undefined. -/
theorem hllc_opposite (l r : Coefs d) (n : Fin d → ℝ) :
    hllc r l (fun i => -n i) = (hllc l r n).map (scale (-1)) := by
  have eb : hllcBottom r l (fun i => -n i) = hllcBottom l r n := by
    unfold hllcBottom
    rw [waveLeft_turn, waveRight_turn, speed_neg, speed_neg]
    ring
  have em : waveMiddle r l (fun i => -n i) = -waveMiddle l r n := by
    unfold waveMiddle
    rw [eb, waveLeft_turn, waveRight_turn, speed_neg, speed_neg]
    ring
  unfold hllc
  dsimp only
  rw [eb, em, waveLeft_turn, waveRight_turn]
  by_cases h : l.state.rho = 0 ∨ r.state.rho = 0 ∨ hllcBottom l r n = 0 ∨
      waveLeft l r n - waveMiddle l r n = 0 ∨ waveRight l r n - waveMiddle l r n = 0
  · rw [if_pos h, if_pos]
    · rfl
    · rcases h with h | h | h | h | h
      · exact Or.inr (Or.inl h)
      · exact Or.inl h
      · exact Or.inr (Or.inr (Or.inl h))
      · exact Or.inr (Or.inr (Or.inr (Or.inr (by linarith))))
      · exact Or.inr (Or.inr (Or.inr (Or.inl (by linarith))))
  · have h' : ¬ (r.state.rho = 0 ∨ l.state.rho = 0 ∨ hllcBottom l r n = 0 ∨
        -waveRight l r n - -waveMiddle l r n = 0 ∨ -waveLeft l r n - -waveMiddle l r n = 0) := by
      push Not at h ⊢
      refine ⟨h.2.1, h.1, h.2.2.1, fun e => h.2.2.2.2 (by linarith), fun e => h.2.2.2.1 (by linarith)⟩
    rw [if_neg h, if_neg h']
    push Not at h
    have hb := h.2.2.1
    have ep : hllcPressure r l (fun i => -n i) = hllcPressure l r n := by
      have hm : waveMiddle l r n * hllcBottom l r n =
          (r.state.rho * normalSpeed r.state n * (waveRight l r n - normalSpeed r.state n) -
            r.pressure) -
          (l.state.rho * normalSpeed l.state n * (waveLeft l r n - normalSpeed l.state n) -
            l.pressure) := by
        unfold waveMiddle
        exact div_mul_cancel₀ _ hb
      unfold hllcPressure
      rw [waveLeft_turn, em, speed_neg]
      unfold hllcBottom at hm
      linear_combination hm
    have es : ∀ (c : Coefs d) (s sm p : ℝ) (v : Var d),
        get (hllcState c (-s) (-sm) p fun i => -n i) v = get (hllcState c s sm p n) v := by
      intro c s sm p v
      have hi : 1 / (-s - -sm) = -(1 / (s - sm)) := by
        rw [show -s - -sm = -(s - sm) by ring, div_neg]
      unfold hllcState
      rw [speed_neg, hi]
      cases v <;> simp only [get] <;> ring
    show some _ = some _
    congr 1
    apply state_ext
    intro v
    have en : ∀ c : Coefs d, ∑ i, c.hyp v i * -n i = -∑ i, c.hyp v i * n i := by
      intro c
      rw [← Finset.sum_neg_distrib]
      exact Finset.sum_congr rfl fun i _ => by ring
    rw [get_scale, get_ofVars, get_ofVars, ep, es, es, en, en, abs_neg, abs_neg, abs_neg]
    ring

/-- **C137, contacts are kept sharp.**  If the states differ only in density, energy
and the velocity along the face, the flux is that of the side the gas comes from:
nothing is smeared.  With equal states this is consistency. -/
theorem hllc_contact (hg : 1 < g) (pl : Physical g ql) (pr : Physical g qr)
    (hl : air g mu ka ql jl = some l) (hr : air g mu ka qr jr = some r) (n : Fin d → ℝ)
    (hv : dot (vel ql) n = dot (vel qr) n) (hp : press g ql = press g qr) :
    hllc l r n = some (if 0 ≤ dot (vel ql) n then flux g ql n else flux g qr n) := by
  have fl := air_fits (by linarith) pl hl
  have fr := air_fits (by linarith) pr hr
  obtain ⟨hb, h1, h2⟩ := hllc_order hg pl pr hl hr n
  obtain ⟨f, hf, hv'⟩ := hllc_value hg pl pr hl hr n
  have em : waveMiddle l r n = dot (vel ql) n := by
    have : waveMiddle l r n * hllcBottom l r n = dot (vel ql) n * hllcBottom l r n := by
      unfold waveMiddle
      rw [div_mul_cancel₀ _ (ne_of_gt hb)]
      unfold hllcBottom
      rw [fl.state, fr.state, fl.pressure, fr.pressure, speed_eq, speed_eq, ← hv, ← hp]
      ring
    exact mul_right_cancel₀ (ne_of_gt hb) this
  have ep : hllcPressure l r n = press g ql := by
    unfold hllcPressure
    rw [em, fl.state, fl.pressure, speed_eq]
    ring
  have ew : ∀ {q : State d} {j : Mat d} {c : Coefs d} (fc : Fits g mu ka q j c) {s : ℝ},
      dot (vel q) n = dot (vel ql) n → press g q = press g ql → s ≠ dot (vel ql) n →
      ∀ v, get (hllcState c s (dot (vel ql) n) (press g ql) n) v = get q v := by
    intro q j c fc s e1 e2 e3 v
    have e4 : s - dot (vel ql) n ≠ 0 := sub_ne_zero.mpr e3
    unfold hllcState
    rw [fc.state, fc.pressure, speed_eq, e1, e2]
    cases v <;> simp only [get] <;> field_simp <;> ring
  rw [hf]
  congr 1
  apply state_ext
  intro v
  rw [hv' v, ep, em]
  rw [em] at h1 h2
  rw [ew fl rfl rfl (ne_of_lt h1), ew fr hv.symm hp.symm (ne_of_gt h2)]
  have hd : ∀ {q : State d}, 0 < q.rho → dot q.mom n = q.rho * dot (vel q) n := by
    intro q hq
    rw [show vel q = fun i => q.mom i / q.rho from rfl, Euler.dot_div]
    have := ne_of_gt hq
    field_simp
  have ed : get (flux g ql n) v - get (flux g qr n) v =
      dot (vel ql) n * (get ql v - get qr v) := by
    cases v with
    | rho => simp only [get, flux]; rw [hd pl.1, hd pr.1, ← hv]; ring
    | mom i => simp only [get, flux]; rw [← hv, ← hp]; ring
    | en => simp only [get, flux]; rw [← hv, ← hp]; ring
  generalize dot (vel ql) n = vn at *
  by_cases c : 0 ≤ vn
  · rw [if_pos c, abs_of_nonneg c]; linarith
  · rw [if_neg c, abs_of_neg (not_le.mp c)]; linarith

/-- **C137, consistency.** -/
theorem hllc_consistent (hg : 1 < g) (q : State d) (hq : Physical g q)
    (hl : air g mu ka q jl = some l) (hr : air g mu ka q jr = some r) (n : Fin d → ℝ) :
    hllc l r n = some (flux g q n) := by
  rw [hllc_contact hg hq hq hl hr n rfl rfl, ite_self]

/-- The Lax-Friedrichs flux does smear contacts: at rest a jump of the density gives
a flux of mass. -/
theorem llf_smears : ∃ (ql qr : State 1) (l r : Coefs 1), Physical (7 / 5) ql ∧
    Physical (7 / 5) qr ∧ air (7 / 5) 0 0 ql (fun _ _ => 0) = some l ∧
    air (7 / 5) 0 0 qr (fun _ _ => 0) = some r ∧ dot (vel ql) ![1] = 0 ∧
    dot (vel qr) ![1] = 0 ∧ press (7 / 5) ql = press (7 / 5) qr ∧ (llf l r ![1]).rho ≠ 0 := by
  have hl : Physical (7 / 5) (⟨1, ![0], 1⟩ : State 1) := by
    constructor <;> norm_num [press, dot]
  have hr : Physical (7 / 5) (⟨2, ![0], 1⟩ : State 1) := by
    constructor <;> norm_num [press, dot]
  obtain ⟨l, el, fl⟩ := air_some (7 / 5) 0 0 (⟨1, ![0], 1⟩ : State 1) (fun _ _ => 0) (by norm_num) hl
  obtain ⟨r, er, fr⟩ := air_some (7 / 5) 0 0 (⟨2, ![0], 1⟩ : State 1) (fun _ _ => 0) (by norm_num) hr
  refine ⟨_, _, l, r, hl, hr, el, er, by norm_num [dot, vel], by norm_num [dot, vel],
    by norm_num [press, dot], ?_⟩
  obtain ⟨s, hs, h1, h2⟩ := llf_damping (by norm_num) hl hr el er ![1]
  have h0 := (sound_sq (by norm_num : (1 : ℝ) < 7 / 5) hl).1
  have hs0 : 0 < s := lt_of_lt_of_le (add_pos_of_nonneg_of_pos (abs_nonneg _) h0) h1
  rw [hs]
  simp only [State.sub, scale, plus, flux, dot]
  norm_num
  exact ne_of_gt hs0

end

end Verif.NavierStokes
