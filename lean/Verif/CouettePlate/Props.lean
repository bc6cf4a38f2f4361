import Verif.CouettePlate.Model
import Mathlib.Tactic.NormNum
import Mathlib.Tactic.Ring
import Mathlib.Tactic.FieldSimp
import Mathlib.Tactic.Positivity
import Mathlib.Tactic.Linarith

/-!
# Theorems about the plates

C192: velocity and flux; C193: temperature and pressure.
-/

namespace Verif.CouettePlate

open Verif.Euler (State)

variable {n : ℕ}

/-- **C192.** The velocity of the plate at height `y` starts at zero. -/
theorem velocity_start (s : Setup) (y : ℝ) : velocityBoundary s 0 y = 0 := by
  simp [velocityBoundary]

/-- **C192.** The velocity tends to the one given for the plate: the upper one above 0.8, else the lower one. -/
theorem velocity_limit (s : Setup) (y : ℝ) (hs : s.tc ≠ 0) :
    Filter.Tendsto (fun t => velocityBoundary s t y) Filter.atTop
      (nhds (if y > 4 / 5 then s.uTop else s.uBottom)) := by
  have h1 : Filter.Tendsto (fun t : ℝ => -(t * t / (s.tc * s.tc))) Filter.atTop Filter.atBot := by
    apply Filter.tendsto_neg_atTop_atBot.comp
    apply Filter.Tendsto.atTop_div_const (mul_self_pos.2 hs)
    exact Filter.tendsto_id.atTop_mul_atTop₀ Filter.tendsto_id
  have h2 := Real.tendsto_exp_atBot.comp h1
  have h3 : ∀ u : ℝ, Filter.Tendsto (fun t : ℝ => u - u * Real.exp (-(t * t / (s.tc * s.tc)))) Filter.atTop
      (nhds u) := by
    intro u
    have := (h2.const_mul u).const_sub u
    simpa using this
  have h8 : (0.8 : ℝ) = 4 / 5 := by norm_num
  unfold velocityBoundary
  simp only [h8]
  split
  · exact h3 _
  · exact h3 _

/-- **C192.** On the way it lies between zero and the velocity of the plate. -/
theorem velocity_between (s : Setup) (t y : ℝ) :
    ∃ c, 0 ≤ c ∧ c < 1 ∧ velocityBoundary s t y = c * (if y > 4 / 5 then s.uTop else s.uBottom) := by
  have h8 : (0.8 : ℝ) = 4 / 5 := by norm_num
  refine ⟨1 - Real.exp (-(t * t / (s.tc * s.tc))), ?_, ?_, ?_⟩
  · have : Real.exp (-(t * t / (s.tc * s.tc))) ≤ 1 :=
      Real.exp_le_one_iff.2 (neg_nonpos.2 (div_nonneg (mul_self_nonneg _) (mul_self_nonneg _)))
    linarith
  · have := Real.exp_pos (-(t * t / (s.tc * s.tc)))
    linarith
  · unfold velocityBoundary
    simp only [h8]
    split <;> ring

theorem sum_plate (s : Setup) (t y : ℝ) (q : State (n + 2)) :
    ∑ i, (stateBoundary s t y q).mom i * (stateBoundary s t y q).mom i
      = (q.rho * velocityBoundary s t y) ^ 2 := by
  rw [Finset.sum_eq_single 0]
  · simp only [stateBoundary, if_true]; ring
  · intro i _ hi; simp [stateBoundary, hi]
  · simp

/-- **C193.** When the pressure at the plate exists, and its value. -/
theorem pressure_iff (s : Setup) (t y : ℝ) (q : State (n + 2)) (p : ℝ) :
    computePressure s (stateBoundary s t y q) = some p ↔
      q.rho ≠ 0 ∧ 0 ≤ p ∧ p = (s.gamma - 1) * (q.en - q.rho * (velocityBoundary s t y) ^ 2 / 2) := by
  unfold computePressure
  simp only [sum_plate]
  have hr : (stateBoundary s t y q).rho = q.rho := rfl
  have he : (stateBoundary s t y q).en = q.en := rfl
  rw [hr, he]
  by_cases h : q.rho = 0
  · simp [h]
  have h5 : (s.gamma - 1) * (q.en - 0.5 * (1.0 / q.rho) * (q.rho * velocityBoundary s t y) ^ 2)
      = (s.gamma - 1) * (q.en - q.rho * (velocityBoundary s t y) ^ 2 / 2) := by
    rw [show (0.5 : ℝ) = 1 / 2 by norm_num, show (1.0 : ℝ) = 1 by norm_num]
    field_simp
  rw [h5]
  split
  · rename_i h'
    rcases h' with h' | h'
    · exact absurd h' h
    · constructor
      · intro h2; simp at h2
      · rintro ⟨-, h2, h3⟩; rw [h3] at h2; exact absurd h' (not_lt.2 h2)
  · rename_i h'
    push Not at h'
    constructor
    · intro h2
      obtain rfl : _ = p := by simpa using h2
      exact ⟨h, h'.2, rfl⟩
    · rintro ⟨-, -, h3⟩
      rw [h3]

/-- **C192.** Horizontal plates are closed: no mass and no energy passes, and the momentum changes by the pressure
alone, whatever the state inside. -/
theorem plate_closed {s : Setup} {t y : ℝ} {q f : State (n + 2)} {normal : Fin (n + 2) → ℝ} (hn : normal 0 = 0)
    (h : plateFlux s t y q normal = some f) :
    f.rho = 0 ∧ f.en = 0 ∧ ∃ p, computePressure s (stateBoundary s t y q) = some p
      ∧ ∀ j, f.mom j = p * normal j := by
  unfold plateFlux at h
  cases hp : computePressure s (stateBoundary s t y q) with
  | none => simp [hp] at h
  | some p =>
    simp only [hp, Option.bind_eq_bind, Option.bind_some] at h
    unfold OldNavierStokes.fluxFunction at h
    dsimp only at h
    split at h
    · simp at h
    have key : ∀ i, (stateBoundary s t y q).mom i * normal i = 0 := by
      intro i
      by_cases hi : i = 0
      · rw [hi, hn, mul_zero]
      · simp [stateBoundary, hi]
    obtain rfl : _ = f := by simpa using h
    refine ⟨?_, ?_, p, rfl, ?_⟩ <;> dsimp only
    · exact Finset.sum_eq_zero fun i _ => key i
    · apply Finset.sum_eq_zero
      intro i _
      have := key i
      rw [show ∀ a b c e : ℝ, a * b * c * e = a * c * (b * e) by intros; ring, this, mul_zero]
    · intro j
      have : ∑ i, (stateBoundary s t y q).mom j * (stateBoundary s t y q).mom i * (1.0 / (stateBoundary s t y q).rho)
          * normal i = 0 := by
        apply Finset.sum_eq_zero
        intro i _
        rw [show ∀ a b c e : ℝ, a * b * c * e = a * c * (b * e) by intros; ring, key i, mul_zero]
      simp only [this, zero_add]

/-- **C193, partial.** The gas at the plate has the temperature of the plate exactly if the energy inside happens to
be that of the plate. Missing: all other states (`temperature_free`). -/
theorem temperature_partial {s : Setup} {t y : ℝ} {q : State (n + 2)} {p : ℝ} (hg : s.gamma ≠ 1) (hc : s.cv ≠ 0)
    (hp : computePressure s (stateBoundary s t y q) = some p) :
    computeTemperature s (stateBoundary s t y q) p = temperatureBoundary s y ↔
      q.en = q.rho * (s.cv * (if y > 4 / 5 then s.tTop else s.tBottom) + (velocityBoundary s t y) ^ 2 / 2) := by
  obtain ⟨hr, -, rfl⟩ := (pressure_iff s t y q p).1 hp
  have h1 : s.gamma - 1 ≠ 0 := sub_ne_zero.2 hg
  have h8 : (0.8 : ℝ) = 4 / 5 := by norm_num
  unfold computeTemperature temperatureBoundary
  rw [show (stateBoundary s t y q).rho = q.rho from rfl, h8, div_eq_iff (by positivity)]
  generalize (if y > 4 / 5 then s.tTop else s.tBottom) = T
  constructor
  · intro h
    have : q.en - q.rho * velocityBoundary s t y ^ 2 / 2 = T * (s.cv * q.rho) := by
      apply mul_left_cancel₀ h1
      rw [h]; ring
    linarith
  · intro h
    rw [h]; ring

/-- **C193, negation.** The temperatures given for the plates have no influence on the state, the pressure, the
temperature and the inviscid flux at them. -/
theorem temperature_free (s : Setup) (t y a b : ℝ) (q : State (n + 2)) (normal : Fin (n + 2) → ℝ) :
    stateBoundary { s with tTop := a, tBottom := b } t y q = stateBoundary s t y q
    ∧ computePressure { s with tTop := a, tBottom := b } (stateBoundary s t y q)
      = computePressure s (stateBoundary s t y q)
    ∧ (∀ p, computeTemperature { s with tTop := a, tBottom := b } (stateBoundary s t y q) p
      = computeTemperature s (stateBoundary s t y q) p)
    ∧ plateFlux { s with tTop := a, tBottom := b } t y q normal = plateFlux s t y q normal :=
  ⟨rfl, rfl, fun _ => rfl, rfl⟩

/-- **C193, negation.** Whatever the energy of the gas inside (also at rest, with positive pressure), the program stops
if the plate is fast enough: the energy is copied from inside and the plate's kinetic energy is taken out of it. -/
theorem fast_plate_stops (s : Setup) (t y : ℝ) (hg : 1 < s.gamma) (q : State (n + 2)) (hr : 0 < q.rho)
    (normal : Fin (n + 2) → ℝ) (hv : 2 * q.en < q.rho * (velocityBoundary s t y) ^ 2) :
    plateFlux s t y q normal = none := by
  have : computePressure s (stateBoundary s t y q) = none := by
    by_contra hne
    obtain ⟨p, hp⟩ := Option.ne_none_iff_exists'.1 hne
    obtain ⟨-, h0, rfl⟩ := (pressure_iff s t y q p).1 hp
    have h1 : 0 < s.gamma - 1 := by linarith
    have := nonneg_of_mul_nonneg_right h0 h1
    linarith
  simp [plateFlux, this]

/-- **C193.** Plates at rest, as in the header, accept every gas with density and no negative energy. -/
theorem rest_accepts (s : Setup) (t y : ℝ) (hu : s.uTop = 0) (hb : s.uBottom = 0) (hg : 1 < s.gamma)
    (q : State (n + 2)) (hr : 0 < q.rho) (he : 0 ≤ q.en) (normal : Fin (n + 2) → ℝ) :
    (plateFlux s t y q normal).isSome := by
  have hv : velocityBoundary s t y = 0 := by simp [velocityBoundary, hu, hb]
  have hp : computePressure s (stateBoundary s t y q) = some ((s.gamma - 1) * q.en) := by
    rw [pressure_iff]
    refine ⟨hr.ne', mul_nonneg (by linarith) he, ?_⟩
    rw [hv]; ring
  have hr' : (stateBoundary s t y q).rho ≠ 0 := hr.ne'
  simp [plateFlux, hp, OldNavierStokes.fluxFunction, hr']

/-- A case: a gas at rest of energy one and a plate accelerated to velocity four. -/
example : ∃ (s : Setup) (t : ℝ) (q : State 2), 1 < s.gamma ∧ 0 < q.rho ∧ 0 < q.en
    ∧ 2 * q.en < q.rho * (velocityBoundary s t 1) ^ 2 := by
  have h := velocity_limit ⟨4, 0, 288, 288, 1, 718, 7 / 5⟩ 1 one_ne_zero
  rw [if_pos (by norm_num)] at h
  obtain ⟨t, ht⟩ := (h.eventually (lt_mem_nhds (show (2 : ℝ) < 4 by norm_num))).exists
  refine ⟨⟨4, 0, 288, 288, 1, 718, 7 / 5⟩, t, ⟨1, fun _ => 0, 1⟩, ?_, ?_, ?_, ?_⟩
  · norm_num
  · norm_num
  · norm_num
  · simp only
    nlinarith

end Verif.CouettePlate
