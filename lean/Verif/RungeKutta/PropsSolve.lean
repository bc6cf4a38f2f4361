import Verif.RungeKutta.Lemmas
import Mathlib.Tactic.Positivity

/-!
# C42: the fixed step loop of `solve` ends at the final time and writes the requested frames
-/
namespace Verif.RungeKutta

theorem numberOfTimeSteps_eq (T dt : ℝ) (frames : Nat) (hf : 0 < frames) :
    numberOfTimeSteps T dt frames =
      ⌈T / dt⌉₊ + (frames - ⌈T / dt⌉₊ % frames) % frames := by
  simp [numberOfTimeSteps, hf]

/-- The number of steps is the least multiple of the number of frames that is at least
`⌈T / dt⌉`. -/
theorem numberOfTimeSteps_spec (T dt : ℝ) (frames : Nat) (hf : 0 < frames) :
    frames ∣ numberOfTimeSteps T dt frames ∧
    ⌈T / dt⌉₊ ≤ numberOfTimeSteps T dt frames ∧
    numberOfTimeSteps T dt frames < ⌈T / dt⌉₊ + frames := by
  rw [numberOfTimeSteps_eq T dt frames hf]
  generalize ⌈T / dt⌉₊ = n
  have h1 : n % frames < frames := Nat.mod_lt _ hf
  refine ⟨?_, Nat.le_add_right _ _, Nat.add_lt_add_left (Nat.mod_lt _ hf) _⟩
  rw [Nat.dvd_iff_mod_eq_zero, Nat.add_mod, Nat.mod_mod]
  rcases Nat.eq_zero_or_pos (n % frames) with h | h
  · simp [h]
  · rw [Nat.mod_eq_of_lt (a := frames - n % frames) (by omega)]
    rw [show n % frames + (frames - n % frames) = frames by omega, Nat.mod_self]

/-- The state of the loop after `n` steps of size `h`, with a frame every `q` steps. -/
noncomputable def atStep (t0 h : ℝ) (q n : Nat) : SolveState where
  time := t0 + n * h
  outputTime := some (t0 + ((n / q + 1 : ℕ) : ℝ) * (q * h))
  steps := n
  frames := n / q
  written := ((List.range (n / q)).map fun i => t0 + ((i + 1 : ℕ) : ℝ) * (q * h)).reverse

theorem solveRound_atStep (t0 h : ℝ) (q n : Nat) (hq : 0 < q) (hh : (1e-12 : ℝ) < h) :
    solveRound (q * h) h (atStep t0 h q n) = atStep t0 h q (n + 1) := by
  have hh0 : (0 : ℝ) < h := lt_trans (by norm_num) hh
  have hdm := Nat.div_add_mod n q
  have hlt := Nat.mod_lt n hq
  have etime : t0 + (n : ℝ) * h + h = t0 + ((n + 1 : ℕ) : ℝ) * h := by push_cast; ring
  by_cases hmul : q ∣ n + 1
  · -- a frame is written
    obtain ⟨r, hr⟩ := hmul
    have hr0 : 0 < r := by
      rcases Nat.eq_zero_or_pos r with h' | h'
      · subst h'; omega
      · exact h'
    have hdiv1 : (n + 1) / q = r := by rw [hr, Nat.mul_div_cancel_left _ hq]
    have hdiv0 : n / q + 1 = r := by
      have : n / q < r := (Nat.div_lt_iff_lt_mul hq).2 (by rw [Nat.mul_comm]; omega)
      have h2 : (r - 1) ≤ n / q := (Nat.le_div_iff_mul_le hq).2 (by
        obtain ⟨s, rfl⟩ : ∃ s, r = s + 1 := ⟨r - 1, by omega⟩
        rw [Nat.mul_add] at hr
        simp only [Nat.add_sub_cancel]
        rw [Nat.mul_comm]
        omega)
      omega
    have et : t0 + ((n + 1 : ℕ) : ℝ) * h = t0 + (r : ℝ) * (q * h) := by
      rw [hr]; push_cast; ring
    unfold solveRound atStep
    simp only [hdiv0, hdiv1, etime]
    rw [if_pos (by rw [et]; linarith [show (0 : ℝ) < 1e-12 by norm_num])]
    have hn : n / q = r - 1 := by omega
    congr 1
    · congr 1; push_cast; ring
    · rw [et]
      obtain ⟨s, rfl⟩ : ∃ s, r = s + 1 := ⟨r - 1, by omega⟩
      have hn' : n / q = s := by omega
      rw [hn', List.range_succ, List.map_append, List.reverse_append]
      simp
  · have hdiv : (n + 1) / q = n / q := Nat.succ_div_of_not_dvd hmul
    have hlt2 : n + 1 < (n / q + 1) * q := by
      have h1 : n + 1 ≤ (n / q + 1) * q := by
        rw [Nat.add_mul, Nat.one_mul, Nat.mul_comm (n / q)]; omega
      rcases Nat.lt_or_eq_of_le h1 with h2 | h2
      · exact h2
      · exact absurd ⟨n / q + 1, by rw [h2, Nat.mul_comm]⟩ hmul
    have hreal : ((n + 1 : ℕ) : ℝ) + 1 ≤ ((n / q + 1 : ℕ) : ℝ) * (q : ℝ) := by
      exact_mod_cast hlt2
    unfold solveRound atStep
    simp only [etime, hdiv]
    rw [if_neg]
    intro hgt
    have := mul_le_mul_of_nonneg_right hreal hh0.le
    have e2 : ((n / q + 1 : ℕ) : ℝ) * (q : ℝ) * h = ((n / q + 1 : ℕ) : ℝ) * (q * h) := by ring
    rw [e2] at this
    nlinarith

theorem solveLoop_atStep (t0 h : ℝ) (q N : Nat) (hq : 0 < q) (hh : (1e-12 : ℝ) < h) :
    ∀ (d n fuel : Nat), n + d = N → d ≤ fuel →
      solveLoop (t0 + N * h) (q * h) h fuel (atStep t0 h q n) = some (atStep t0 h q N) := by
  have hh0 : (0 : ℝ) < h := lt_trans (by norm_num) hh
  intro d
  induction d with
  | zero =>
    intro n fuel hn _
    have : n = N := by omega
    subst this
    have hcond : ¬ ((atStep t0 h q n).time < t0 + n * h - (1e-14 : ℝ)) := by
      simp only [atStep]; intro hc; linarith [show (0 : ℝ) < 1e-14 by norm_num]
    cases fuel <;> simp only [solveLoop] <;> rw [if_neg hcond]
  | succ d ih =>
    intro n fuel hn hfuel
    obtain ⟨f, rfl⟩ : ∃ f, fuel = f + 1 := ⟨fuel - 1, by omega⟩
    have hcond : (atStep t0 h q n).time < t0 + N * h - (1e-14 : ℝ) := by
      simp only [atStep]
      have : (n : ℝ) + 1 ≤ N := by exact_mod_cast (by omega : n + 1 ≤ N)
      have := mul_le_mul_of_nonneg_right this hh0.le
      have h14 : (1e-14 : ℝ) < 1e-12 := by norm_num
      nlinarith
    simp only [solveLoop]
    rw [if_pos hcond, solveRound_atStep t0 h q n hq hh]
    exact ih (n + 1) f (by omega) (by omega)

/-- C42. With a positive number of output frames and a fixed step, `solve` performs the announced
number of steps `N` (the least multiple of the number of frames with `T / N ≤ dt`), ends exactly at
the final time, and writes exactly the requested number of frames, at the equally spaced times.
The step size `T / N` must exceed the tolerance `1e-12` hard-coded in the loop. -/
theorem solve_frames (t0 T dt : ℝ) (frames fuel : Nat) (hf : 0 < frames) (hT : 0 < T)
    (hdt : 0 < dt) (hh : (1e-12 : ℝ) < T / (numberOfTimeSteps T dt frames : ℝ))
    (hfuel : numberOfTimeSteps T dt frames ≤ fuel) :
    ∃ s, solve t0 (t0 + T) dt frames fuel = some s ∧
      s.time = t0 + T ∧ s.steps = numberOfTimeSteps T dt frames ∧ s.frames = frames ∧
      s.written.reverse = (List.range frames).map (fun i : ℕ => t0 + (i + 1) * (T / frames)) := by
  obtain ⟨⟨q, hq⟩, hge, -⟩ := numberOfTimeSteps_spec T dt frames hf
  set N := numberOfTimeSteps T dt frames with hN
  have hNpos : 0 < N := lt_of_lt_of_le (Nat.ceil_pos.2 (div_pos hT hdt)) hge
  have hqpos : 0 < q := by
    rcases Nat.eq_zero_or_pos q with h | h
    · subst h; omega
    · exact h
  have hNr : (N : ℝ) ≠ 0 := by positivity
  have hfr : (frames : ℝ) ≠ 0 := by positivity
  have hqr : (q : ℝ) ≠ 0 := by positivity
  have hNq : (N : ℝ) = frames * q := by rw [hq]; push_cast; ring
  have eT : t0 + T = t0 + (N : ℝ) * (T / N) := by field_simp
  have eo : T / (frames : ℝ) = (q : ℝ) * (T / N) := by rw [hNq]; field_simp
  have hdiv : N / q = frames := by rw [hq, Nat.mul_div_cancel _ hqpos]
  refine ⟨atStep t0 (T / N) q N, ?_, ?_, rfl, hdiv, ?_⟩
  · unfold solve
    simp only [add_sub_cancel_left, hf, if_true, effectiveDt, ← hN]
    have := solveLoop_atStep t0 (T / N) q N hqpos hh N 0 fuel (by omega) hfuel
    rw [← eT, ← eo] at this
    rw [← this]
    congr 1
    simp only [atStep, Nat.zero_div, List.range_zero, List.map_nil, List.reverse_nil]
    congr 1
    · simp
    · rw [eo]; congr 1; push_cast; ring
  · simp only [atStep]; exact eT.symm
  · simp only [atStep, hdiv, List.reverse_reverse]
    refine List.map_congr_left fun i _ => ?_
    rw [eo]; push_cast; ring

/-- C42. The step actually used is no larger than the requested one. -/
theorem effectiveDt_le (T dt : ℝ) (frames : Nat) (hf : 0 < frames) (hT : 0 < T) (hdt : 0 < dt) :
    effectiveDt T dt frames ≤ dt := by
  obtain ⟨-, hge, -⟩ := numberOfTimeSteps_spec T dt frames hf
  simp only [effectiveDt, hf, if_true]
  have h1 : T / dt ≤ (numberOfTimeSteps T dt frames : ℝ) :=
    (Nat.le_ceil _).trans (by exact_mod_cast hge)
  have hpos : (0 : ℝ) < (numberOfTimeSteps T dt frames : ℝ) :=
    lt_of_lt_of_le (div_pos hT hdt) h1
  rw [div_le_iff₀ hpos]
  rw [div_le_iff₀ hdt] at h1
  linarith

/-- The hypotheses of `solve_frames` are met, e.g., by `T = 1`, `dt = 1/4`, three frames: six
steps. -/
example : numberOfTimeSteps 1 (1 / 4) 3 = 6 ∧
    (1e-12 : ℝ) < 1 / (numberOfTimeSteps 1 (1 / 4) 3 : ℝ) := by
  have : numberOfTimeSteps 1 (1 / 4) 3 = 6 := by
    rw [numberOfTimeSteps_eq _ _ _ (by norm_num)]
    have : ⌈(1 : ℝ) / (1 / 4)⌉₊ = 4 := by
      rw [show (1 : ℝ) / (1 / 4) = ((4 : ℕ) : ℝ) by norm_num, Nat.ceil_natCast]
    rw [this]
  refine ⟨this, ?_⟩
  rw [this]; norm_num

/-- C42, negation for zero frames: without output frames the step is not adapted and the run
overshoots the final time: on `[0, 1]` with `dt = 2/5` it ends at `6/5`. -/
theorem solve_noFrames_overshoots : ∃ s, solve 0 1 (2 / 5) 0 5 = some s ∧ s.time = 6 / 5 := by
  refine ⟨{ time := 6 / 5, outputTime := none, steps := 3, frames := 0, written := [] }, ?_, rfl⟩
  norm_num [solve, solveLoop, solveRound, effectiveDt]

end Verif.RungeKutta
