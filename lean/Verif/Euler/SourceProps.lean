import Verif.Euler.SourceModel
import Verif.Euler.Lemmas
import Mathlib.Analysis.SpecialFunctions.Trigonometric.Deriv
import Mathlib.Analysis.Calculus.Deriv.Inv

/-!
# C70: the source term makes the stated solution exact
-/

namespace Verif.Euler

open Spec

variable {d : ℕ}

/-- `D` is the derivative of the state valued function `f` at `s`. -/
def HasStateDeriv (f : ℝ → State d) (D : State d) (s : ℝ) : Prop :=
  HasDerivAt (fun r => (f r).rho) D.rho s ∧ (∀ i, HasDerivAt (fun r => (f r).mom i) (D.mom i) s) ∧
    HasDerivAt (fun r => (f r).en) D.en s

/-- The state the application is meant to compute. -/
noncomputable def intended (t : ℝ) (x : Fin d → ℝ) : State d :=
  let f := 1 / 5 * Real.cos (2 * Real.pi * t) * ∏ i, Real.cos (2 * Real.pi * x i)
  ⟨3 / 2 + f, fun _ => f, 30 + f⟩

/-- The unit vector in direction `j`. -/
def dir (j : Fin d) : Fin d → ℝ := fun i => if i = j then 1 else 0

theorem intended_eq (t : ℝ) (x : Fin d → ℝ) : exactState t x = intended t x := by
  unfold exactState intended wavy
  norm_num

theorem wavy_eq (t : ℝ) (x : Fin d → ℝ) :
    wavy t x = 1 / 5 * Real.cos (2 * Real.pi * t) * ∏ i, Real.cos (2 * Real.pi * x i) := by
  unfold wavy; norm_num

theorem wavy_time (t : ℝ) (x : Fin d → ℝ) :
    HasDerivAt (fun s => wavy s x) (sourceTime t x) t := by
  have : (fun s => wavy s x) =
      fun s => 1 / 5 * Real.cos (2 * Real.pi * s) * ∏ i, Real.cos (2 * Real.pi * x i) := by
    funext s; exact wavy_eq s x
  rw [this]
  have h := ((((hasDerivAt_id t).const_mul (2 * Real.pi)).cos).const_mul (1 / 5 : ℝ)).mul_const
    (∏ i, Real.cos (2 * Real.pi * x i))
  refine h.congr_deriv ?_
  have e : sourceTime t x = -(1 / 5) * (2 * Real.pi) * Real.sin (2 * Real.pi * t) *
      ∏ i, Real.cos (2 * Real.pi * x i) := by
    unfold sourceTime; norm_num
  rw [e]
  simp only [id]
  ring

theorem wavy_space (t : ℝ) (x : Fin d → ℝ) (j : Fin d) :
    HasDerivAt (fun s => wavy t (Function.update x j s)) (sourceSpace t x j) (x j) := by
  have e : (Finset.univ.filter fun i => j ≠ i) = Finset.univ.erase j := by
    ext i; simp [eq_comm]
  have : (fun s => wavy t (Function.update x j s)) = fun s => 1 / 5 * Real.cos (2 * Real.pi * t) *
      (Real.cos (2 * Real.pi * s) * ∏ i ∈ Finset.univ.erase j, Real.cos (2 * Real.pi * x i)) := by
    funext s
    rw [wavy_eq, ← Finset.mul_prod_erase Finset.univ _ (Finset.mem_univ j)]
    rw [Function.update_self]
    congr 2
    apply Finset.prod_congr rfl
    intro i hi
    rw [Function.update_of_ne (Finset.ne_of_mem_erase hi)]
  rw [this]
  have h := ((((hasDerivAt_id (x j)).const_mul (2 * Real.pi)).cos).mul_const
    (∏ i ∈ Finset.univ.erase j, Real.cos (2 * Real.pi * x i))).const_mul
    (1 / 5 * Real.cos (2 * Real.pi * t))
  refine h.congr_deriv ?_
  unfold sourceSpace
  rw [e]
  norm_num
  ring

theorem prod_cos_le (x : Fin d → ℝ) : |∏ i, Real.cos (2 * Real.pi * x i)| ≤ 1 := by
  rw [Finset.abs_prod]
  apply Finset.prod_le_one
  · intro i _; exact abs_nonneg _
  · intro i _; exact Real.abs_cos_le_one _

theorem wavy_le (t : ℝ) (x : Fin d → ℝ) : |wavy t x| ≤ 1 / 5 := by
  rw [wavy_eq, abs_mul, abs_mul, abs_of_pos (by norm_num : (0:ℝ) < 1 / 5)]
  have h1 := prod_cos_le x
  have h2 := Real.abs_cos_le_one (2 * Real.pi * t)
  have := mul_le_one₀ h2 (abs_nonneg _) h1
  nlinarith [abs_nonneg (Real.cos (2 * Real.pi * t))]

theorem intended_rho (t : ℝ) (x : Fin d → ℝ) : 0 < 3 / 2 + wavy t x := by
  have := (abs_le.mp (wavy_le t x)).1
  linarith

/-- The intended state as a function of the wave. -/
noncomputable def ofWave (f : ℝ) : State d := ⟨3 / 2 + f, fun _ => f, 30 + f⟩

theorem intended_wave (t : ℝ) (x : Fin d → ℝ) : intended t x = ofWave (wavy t x) := by
  unfold intended ofWave; rw [wavy_eq]

theorem flux_wave (g f : ℝ) (j : Fin d) :
    flux g (ofWave f) (dir j) = ⟨f,
      fun i => f * (f / (3 / 2 + f)) +
        (g - 1) * (30 + f - d * (f * f) / (2 * (3 / 2 + f))) * dir j i,
      (30 + f + (g - 1) * (30 + f - d * (f * f) / (2 * (3 / 2 + f)))) * (f / (3 / 2 + f))⟩ := by
  have h1 : ∀ c : ℝ, dot (fun _ => c) (dir j) = c := by
    intro c; simp [dot, dir]
  have h2 : dot (fun _ : Fin d => f) (fun _ => f) = d * (f * f) := by
    simp [dot]
  have h3 : vel (ofWave f : State d) = fun _ => f / (3 / 2 + f) := rfl
  simp only [flux, h3, h1]
  simp only [press, ofWave, h1, h2]

/-- The derivative of the flux with respect to the wave. -/
theorem flux_wave_deriv (g : ℝ) (j : Fin d) (w : ℝ → ℝ) (s w' : ℝ) (hw : HasDerivAt w w' s)
    (h : 0 < 3 / 2 + w s) :
    let f := w s
    let r := 3 / 2 + f
    let p' := (g - 1) * (1 - d * (f / r - f ^ 2 / (2 * r ^ 2)))
    HasStateDeriv (fun s => flux g (ofWave (w s)) (dir j))
      ⟨w', fun i => (2 * f / r - f ^ 2 / r ^ 2) * w' + p' * dir j i * w',
        ((1 + p') * (f / r) + (30 + f + (g - 1) * (30 + f - d * (f * f) / (2 * r))) *
          (1 / r - f / r ^ 2)) * w'⟩ s := by
  intro f r p'
  have hr : r ≠ 0 := ne_of_gt h
  have h1 := hw.const_add (3 / 2 : ℝ)
  have h2 := hw.const_add (30 : ℝ)
  have h3 : HasDerivAt (fun s => w s / (3 / 2 + w s)) ((w' * r - f * w') / r ^ 2) s :=
    hw.div h1 hr
  have h4 : HasDerivAt (fun s => (g - 1) * (30 + w s - d * (w s * w s) / (2 * (3 / 2 + w s))))
      ((g - 1) * (w' - (d * (w' * f + f * w') * (2 * r) - d * (f * f) * (2 * w')) / (2 * r) ^ 2)) s :=
    (h2.sub (((hw.mul hw).const_mul (d : ℝ)).div (h1.const_mul 2)
      (mul_ne_zero two_ne_zero hr))).const_mul (g - 1)
  refine ⟨?_, ?_, ?_⟩
  · simp only [flux_wave]; exact hw
  · intro i
    simp only [flux_wave]
    refine ((hw.mul h3).add (h4.mul_const (dir j i))).congr_deriv ?_
    change w' * (f / r) + f * _ + _ = _
    simp only [p']
    field_simp
    ring
  · simp only [flux_wave]
    refine ((h2.add h4).mul h3).congr_deriv ?_
    change _ * (f / r) + (30 + f + (g - 1) * (30 + f - d * (f * f) / (2 * r))) * _ = _
    simp only [p']
    field_simp
    ring

/-- **C70.**  If the pressure given to the function is that of the intended state,
the source is the rate of change of this state plus the divergence of its flux, at
every time and place and in every dimension: with it the intended state solves the
equations. -/
theorem source_exact (g t : ℝ) (x : Fin d → ℝ) :
    ∃ (T : State d) (S : Fin d → State d),
      HasStateDeriv (fun s => intended s x) T t ∧
      (∀ j, HasStateDeriv (fun s => flux g (intended t (Function.update x j s)) (dir j))
        (S j) (x j)) ∧
      source g (press g (intended t x)) t x =
        ⟨T.rho + ∑ j, (S j).rho, fun i => T.mom i + ∑ j, (S j).mom i, T.en + ∑ j, (S j).en⟩ := by
  have hw : ∀ j, Function.update x j (x j) = x := fun j => Function.update_eq_self j x
  have hd := fun j => flux_wave_deriv g j (fun s => wavy t (Function.update x j s)) (x j) _
      (wavy_space t x j) (by rw [hw]; exact intended_rho t x)
  simp only [hw] at hd
  simp only [← intended_wave] at hd
  refine ⟨⟨sourceTime t x, fun _ => sourceTime t x, sourceTime t x⟩, _, ?_, hd, ?_⟩
  · simp only [intended_wave, ofWave]
    exact ⟨(wavy_time t x).const_add _, fun _ => wavy_time t x, (wavy_time t x).const_add _⟩
  · have hr := ne_of_gt (intended_rho t x)
    have hp : press g (intended t x) =
        (g - 1) * (30 + wavy t x - d * (wavy t x * wavy t x) / (2 * (3 / 2 + wavy t x))) := by
      rw [intended_wave]; simp [press, ofWave, dot]
    have kin : ∀ j, sourcePressure g t x j = (g - 1) * (1 - d * (wavy t x / (3 / 2 + wavy t x) -
        wavy t x ^ 2 / (2 * (3 / 2 + wavy t x) ^ 2))) * sourceSpace t x j := by
      intro j
      unfold sourcePressure
      rw [intended_eq, intended_wave]
      simp only [ofWave, Finset.sum_const, Finset.card_univ, Fintype.card_fin, nsmul_eq_mul]
      generalize 3 / 2 + wavy t x = r at *
      norm_num
      left
      field_simp
      ring_nf
      exact Or.inl trivial
    have con : ∀ i j, sourceConvection t x i j = (2 * wavy t x / (3 / 2 + wavy t x) -
        wavy t x ^ 2 / (3 / 2 + wavy t x) ^ 2) * sourceSpace t x j := by
      intro i j
      unfold sourceConvection
      rw [intended_eq, intended_wave]
      by_cases h : i = j
      · subst h
        simp only [ofWave, if_true]
        generalize 3 / 2 + wavy t x = r at *
        norm_num
        field_simp
      · simp only [ofWave, if_neg h]
        generalize 3 / 2 + wavy t x = r at *
        norm_num
        field_simp
        ring
    apply State.ext
    · rfl
    · funext i
      simp only [source, con, kin]
      rw [Finset.sum_add_distrib]
      congr 2
      simp [dir]
    · simp only [source]
      congr 1
      apply Finset.sum_congr rfl
      intro j _
      unfold sourceEnthalpy
      rw [kin, hp, intended_eq, intended_wave]
      simp only [ofWave]
      generalize 3 / 2 + wavy t x = r at *
      norm_num
      field_simp
      ring

/-- The intended state is physical (up to fifty dimensions), so the hypotheses of
C68 hold for it. -/
theorem intended_physical (g : ℝ) (hg : 1 < g) (hd : d ≤ 50) (t : ℝ) (x : Fin d → ℝ) :
    Physical g (intended t x) := by
  have h1 := intended_rho t x
  have h2 := abs_le.mp (wavy_le t x)
  rw [intended_wave]
  refine ⟨h1, ?_⟩
  have : press g (ofWave (wavy t x) : State d) =
      (g - 1) * (30 + wavy t x - d * (wavy t x * wavy t x) / (2 * (3 / 2 + wavy t x))) := by
    simp [press, ofWave, dot]
  rw [this]
  apply mul_pos (by linarith)
  have hd' : (d : ℝ) ≤ 50 := by exact_mod_cast hd
  have hs : wavy t x * wavy t x ≤ 1 := by nlinarith
  have : d * (wavy t x * wavy t x) / (2 * (3 / 2 + wavy t x)) ≤ 25 := by
    rw [div_le_iff₀ (by linarith)]
    have : (d : ℝ) * (wavy t x * wavy t x) ≤ 50 * 1 :=
      mul_le_mul hd' hs (mul_self_nonneg _) (by norm_num)
    nlinarith
  linarith

/-- The energy source depends on the pressure it is given.  The code gives it the
pressure of the *computed* state, so away from the intended state the source is not
the stated function of time and place. -/
theorem source_depends : ∃ (t : ℝ) (x : Fin 1 → ℝ), ∀ g p p', p ≠ p' →
    (source g p t x).en ≠ (source g p' t x).en := by
  refine ⟨0, fun _ => 1 / 4, ?_⟩
  intro g p p' hp h
  have hc : Real.cos (2 * Real.pi * (1 / 4)) = 0 := by
    rw [show 2 * Real.pi * (1 / 4) = Real.pi / 2 by ring, Real.cos_pi_div_two]
  have hs : Real.sin (2 * Real.pi * (1 / 4)) = 1 := by
    rw [show 2 * Real.pi * (1 / 4) = Real.pi / 2 by ring, Real.sin_pi_div_two]
  have hw : wavy 0 (fun _ : Fin 1 => (1 / 4 : ℝ)) = 0 := by
    rw [wavy_eq]; simp only [Finset.univ_unique, Finset.prod_singleton, hc, mul_zero]
  have he : (Finset.univ.filter fun i : Fin 1 => (0 : Fin 1) ≠ i) = ∅ := by decide
  have hv : sourceSpace 0 (fun _ : Fin 1 => (1 / 4 : ℝ)) 0 = -(1 / 5) * (2 * Real.pi) := by
    unfold sourceSpace
    rw [he, show (2.0 : ℝ) = 2 by norm_num, hs]
    norm_num
  simp only [source, Finset.univ_unique, Finset.sum_singleton, Fin.default_eq_zero, sourceEnthalpy,
    intended_eq, intended_wave, hw, hv, ofWave] at h
  have hpi := Real.pi_pos
  norm_num at h
  exact hp h

end Verif.Euler
