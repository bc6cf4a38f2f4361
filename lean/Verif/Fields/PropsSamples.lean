import Verif.Fields.ModelSamples
import Verif.Fields.Lemmas

/-! # The sample problems: the properties -/
namespace Verif.Fields

open scoped Real
open Real (sin cos)
open MaxLocal (Tensor cross)
open Pml (partialDeriv)

section
variable {d : Nat}

theorem partial_real (f : (Fin d → ℝ) → ℝ) (j : Fin d) (x : Fin d → ℝ) (f' : ℝ) (h : HasDerivAt (fun t => f (Function.update x j t)) f' (x j)) :
    partialDeriv j (fun y => ((f y : ℝ) : ℂ)) x = (f' : ℂ) := h.ofReal_comp.deriv

theorem update_ne (x : Fin d → ℝ) {j a : Fin d} (h : a ≠ j) (t : ℝ) : Function.update x j t a = x a := Function.update_of_ne h _ _

theorem sin_deriv (x : ℝ) : HasDerivAt (fun t => sin (π * t)) (π * cos (π * x)) x := by
  have := ((hasDerivAt_id x).const_mul π).sin
  refine this.congr_deriv ?_
  simp; ring

theorem cos_deriv (x : ℝ) : HasDerivAt (fun t => cos (π * t)) (-(π * sin (π * x))) x := by
  have := ((hasDerivAt_id x).const_mul π).cos
  refine this.congr_deriv ?_
  simp; ring

end

section Curls

theorem sarmany_curl (c : ℝ) (x : Fin 3 → ℝ) : curlE (fun y i => ((sarmanyx y i * c : ℝ) : ℂ)) x = fun i => ((sarmanyCurl x i * (π * c) : ℝ) : ℂ) := by
  have hp : ∀ (a b j : Fin 3), j = a → b ≠ j →
      partialDeriv j (fun y => ((sin (π * y a) * sin (π * y b) * c : ℝ) : ℂ)) x = ((π * cos (π * x a) * sin (π * x b) * c : ℝ) : ℂ) := by
    intro a b j h h2
    subst h
    refine partial_real _ _ _ _ ?_
    simp only [Function.update_self, update_ne x h2]
    exact ((sin_deriv _).mul_const _).mul_const _
  have hq : ∀ (a b j : Fin 3), j = b → a ≠ j →
      partialDeriv j (fun y => ((sin (π * y a) * sin (π * y b) * c : ℝ) : ℂ)) x = ((sin (π * x a) * (π * cos (π * x b)) * c : ℝ) : ℂ) := by
    intro a b j h h2
    subst h
    refine partial_real _ _ _ _ ?_
    simp only [Function.update_self, update_ne x h2]
    exact ((sin_deriv _).const_mul _).mul_const _
  funext i
  simp only [curlE, sarmanyx, sarmanyCurl]
  fin_cases i
  · simp only [Fin.zero_eta, Matrix.cons_val_zero, Matrix.cons_val_one, Matrix.cons_val]
    rw [hq 0 1 1 rfl (by decide), hp 2 0 2 rfl (by decide)]
    push_cast; ring
  · simp only [Fin.mk_one, Matrix.cons_val_zero, Matrix.cons_val_one, Matrix.cons_val]
    rw [hq 1 2 2 rfl (by decide), hp 0 1 0 rfl (by decide)]
    push_cast; ring
  · simp only [Fin.reduceFinMk, Matrix.cons_val_zero, Matrix.cons_val_one, Matrix.cons_val]
    rw [hq 2 0 0 rfl (by decide), hp 1 2 1 rfl (by decide)]
    push_cast; ring

theorem sarmany_doubleCurl (c : ℝ) (x : Fin 3 → ℝ) : curlE (fun y i => ((sarmanyCurl y i * c : ℝ) : ℂ)) x = fun i => ((sarmanyx x i * (2 * π * c) : ℝ) : ℂ) := by
  have hp : ∀ (a b e j : Fin 3), j = b → a ≠ j → e ≠ j →
      partialDeriv j (fun y => ((sin (π * y a) * (cos (π * y b) - cos (π * y e)) * c : ℝ) : ℂ)) x = ((sin (π * x a) * (-(π * sin (π * x b))) * c : ℝ) : ℂ) := by
    intro a b e j h h2 h3
    subst h
    refine partial_real _ _ _ _ ?_
    simp only [Function.update_self, update_ne x h2, update_ne x h3]
    exact (((cos_deriv _).sub_const _).const_mul _).mul_const _
  have hq : ∀ (a b e j : Fin 3), j = e → a ≠ j → b ≠ j →
      partialDeriv j (fun y => ((sin (π * y a) * (cos (π * y b) - cos (π * y e)) * c : ℝ) : ℂ)) x = ((sin (π * x a) * (π * sin (π * x e)) * c : ℝ) : ℂ) := by
    intro a b e j h h2 h3
    subst h
    refine partial_real _ _ _ _ ?_
    simp only [Function.update_self, update_ne x h2, update_ne x h3]
    refine (((((cos_deriv _).const_sub _)).const_mul _).mul_const _).congr_deriv ?_
    ring
  funext i
  simp only [curlE, sarmanyx, sarmanyCurl]
  fin_cases i
  · simp only [Fin.zero_eta, Matrix.cons_val_zero, Matrix.cons_val_one, Matrix.cons_val]
    rw [hq 2 0 1 1 rfl (by decide) (by decide), hp 1 2 0 2 rfl (by decide) (by decide)]
    push_cast; ring
  · simp only [Fin.mk_one, Matrix.cons_val_zero, Matrix.cons_val_one, Matrix.cons_val]
    rw [hq 0 1 2 2 rfl (by decide) (by decide), hp 2 0 1 0 rfl (by decide) (by decide)]
    push_cast; ring
  · simp only [Fin.reduceFinMk, Matrix.cons_val_zero, Matrix.cons_val_one, Matrix.cons_val]
    rw [hq 1 2 0 0 rfl (by decide) (by decide), hp 0 1 2 1 rfl (by decide) (by decide)]
    push_cast; ring

/-- A field whose components depend on their own coordinate only has no curl. -/
theorem own_curl {d : Nat} (hd : d = 2 ∨ d = 3) (f : Fin d → ℝ → ℝ) (x : Fin d → ℝ) (i : Fin d) : curlE (fun y i => ((f i (y i) : ℝ) : ℂ)) x i = 0 := by
  have h : ∀ i j : Fin d, i ≠ j → partialDeriv j (fun y => ((f i (y i) : ℝ) : ℂ)) x = 0 := by
    intro i j h
    have := partial_real (fun y => f i (y i)) j x 0 (by simp only [update_ne x h]; exact hasDerivAt_const _ _)
    simpa using this
  rcases hd with rfl | rfl
  · simp only [curlE]
    fin_cases i
    · simp [h 1 0 (by decide), h 0 1 (by decide)]
    · simp
  · simp only [curlE]
    fin_cases i
    · simp [h 2 1 (by decide), h 1 2 (by decide)]
    · simp [h 0 2 (by decide), h 2 0 (by decide)]
    · simp [h 1 0 (by decide), h 0 1 (by decide)]

theorem curlE_zero {d : Nat} (x : Fin d → ℝ) (i : Fin d) : curlE (fun _ _ => 0) x i = 0 := by
  match d with
  | 2 => simp only [curlE, partialDeriv]; fin_cases i <;> simp
  | 3 => simp only [curlE, partialDeriv]; fin_cases i <;> simp
  | 0 => exact i.elim0
  | 1 => simp [curlE]
  | _ + 4 => simp [curlE]

theorem curlH_zero {d : Nat} (x : Fin d → ℝ) (i : Fin d) : curlH (fun _ _ => 0) x i = 0 := by
  match d with
  | 2 => simp only [curlH, partialDeriv]; fin_cases i <;> simp
  | 3 => exact curlE_zero x i
  | 0 => exact i.elim0
  | 1 => exact curlE_zero x i
  | _ + 4 => exact curlE_zero x i

end Curls

/-- The problems of a dimension: the one of Sármány and others is for three dimensions. -/
def Sample.Of (s : Sample) (d : Nat) : Prop := d = 3 ∨ (d = 2 ∧ s ≠ .sarmany)

/-- **C104.** The curl of a sample problem is that of its solution. -/
theorem sample_curl {d : Nat} (s : Sample) (hd : s.Of d) (x : Fin d → ℝ) (t : ℝ) (i : Fin d) :
    ((s.exactCurl x t i : ℝ) : ℂ) = curlE (fun y i => ((s.exact y t i : ℝ) : ℂ)) x i := by
  have hd' : d = 2 ∨ d = 3 := by rcases hd with h | h; exacts [.inr h, .inl h.1]
  cases s with
  | constant => exact (by simp only [Sample.exact]; rw [own_curl hd' (fun _ _ => 1) x i]; simp [Sample.exactCurl])
  | linear => exact (by simp only [Sample.exact]; rw [own_curl hd' (fun _ _ => t) x i]; simp [Sample.exactCurl])
  | sinsin => exact (by simp only [Sample.exact, sinx]; rw [own_curl hd' (fun _ s => sin (π * s) * sin (π * s) * sin (π * t)) x i]; simp [Sample.exactCurl])
  | sarmany =>
    have h3 : d = 3 := by rcases hd with h | h; exacts [h, absurd rfl h.2]
    subst h3
    simp only [Sample.exact, Sample.exactCurl]
    rw [sarmany_curl]

/-- **C104.** The solution of a sample problem solves `E'' + curl curl E = f` with the source `f` of the problem, and starts with the given values and derivatives. -/
theorem sample_solves {d : Nat} (s : Sample) (hd : s.Of d) (x : Fin d → ℝ) (i : Fin d) :
    (∀ t, ((deriv (deriv fun t => s.exact x t i) t : ℝ) : ℂ) + curlH (curlE fun y i => ((s.exact y t i : ℝ) : ℂ)) x i = ((s.source x t i : ℝ) : ℂ)) ∧
    s.initial x i = s.exact x 0 i ∧ s.initialDerivative x i = deriv (fun t => s.exact x t i) 0 := by
  have hcurl : ∀ t, (curlE fun y i => ((s.exact y t i : ℝ) : ℂ)) = fun y i => ((s.exactCurl y t i : ℝ) : ℂ) :=
    fun t => funext fun y => funext fun i => (sample_curl s hd y t i).symm
  simp only [hcurl]
  cases s with
  | constant =>
    refine ⟨fun t => ?_, rfl, ?_⟩
    · simp only [Sample.exactCurl, Complex.ofReal_zero, curlH_zero, Sample.exact, Sample.source, Sample.sourceRef]
      simp
    · simp [Sample.initialDerivative, Sample.exact]
  | linear =>
    refine ⟨fun t => ?_, rfl, ?_⟩
    · simp only [Sample.exactCurl, Complex.ofReal_zero, curlH_zero, Sample.exact, Sample.source, Sample.sourceRef]
      simp
    · simp [Sample.initialDerivative, Sample.exact]
  | sinsin =>
    have h1 : ∀ t, HasDerivAt (fun t => sinx x i * sin (π * t)) (sinx x i * (π * cos (π * t))) t := fun t => (sin_deriv t).const_mul _
    have h2 : deriv (fun t => sinx x i * sin (π * t)) = fun t => sinx x i * (π * cos (π * t)) := funext fun t => (h1 t).deriv
    have h3 : ∀ t, deriv (fun t => sinx x i * (π * cos (π * t))) t = sinx x i * (π * -(π * sin (π * t))) :=
      fun t => (((cos_deriv t).const_mul _).const_mul _).deriv
    refine ⟨fun t => ?_, rfl, ?_⟩
    · simp only [Sample.exactCurl, Complex.ofReal_zero, curlH_zero, Sample.exact, Sample.source, Sample.sourceRef, Sample.scalingSource, h2, h3]
      push_cast; ring
    · simp only [Sample.exact, h2, Sample.initialDerivative]
      simp
  | sarmany =>
    have e3 : d = 3 := by rcases hd with h | h; exacts [h, absurd rfl h.2]
    subst e3
    have hc : ∀ a t : ℝ, HasDerivAt (fun t => cos (t / a)) (-(1 / a * sin (t / a))) t := by
      intro a t
      refine ((hasDerivAt_id t).div_const a).cos.congr_deriv ?_
      simp; ring
    have hs : ∀ a t : ℝ, HasDerivAt (fun t => sin (t / a)) (1 / a * cos (t / a)) t := by
      intro a t
      refine ((hasDerivAt_id t).div_const a).sin.congr_deriv ?_
      simp; ring
    have h1 : ∀ t, HasDerivAt (fun t => sarmanyx x i * (cos t + cos (t / 2) + cos (t / 3)))
        (sarmanyx x i * (-sin t + -(1 / 2 * sin (t / 2)) + -(1 / 3 * sin (t / 3)))) t :=
      fun t => (((Real.hasDerivAt_cos t).add (hc 2 t)).add (hc 3 t)).const_mul _
    have h2 : deriv (fun t => sarmanyx x i * (cos t + cos (t / 2) + cos (t / 3))) = fun t => sarmanyx x i * (-sin t + -(1 / 2 * sin (t / 2)) + -(1 / 3 * sin (t / 3))) :=
      funext fun t => (h1 t).deriv
    have h3 : ∀ t, deriv (fun t => sarmanyx x i * (-sin t + -(1 / 2 * sin (t / 2)) + -(1 / 3 * sin (t / 3)))) t =
        sarmanyx x i * (-cos t + -(1 / 2 * (1 / 2 * cos (t / 2))) + -(1 / 3 * (1 / 3 * cos (t / 3)))) :=
      fun t => (((((Real.hasDerivAt_sin t).neg).add ((hs 2 t).const_mul _).neg).add ((hs 3 t).const_mul _).neg).const_mul _).deriv
    refine ⟨fun t => ?_, rfl, ?_⟩
    · have hH : curlH (fun y i => ((Sample.exactCurl .sarmany y t i : ℝ) : ℂ)) x i = ((sarmanyx x i * (2 * π * (π * (cos t + cos (t / 2) + cos (t / 3)))) : ℝ) : ℂ) :=
        congrFun (sarmany_doubleCurl (π * (cos t + cos (t / 2) + cos (t / 3))) x) i
      rw [hH]
      simp only [Sample.exact, Sample.source, Sample.sourceRef, Sample.scalingSource, h2, h3]
      push_cast; ring
    · simp only [Sample.exact, h2, Sample.initialDerivative]
      simp

/-- **C104.** The boundary values of a sample problem are those of its solution, at all times. -/
theorem sample_boundary {d : Nat} (s : Sample) (hd : s.Of d) (normal x : Fin d → ℝ) (t : ℝ) (i : Fin d) :
    s.boundary normal x t i = cross normal (s.exact x t) i := by
  have h : ∀ i, s.exact x s.referenceTime i * s.scalingBoundary t = s.exact x t i := by
    intro i
    cases s with
    | constant => simp [Sample.exact, Sample.scalingBoundary]
    | linear => simp [Sample.exact, Sample.scalingBoundary, Sample.referenceTime]
    | sinsin =>
      have : sin (π * 0.5) = 1 := by rw [show π * 0.5 = π / 2 by ring]; exact Real.sin_pi_div_two
      simp only [Sample.exact, Sample.scalingBoundary, Sample.referenceTime, this]
      ring
    | sarmany =>
      simp only [Sample.exact, Sample.scalingBoundary, Sample.referenceTime]
      norm_num
      ring
  unfold Sample.boundary
  rcases hd with rfl | ⟨rfl, -⟩
  · simp only [cross]
    fin_cases i <;> (simp [← h]; ring)
  · simp only [cross]
    fin_cases i
    · simp [← h]; ring
    · simp

/-- **C104.** The harmonic sample problem: its curl is that of its solution, and its source is what is left of the equations in a vacuum, for every frequency. -/
theorem harmonic_sample (omega : ℝ) (x : Fin 3 → ℝ) (i : Fin 3) :
    harmonicCurl x i = curlE harmonicExact x i ∧
    harmonicSource omega x i = residual (fun _ => .scalar 1) (fun _ => .scalar 1) omega harmonicExact x i := by
  have h1 : ∀ y, curlE harmonicExact y = harmonicCurl y := by
    intro y
    have := sarmany_curl 1 y
    simp only [mul_one] at this
    exact this
  refine ⟨(congrFun (h1 x) i).symm, ?_⟩
  have h2 : (fun y => (Tensor.scalar 1).applyCurl (curlE harmonicExact y)) = fun y i => ((sarmanyCurl y i * π : ℝ) : ℂ) := by
    funext y i
    rw [h1]
    simp only [Tensor.applyCurl, div_one]
    rfl
  have h3 : curlH (fun y => (Tensor.scalar 1).applyCurl (curlE harmonicExact y)) x i = ((sarmanyx x i * (2 * π * π) : ℝ) : ℂ) := by
    rw [h2]; exact congrFun (sarmany_doubleCurl π x) i
  simp only [residual, h3, Tensor.applyDiv, harmonicSource, harmonicExact, MaxLocal.cast]
  push_cast; ring

/-- The problems are not trivial: the solution of the one of Sármány and others in the middle of the unit cube at the start. -/
example : Sample.exact .sarmany ![1 / 2, 1 / 2, 1 / 2] 0 0 = 3 ∧ Sample.Of .sarmany 3 := by
  refine ⟨?_, .inl rfl⟩
  simp only [Sample.exact, sarmanyx]
  have : sin (π * (1 / 2)) = 1 := by rw [show π * (1 / 2) = π / 2 by ring]; exact Real.sin_pi_div_two
  simp
  norm_num [this]

end Verif.Fields
