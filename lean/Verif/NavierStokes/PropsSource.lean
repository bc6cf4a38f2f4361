import Verif.NavierStokes.Source
import Verif.NavierStokes.Props
import Mathlib.Analysis.SpecialFunctions.Trigonometric.Deriv

/-!
# Properties of the manufactured solution
-/

namespace Verif.NavierStokes

open Verif.Euler (State)
open Verif.Euler.Spec Spec

/-- The derivative of the flux along the first axis. -/
theorem flux_x (g : ℝ) (U : ℝ → State 2) (x : ℝ) (D : State 2) (hx : (U x).rho ≠ 0)
    (h : ∀ v, HasDerivAt (fun s => get (U s) v) (get D v) x) (n : Fin 2 → ℝ) :
    ∀ v, HasDerivAt (fun s => get (flux g (U s) n) v)
      (get (jacobian g (vel (U x)) (enthalpy g (U x)) n D) v) x := by
  have h0 := h .rho
  have h1 := h (.mom 0)
  have h2 := h (.mom 1)
  have h3 := h .en
  simp only [get] at h0 h1 h2 h3
  have hp : HasDerivAt (fun s => press g (U s))
      ((g - 1) * (dot (vel (U x)) (vel (U x)) / 2 * D.rho - dot (vel (U x)) D.mom + D.en)) x := by
    have := ((h3.sub (((h1.mul h1).add (h2.mul h2)).div (h0.const_mul 2)
      (mul_ne_zero two_ne_zero hx))).const_mul (g - 1))
    refine (this.congr_of_eventuallyEq (Filter.Eventually.of_forall fun s => ?_)).congr_deriv ?_
    · simp [press, dot, Fin.sum_univ_two]
    · simp only [dot, vel, Fin.sum_univ_two, Pi.mul_apply, Pi.add_apply]
      field_simp
      ring
  have hu : HasDerivAt (fun s => dot (vel (U s)) n)
      ((dot n D.mom - dot (vel (U x)) n * D.rho) / (U x).rho) x := by
    have := ((h1.div h0 hx).mul_const (n 0)).add ((h2.div h0 hx).mul_const (n 1))
    refine (this.congr_of_eventuallyEq (Filter.Eventually.of_forall fun s => ?_)).congr_deriv ?_
    · simp [vel, dot, Fin.sum_univ_two]
    · simp only [dot, vel, Fin.sum_univ_two]
      field_simp
      ring
  intro v
  cases v with
  | rho =>
    have := (h1.mul_const (n 0)).add (h2.mul_const (n 1))
    refine (this.congr_of_eventuallyEq (Filter.Eventually.of_forall fun s => ?_)).congr_deriv ?_
    · simp [flux, get, dot, Fin.sum_univ_two]
    · simp only [get, jacobian, dot, Fin.sum_univ_two]; ring
  | mom i =>
    have := ((h (.mom i)).mul hu).add (hp.mul_const (n i))
    refine this.congr_deriv ?_
    simp only [get, jacobian, vel]
    field_simp
  | en =>
    have := (h3.add hp).mul hu
    refine this.congr_deriv ?_
    simp only [get, jacobian, enthalpy, Pi.add_apply]
    field_simp

/-- **C139, the formula.**  For every smooth flow field in two directions, with or
without the special form of the manufactured solution, the source computed from the
state and its derivatives is what is missing in the equations of the gas without
friction. -/
theorem source_formula (g : ℝ) (U : ℝ → ℝ → ℝ → State 2) (x y t : ℝ)
    (hr : (U x y t).rho ≠ 0) (qt qx qy : State 2)
    (ht : ∀ v, HasDerivAt (fun s => get (U x y s) v) (get qt v) t)
    (hx : ∀ v, HasDerivAt (fun s => get (U s y t) v) (get qx v) x)
    (hy : ∀ v, HasDerivAt (fun s => get (U x s t) v) (get qy v) y) :
    ∃ s, sourceTerm g (U x y t) qt qx qy = some s ∧
      ∀ v, get s v = deriv (fun s => get (U x y s) v) t +
        deriv (fun s => get (flux g (U s y t) ![1, 0]) v) x +
        deriv (fun s => get (flux g (U x s t) ![0, 1]) v) y := by
  unfold sourceTerm
  rw [if_neg hr]
  refine ⟨_, rfl, fun v => ?_⟩
  rw [(ht v).deriv, (flux_x g (fun s => U s y t) x qx hr hx ![1, 0] v).deriv,
    (flux_x g (fun s => U x s t) y qy hr hy ![0, 1] v).deriv]
  cases v with
  | rho => simp [get, jacobian, dot, Fin.sum_univ_two]
  | mom i =>
    fin_cases i <;>
      simp [get, jacobian, dot, vel, Fin.sum_univ_two, partialDeriv, computePartialState] <;>
      field_simp <;> ring
  | en =>
    simp [get, jacobian, dot, vel, Fin.sum_univ_two, partialDeriv, computePartialState,
      enthalpy, press]
    field_simp
    ring

theorem zCos_x (x y : ℝ) : HasDerivAt (fun s => zCos s y)
    (-(2 * Real.pi) * (Real.sin (2 * Real.pi * x) * Real.cos (2 * Real.pi * y))) x := by
  have h : HasDerivAt (fun s : ℝ => 2 * Real.pi * s) (2 * Real.pi) x := by
    simpa using (hasDerivAt_id x).const_mul (2 * Real.pi)
  exact (h.cos.mul_const (Real.cos (2 * Real.pi * y))).congr_deriv (by ring)

theorem zCos_y (x y : ℝ) : HasDerivAt (fun s => zCos x s)
    (-(2 * Real.pi) * (Real.cos (2 * Real.pi * x) * Real.sin (2 * Real.pi * y))) y := by
  have h : HasDerivAt (fun s : ℝ => 2 * Real.pi * s) (2 * Real.pi) y := by
    simpa using (hasDerivAt_id y).const_mul (2 * Real.pi)
  exact (h.cos.const_mul (Real.cos (2 * Real.pi * x))).congr_deriv (by ring)

theorem exact_t (x y t : ℝ) (v : Var 2) :
    HasDerivAt (fun s => get (exactSolution x y s) v) (get (stateT x y) v) t := by
  have h : ∀ a : ℝ, HasDerivAt (fun s : ℝ => a * (1 + s * (1 / 10) * zCos x y))
      (a * (1 / 10 * zCos x y)) t := by
    intro a
    refine ((((((hasDerivAt_id t).mul_const (1 / 10 : ℝ)).mul_const (zCos x y)).const_add
      1).const_mul a)).congr_deriv ?_
    ring
  cases v with
  | rho => exact (h 1).congr_deriv (by simp only [get, stateT]; ring)
  | mom i => fin_cases i <;> exact (h (1 / 2)).congr_deriv (by simp [get, stateT]; ring)
  | en => exact (h 10).congr_deriv (by simp only [get, stateT]; ring)

theorem exact_x (x y t : ℝ) (v : Var 2) :
    HasDerivAt (fun s => get (exactSolution s y t) v) (get (stateX x y t) v) x := by
  have h : ∀ a : ℝ, HasDerivAt (fun s : ℝ => a * (1 + t * (1 / 10) * zCos s y)) _ x :=
    fun a => (((zCos_x x y).const_mul (t * (1 / 10))).const_add 1).const_mul a
  cases v with
  | rho => exact (h 1).congr_deriv (by simp only [get, stateX]; ring)
  | mom i => fin_cases i <;> exact (h (1 / 2)).congr_deriv (by simp [get, stateX]; ring)
  | en => exact (h 10).congr_deriv (by simp only [get, stateX]; ring)

theorem exact_y (x y t : ℝ) (v : Var 2) :
    HasDerivAt (fun s => get (exactSolution x s t) v) (get (stateY x y t) v) y := by
  have h : ∀ a : ℝ, HasDerivAt (fun s : ℝ => a * (1 + t * (1 / 10) * zCos x s)) _ y :=
    fun a => (((zCos_y x y).const_mul (t * (1 / 10))).const_add 1).const_mul a
  cases v with
  | rho => exact (h 1).congr_deriv (by simp only [get, stateY]; ring)
  | mom i => fin_cases i <;> exact (h (1 / 2)).congr_deriv (by simp [get, stateY]; ring)
  | en => exact (h 10).congr_deriv (by simp only [get, stateY]; ring)

/-- **C139.**  With the source of the program the exact solution of the program does
solve the equations of the gas without friction, at every point and time where its
density is not zero. -/
theorem manufactured (g x y t : ℝ) (hr : (exactSolution x y t).rho ≠ 0) :
    ∃ s, source g x y t = some s ∧
      ∀ v, get s v = deriv (fun s => get (exactSolution x y s) v) t +
        deriv (fun s => get (flux g (exactSolution s y t) ![1, 0]) v) x +
        deriv (fun s => get (flux g (exactSolution x s t) ![0, 1]) v) y :=
  source_formula g exactSolution x y t hr _ _ _ (exact_t x y t) (exact_x x y t) (exact_y x y t)

/-- **C139, no friction to be seen.**  The viscous flux of this solution is zero for
every viscosity and conduction, so leaving the viscous terms out of the source is
right; the comparison with the exact solution says nothing about them. -/
theorem manufactured_no_friction (mu ka : ℝ) (x y t : ℝ) (hr : (exactSolution x y t).rho ≠ 0)
    (v : Var 2) (k : Fin 2) :
    contraction (computeEllipticTensor mu ka (computePartialState (exactSolution x y t)))
      (fun v k => get (![stateX x y t, stateY x y t] k) v) v k = 0 := by
  set J : Mat 2 := fun v k => get (![stateX x y t, stateY x y t] k) v with hJ
  set p := computePartialState (exactSolution x y t) with hpd
  set w := 1 + t * (1 / 10) * zCos x y with hw
  have hw0 : w ≠ 0 := by
    have e : (exactSolution x y t).rho = 1 * w := rfl
    rw [e, one_mul] at hr
    exact hr
  have hm : p.mom = fun _ => 1 / 2 := by
    funext i
    show ![1 / 2 * w, 1 / 2 * w] i * (1 / (1 * w)) = 1 / 2
    fin_cases i <;> simp <;> field_simp
  have he : p.en = 10 := by
    show 10 * w * (1 / (1 * w)) = 10
    field_simp
  have h1 : ∀ i k, J (.mom i) k = 1 / 2 * J .rho k := by
    intro i k
    fin_cases i <;> fin_cases k <;> simp [hJ, get, stateX, stateY] <;> ring
  have h2 : ∀ k, J .en k = 10 * J .rho k := by
    intro k
    fin_cases k <;> simp [hJ, get, stateX, stateY] <;> ring
  have hv : gv p J = fun _ _ => 0 := by
    funext i k
    simp only [gv, h1, hm]
    ring
  have hee : ge p J = fun _ => 0 := by
    funext k
    simp only [ge, h2, he, hv]
    simp
  have e := contraction_eq mu ka p J k
  rw [hv, hee, rigid_no_flux mu ka _ _ (fun i j => by simp) k] at e
  have := congrArg (fun s => get s v) e
  rw [get_ofVars] at this
  rw [this]
  cases v <;> rfl

/-- **C139, how long.**  The solution is physical (`γ > 1`) as long as `|t| < 10`
and not beyond: at `t = 10` there are points without any gas, and the program, which
starts from this state, ends for such states. -/
theorem manufactured_physical (g x y t : ℝ) (hg : 1 < g) (ht : |t| < 10) :
    Physical g (exactSolution x y t) := by
  have hz : |zCos x y| ≤ 1 := by
    unfold zCos
    rw [abs_mul]
    exact mul_le_one₀ (Real.abs_cos_le_one _) (abs_nonneg _) (Real.abs_cos_le_one _)
  have hw : 0 < 1 + t * (1 / 10) * zCos x y := by
    have h1 : |t * (1 / 10) * zCos x y| < 1 := by
      rw [abs_mul, abs_mul, abs_of_pos (by norm_num : (0:ℝ) < 1 / 10)]
      calc |t| * (1 / 10) * |zCos x y| ≤ |t| * (1 / 10) * 1 :=
            mul_le_mul_of_nonneg_left hz (by positivity)
        _ < 1 := by linarith
    have := neg_lt_of_abs_lt h1
    linarith
  refine ⟨by show 0 < 1 * (1 + t * (1 / 10) * zCos x y); linarith, ?_⟩
  have : press g (exactSolution x y t) = (g - 1) * (39 / 4 * (1 + t * (1 / 10) * zCos x y)) := by
    simp only [press, exactSolution, dot, Fin.sum_univ_two]
    simp only [Matrix.cons_val_zero, Matrix.cons_val_one]
    field_simp
    ring
  rw [this]
  exact mul_pos (by linarith) (by linarith)

theorem manufactured_vacuum : (exactSolution (1 / 2) 0 10).rho = 0 := by
  have h : zCos (1 / 2) 0 = -1 := by
    unfold zCos
    rw [show 2 * Real.pi * (1 / 2) = Real.pi by ring]
    simp
  simp only [exactSolution, h]
  norm_num

/-- A point where `manufactured` says something: the source is not zero there. -/
example : (exactSolution 0 0 1).rho ≠ 0 ∧ (stateT 0 0).rho ≠ 0 := by
  constructor <;> norm_num [exactSolution, stateT, zCos]

end Verif.NavierStokes
