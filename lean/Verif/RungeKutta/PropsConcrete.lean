import Verif.RungeKutta.Props
import Mathlib.Analysis.Convex.Function
import Mathlib.Analysis.SpecialFunctions.Integrals.Basic
import Mathlib.Algebra.Polynomial.Eval.Coeff
import Mathlib.Algebra.Polynomial.AlgebraMap

/-!
# Properties of the registered rules on concrete classes of problems

C05 (order on linear and on time-dependent problems) and C41 (strong stability of TVD rules).
All statements are about the result of `computeOneTimeStep`.
-/
namespace Verif.RungeKutta
open Finset

/-- The new solution after one step from `u`. -/
noncomputable def stepFrom {V : Type*} [AddCommGroup V] [Module ℝ V] (T : Tableau)
    (f : ℝ → V → V) (u : V) (time dt : ℝ) : V :=
  (computeOneTimeStep T f (fun _ => u) time dt).1 solId

section
variable {V : Type*} [AddCommGroup V] [Module ℝ V]

/-- `stepFrom` describes every call: the stored auxiliary vectors have no influence. -/
theorem stepFrom_eq (T : Tableau) (f : ℝ → V → V) (m : Mem V) (time dt : ℝ) :
    (computeOneTimeStep T f m time dt).1 solId = stepFrom T f (m solId) time dt := by
  have h1 := (computeOneTimeStep_isRKStep T f m time dt).1
  have h2 := (computeOneTimeStep_isRKStep T f (fun _ => m solId) time dt).1
  exact (isRKStep_unique _ _ _ _ _ _ _ _ _ _ _ _ h1 h2).1

theorem stepFrom_spec (T : Tableau) (f : ℝ → V → V) (u : V) (time dt : ℝ) :
    ∃ k : Nat → V, IsRKStep T.stages (fun i j => (T.getA i j : ℝ)) (fun j => (T.getB j : ℝ))
      (fun j => (T.getC j : ℝ)) f time dt u k (stepFrom T f u time dt) :=
  ⟨_, (computeOneTimeStep_isRKStep T f (fun _ => u) time dt).1⟩

/-- Forward Euler, written out. -/
theorem stepFrom_forwardEuler (f : ℝ → V → V) (u : V) (t dt : ℝ) :
    stepFrom forwardEuler f u t dt = u + dt • f t u := by
  obtain ⟨k, hk, hu⟩ := stepFrom_spec forwardEuler f u t dt
  have h0 := hk 0 (by decide)
  rw [hu]
  simp [forwardEuler, Tableau.getA, Tableau.getB, Tableau.getC] at h0 ⊢
  rw [h0]

theorem stepFrom_midPoint (f : ℝ → V → V) (u : V) (t dt : ℝ) :
    stepFrom midPoint f u t dt = u + dt • f (t + dt / 2) (u + (dt / 2) • f t u) := by
  obtain ⟨k, hk, hu⟩ := stepFrom_spec midPoint f u t dt
  have h0 := hk 0 (by decide)
  have h1 := hk 1 (by decide)
  rw [hu]
  simp [midPoint, Tableau.getA, Tableau.getB, Tableau.getC, sum_range_succ] at h0 h1 ⊢
  rw [h1, h0]
  congr 3
  · ring

theorem stepFrom_rk2tvd (f : ℝ → V → V) (u : V) (t dt : ℝ) :
    stepFrom rk2tvd f u t dt =
      u + (dt / 2) • f t u + (dt / 2) • f t (u + dt • f t u) := by
  obtain ⟨k, hk, hu⟩ := stepFrom_spec rk2tvd f u t dt
  have h0 := hk 0 (by decide)
  have h1 := hk 1 (by decide)
  rw [hu]
  simp [rk2tvd, Tableau.getA, Tableau.getB, Tableau.getC, sum_range_succ] at h0 h1 ⊢
  rw [h1, h0]
  module

theorem stepFrom_rk3tvd (f : ℝ → V → V) (u : V) (t dt : ℝ) :
    let k0 := f t u
    let k1 := f t (u + dt • k0)
    let k2 := f t (u + (dt / 4) • k0 + (dt / 4) • k1)
    stepFrom rk3tvd f u t dt = u + (dt / 6) • k0 + (dt / 6) • k1 + (2 * dt / 3) • k2 := by
  obtain ⟨k, hk, hu⟩ := stepFrom_spec rk3tvd f u t dt
  have h0 := hk 0 (by decide)
  have h1 := hk 1 (by decide)
  have h2 := hk 2 (by decide)
  rw [hu]
  simp [rk3tvd, Tableau.getA, Tableau.getB, Tableau.getC, sum_range_succ] at h0 h1 h2 ⊢
  have e : u + ((dt * 4⁻¹) • k 0 + (dt * 4⁻¹) • k 1) = u + (dt / 4) • k 0 + (dt / 4) • k 1 := by
    module
  rw [e] at h2
  rw [← h0, ← h1, ← h2]
  module

end

/-- The advertised order for the scalar linear problem `u' = λ u`: the step multiplies the solution
by the exponential series up to order `p`, plus `(λ dt)^(p+1)` times a polynomial. -/
def LinearOrder (T : Tableau) (p : Nat) : Prop :=
  ∃ q : Polynomial ℝ, ∀ (lam u t dt : ℝ),
    stepFrom T (fun _ v => lam * v) u t dt =
      ((∑ k ∈ range (p + 1), (lam * dt) ^ k / (k.factorial : ℝ)) +
        (lam * dt) ^ (p + 1) * q.eval (lam * dt)) * u

/-- C05. Every registered rule has its advertised order on linear problems. -/
theorem registry_linearOrder : ∀ T ∈ registry, LinearOrder T T.order := by
  intro T hT
  simp only [registry, List.mem_cons, List.not_mem_nil, or_false] at hT
  rcases hT with rfl | rfl | rfl | rfl | rfl | rfl | rfl
  · refine ⟨0, fun lam u t dt => ?_⟩
    rw [stepFrom_forwardEuler]
    simp [forwardEuler, sum_range_succ]
    ring
  · refine ⟨0, fun lam u t dt => ?_⟩
    rw [stepFrom_midPoint]
    simp [midPoint, sum_range_succ, Nat.factorial]
    ring
  · refine ⟨0, fun lam u t dt => ?_⟩
    rw [stepFrom_rk2tvd]
    simp [rk2tvd, sum_range_succ, Nat.factorial]
    ring
  · refine ⟨0, fun lam u t dt => ?_⟩
    rw [stepFrom_rk3tvd]
    simp [rk3tvd, sum_range_succ, Nat.factorial]
    ring
  · refine ⟨0, fun lam u t dt => ?_⟩
    obtain ⟨k, hk, hu⟩ := stepFrom_spec rk4 (fun _ v => lam * v) u t dt
    have h0 := hk 0 (by decide)
    have h1 := hk 1 (by decide)
    have h2 := hk 2 (by decide)
    have h3 := hk 3 (by decide)
    rw [hu]
    simp [rk4, Tableau.getA, Tableau.getB, sum_range_succ, Nat.factorial] at h0 h1 h2 h3 ⊢
    rw [h3, h2, h1, h0]
    ring
  · refine ⟨Polynomial.C (1 / 600), fun lam u t dt => ?_⟩
    obtain ⟨k, hk, hu⟩ := stepFrom_spec dormandPrince (fun _ v => lam * v) u t dt
    have h0 := hk 0 (by decide)
    have h1 := hk 1 (by decide)
    have h2 := hk 2 (by decide)
    have h3 := hk 3 (by decide)
    have h4 := hk 4 (by decide)
    have h5 := hk 5 (by decide)
    rw [hu]
    simp [dormandPrince, Tableau.getA, Tableau.getB, sum_range_succ, Nat.factorial]
      at h0 h1 h2 h3 h4 h5 ⊢
    rw [h5, h4, h3, h2, h1, h0]
    ring
  · refine ⟨0, fun lam u t dt => ?_⟩
    obtain ⟨k, hk, hu⟩ := stepFrom_spec bogackiShampine (fun _ v => lam * v) u t dt
    have h0 := hk 0 (by decide)
    have h1 := hk 1 (by decide)
    have h2 := hk 2 (by decide)
    rw [hu]
    simp [bogackiShampine, Tableau.getA, Tableau.getB, sum_range_succ, Nat.factorial]
      at h0 h1 h2 ⊢
    rw [h2, h1, h0]
    ring

/-- The rule integrates `u' = p(t)` exactly for all polynomials of degree below `p`. An order `p`
method must do so. -/
def QuadratureOrder (T : Tableau) (p : Nat) : Prop :=
  ∀ k < p, ∀ (u t dt : ℝ),
    stepFrom T (fun s _ => s ^ k) u t dt = u + ∫ s in t..(t + dt), s ^ k

/-- The step for a right-hand side that depends on time only. -/
theorem stepFrom_timeOnly (T : Tableau) (g : ℝ → ℝ) (u t dt : ℝ) :
    stepFrom T (fun s _ => g s) u t dt =
      u + ∑ j ∈ range T.stages, dt * (T.getB j : ℝ) * g (t + (T.getC j : ℝ) * dt) := by
  obtain ⟨k, hk, hu⟩ := stepFrom_spec T (fun s _ => g s) u t dt
  rw [hu]
  congr 1
  exact sum_congr rfl fun j hj => by rw [hk j (mem_range.1 hj), smul_eq_mul]

/-- C05, time-dependent problems. Full statement: `∀ T ∈ registry, QuadratureOrder T T.order`. It
holds for these four rules. -/
theorem quadratureOrder_partial : ∀ T ∈ [forwardEuler, midPoint, rk4, dormandPrince],
    QuadratureOrder T T.order := by
  intro T hT k hk u t dt
  rw [stepFrom_timeOnly, integral_pow]
  simp only [List.mem_cons, List.not_mem_nil, or_false] at hT
  rcases hT with rfl | rfl | rfl | rfl
  · have : k < 1 := hk
    interval_cases k
    simp [forwardEuler, Tableau.getB, Tableau.getC]
  · have : k < 2 := hk
    interval_cases k <;>
      simp [midPoint, Tableau.getB, Tableau.getC, sum_range_succ] <;> ring
  · have : k < 4 := hk
    interval_cases k <;>
      simp [rk4, Tableau.getB, Tableau.getC, sum_range_succ] <;> ring
  · have : k < 5 := hk
    interval_cases k <;>
      simp [dormandPrince, Tableau.getB, Tableau.getC, sum_range_succ] <;> ring

/-- C05, negation: the three rules with wrong stage times do not even integrate `u' = t` exactly,
so as coded they lose their order on time-dependent problems. -/
theorem quadratureOrder_fails : ¬ QuadratureOrder rk2tvd 2 ∧ ¬ QuadratureOrder rk3tvd 3 ∧
    ¬ QuadratureOrder bogackiShampine 3 := by
  refine ⟨fun h => ?_, fun h => ?_, fun h => ?_⟩ <;>
  · have := h 1 (by decide) 0 0 1
    rw [stepFrom_timeOnly, integral_pow] at this
    norm_num [rk2tvd, rk3tvd, bogackiShampine, Tableau.getB, Tableau.getC, sum_range_succ] at this

/-- C41. The rules flagged as total variation diminishing are strong stability preserving with the
full forward Euler step size: any convex functional (such as the total variation) that does not
increase under forward Euler steps of size `dt` does not increase under a step of the rule. -/
theorem tvd_stronglyStable {V : Type*} [AddCommGroup V] [Module ℝ V] :
    ∀ T ∈ registry, T.tvd = true →
    ∀ (N : V → ℝ) (_ : ConvexOn ℝ Set.univ N) (f : ℝ → V → V) (t dt : ℝ)
      (_ : ∀ v, N (v + dt • f t v) ≤ N v) (u : V),
      N (stepFrom T f u t dt) ≤ N u := by
  intro T hT htvd N hN f t dt hE u
  have conv : ∀ (x y : V) (a b : ℝ), 0 ≤ a → 0 ≤ b → a + b = 1 →
      N (a • x + b • y) ≤ a * N x + b * N y := fun x y a b ha hb hab => by
    simpa using hN.2 (Set.mem_univ x) (Set.mem_univ y) ha hb hab
  simp only [registry, List.mem_cons, List.not_mem_nil, or_false] at hT
  rcases hT with rfl | rfl | rfl | rfl | rfl | rfl | rfl
  · rw [stepFrom_forwardEuler]; exact hE u
  · simp [midPoint] at htvd
  · rw [stepFrom_rk2tvd]
    have e : u + (dt / 2) • f t u + (dt / 2) • f t (u + dt • f t u) =
        (1 / 2 : ℝ) • u + (1 / 2 : ℝ) •
          ((u + dt • f t u) + dt • f t (u + dt • f t u)) := by module
    rw [e]
    have h1 := conv u ((u + dt • f t u) + dt • f t (u + dt • f t u)) (1 / 2) (1 / 2)
      (by norm_num) (by norm_num) (by norm_num)
    have h2 := hE (u + dt • f t u)
    have h3 := hE u
    linarith
  · rw [stepFrom_rk3tvd]
    set u1 := u + dt • f t u with hu1
    have e2 : u + (dt / 4) • f t u + (dt / 4) • f t u1 =
        (3 / 4 : ℝ) • u + (1 / 4 : ℝ) • (u1 + dt • f t u1) := by rw [hu1]; module
    rw [e2]
    set u2 := (3 / 4 : ℝ) • u + (1 / 4 : ℝ) • (u1 + dt • f t u1) with hu2
    have e3 : u + (dt / 6) • f t u + (dt / 6) • f t u1 + (2 * dt / 3) • f t u2 =
        (1 / 3 : ℝ) • u + (2 / 3 : ℝ) • (u2 + dt • f t u2) := by
      rw [show (1 / 3 : ℝ) • u + (2 / 3 : ℝ) • (u2 + dt • f t u2) =
        (1 / 3 : ℝ) • u + (2 / 3 : ℝ) • u2 + (2 * dt / 3) • f t u2 by module]
      congr 1
      rw [hu2, hu1]; module
    rw [e3]
    have h1 := hE u
    have h2 := hE u1
    have h3 := conv u (u1 + dt • f t u1) (3 / 4) (1 / 4) (by norm_num) (by norm_num) (by norm_num)
    have h4 := hE u2
    have h5 := conv u (u2 + dt • f t u2) (1 / 3) (2 / 3) (by norm_num) (by norm_num) (by norm_num)
    linarith
  · simp [rk4] at htvd
  · simp [dormandPrince] at htvd
  · simp [bogackiShampine] at htvd

/-- A non-trivial instance of the hypotheses: `N = |·|`, decay `f = -v`, `dt = 1`. -/
example : ConvexOn ℝ Set.univ (fun x : ℝ => |x|) ∧
    ∀ v : ℝ, |v + (1 : ℝ) • (-v)| ≤ |v| :=
  ⟨⟨convex_univ, fun x _ y _ a b ha hb _ => by
    simpa [abs_mul, abs_of_nonneg ha, abs_of_nonneg hb] using abs_add_le (a * x) (b * y)⟩,
   fun v => by simp⟩

end Verif.RungeKutta
