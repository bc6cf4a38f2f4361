import Verif.RungeKutta.Lemmas
import Mathlib.Algebra.Polynomial.Eval.Defs
import Mathlib.Data.Nat.Factorial.Basic
import Mathlib.Tactic.IntervalCases

/-!
# Properties of the Runge-Kutta time integrators

C05 (order of the tableaux), C06 (lookup), C07 (rejected steps), C08 (step formula),
C41 (strong stability of the TVD rules).
-/
namespace Verif.RungeKutta
open Finset

section Formula
variable {V : Type*} [AddCommGroup V] [Module ℝ V]

/-- C08. One call of `computeOneTimeStep` is exactly one explicit Runge-Kutta step with the given
tableau: the auxiliary vectors hold the stage derivatives, the solution vector the result, all other
vectors are untouched and the time advances by `dt`. -/
theorem computeOneTimeStep_isRKStep (T : Tableau) (f : ℝ → V → V) (m : Mem V) (time dt : ℝ) :
    let r := computeOneTimeStep T f m time dt
    IsRKStep T.stages (fun i j => (T.getA i j : ℝ)) (fun j => (T.getB j : ℝ))
      (fun j => (T.getC j : ℝ)) f time dt (m solId) (fun j => r.1 (auxId j)) (r.1 solId) ∧
    (∀ id, id ≠ solId → (∀ j < T.stages, id ≠ auxId j) → r.1 id = m id) ∧
    r.2 = time + dt := by
  refine ⟨⟨?_, ?_⟩, ?_, rfl⟩
  · intro i hi
    simp only [auxId, solId]
    rw [step_aux _ _ _ _ _ _ (Nat.succ_pos i), (afterStages_spec T f time dt m T.stages).1 i hi]
    congr 2
    refine sum_congr rfl fun j hj => ?_
    rw [step_aux _ _ _ _ _ _ (Nat.succ_pos j)]
  · simp only [auxId, solId]
    rw [step_sol]
    congr 1
    refine sum_congr rfl fun j hj => ?_
    rw [step_aux _ _ _ _ _ _ (Nat.succ_pos j)]
  · intro id h0 h1
    simp only [auxId, solId] at h0 h1
    rw [step_aux _ _ _ _ _ _ (by omega)]
    refine (afterStages_spec T f time dt m T.stages).2.2 id ?_
    by_contra hle
    exact h1 (id - 1) (by omega) (by omega)

/-- The stage derivatives and the result of an explicit step are uniquely determined, so the
specification above leaves no freedom. -/
theorem isRKStep_unique (s : Nat) (a : Nat → Nat → ℝ) (b c : Nat → ℝ) (f : ℝ → V → V)
    (t dt : ℝ) (u : V) (k k' : Nat → V) (u1 u2 : V)
    (h : IsRKStep s a b c f t dt u k u1) (h' : IsRKStep s a b c f t dt u k' u2) :
    u1 = u2 ∧ ∀ i < s, k i = k' i := by
  have key : ∀ i, i < s → k i = k' i := by
    intro i
    induction i using Nat.strong_induction_on with
    | _ i ih =>
      intro hi
      rw [h.1 i hi, h'.1 i hi]
      congr 2
      refine sum_congr rfl fun j hj => ?_
      have := mem_range.1 hj
      rw [ih j this (by omega)]
  refine ⟨?_, key⟩
  rw [h.2, h'.2]
  congr 1
  exact sum_congr rfl fun j hj => by rw [key j (mem_range.1 hj)]

/-- C07. Undoing a step restores the solution vector and does not touch any vector other than the
solution and the auxiliary ones. -/
theorem rollback_restores (T : Tableau) (f : ℝ → V → V) (m : Mem V) (time dt : ℝ) :
    rollback T (computeOneTimeStep T f m time dt).1 dt solId = m solId ∧
    ∀ id, id ≠ solId → (∀ j < T.stages, id ≠ auxId j) →
      rollback T (computeOneTimeStep T f m time dt).1 dt id = m id := by
  refine ⟨(rollback_step T f m time dt).1, fun id h0 h1 => (rollback_step T f m time dt).2 id ?_⟩
  simp only [auxId, solId] at h0 h1
  by_contra hle
  exact h1 (id - 1) (by omega) (by omega)

/-- C07. Whatever number of attempts the adaptive step rejects, the outcome is the one of a single
step from the original state with the finally accepted step size; the time advances by that step
size, and the accepted attempt passed the error test. -/
theorem adaptiveStep_eq_single (T : Tableau) (f : ℝ → V → V) (reject : Mem V → ℝ → Bool)
    (shrink : Mem V → ℝ → ℝ) (time : ℝ) (fuel : Nat) (m : Mem V) (dt : ℝ)
    (m' : Mem V) (time' dt' : ℝ)
    (h : adaptiveStep T f reject shrink time fuel m dt = some (m', time', dt')) :
    m' = (computeOneTimeStep T f m time dt').1 ∧ time' = time + dt' ∧ reject m' dt' = false := by
  have gen : ∀ (fuel : Nat) (m0 : Mem V) (dt : ℝ), m0 0 = m 0 →
      (∀ id, T.stages < id → m0 id = m id) →
      adaptiveStep T f reject shrink time fuel m0 dt = some (m', time', dt') →
      m' = (computeOneTimeStep T f m time dt').1 ∧ time' = time + dt' ∧ reject m' dt' = false := by
    intro fuel
    induction fuel with
    | zero => intro m0 dt _ _ h; simp [adaptiveStep] at h
    | succ n ih =>
      intro m0 dt h0 h1 h
      simp only [adaptiveStep] at h
      split at h
      · obtain ⟨r0, r1⟩ := rollback_step T f m0 time dt
        exact ih _ _ (r0.trans h0) (fun id hid => (r1 id hid).trans (h1 id hid)) h
      · rename_i hrej
        simp only [Option.some.injEq, Prod.mk.injEq] at h
        obtain ⟨e1, e2, e3⟩ := h
        subst e3
        refine ⟨?_, e2.symm, ?_⟩
        · rw [← e1]; exact step_congr T f time dt m0 m h0 h1
        · rw [← e1]; simpa using hrej
  exact gen fuel m dt rfl (fun _ _ => rfl) h

/-- A case with one rejection: the hypothesis of `adaptiveStep_eq_single` is met. -/
example : ∃ r, adaptiveStep (V := ℝ) rk2tvd (fun _ u => u) (fun _ dt => decide (dt = 0))
    (fun _ _ => 1) 0 2 (fun _ => 1) 0 = some r := by
  simp [adaptiveStep]

end Formula

section Lookup

/-- C06. A returned rule is registered and has the requested order and number of stages; the TVD
flag is the requested one exactly when no warning was given, and a warning is given only if no
registered rule of that order and stage count has the requested flag. -/
theorem getRule_some (reg : List Tableau) (order stages : Nat) (tvd : Bool) (r : Tableau) (w : Bool)
    (h : getRule reg order stages tvd = some (r, w)) :
    r ∈ reg ∧ r.order = order ∧ r.stages = stages ∧ (w = false ↔ r.tvd = tvd) ∧
    (w = true → ∀ r' ∈ reg, ¬ (r'.order = order ∧ r'.stages = stages ∧ r'.tvd = tvd)) := by
  unfold getRule at h
  split at h
  · rename_i q hq
    simp only [Option.some.injEq, Prod.mk.injEq] at h
    obtain ⟨rfl, rfl⟩ := h
    have h1 := List.mem_of_find?_eq_some hq
    have h2 := List.find?_some hq
    simp only [Bool.and_eq_true, beq_iff_eq] at h2
    exact ⟨h1, h2.1.1, h2.1.2, by simp [h2.2], by simp⟩
  · rename_i hnone
    split at h
    · rename_i q hq
      simp only [Option.some.injEq, Prod.mk.injEq] at h
      obtain ⟨rfl, rfl⟩ := h
      have h1 := List.mem_of_find?_eq_some hq
      have h2 := List.find?_some hq
      simp only [Bool.and_eq_true, beq_iff_eq, bne_iff_ne] at h2
      refine ⟨h1, h2.1.1, h2.1.2, by simp [h2.2], fun _ r' hr' hc => ?_⟩
      have := List.find?_eq_none.1 hnone r' hr'
      simp [hc.1, hc.2.1, hc.2.2] at this
    · simp at h

/-- C06. The lookup fails exactly when no registered rule has the requested order and stage
count. -/
theorem getRule_none_iff (reg : List Tableau) (order stages : Nat) (tvd : Bool) :
    getRule reg order stages tvd = none ↔
      ∀ r ∈ reg, ¬ (r.order = order ∧ r.stages = stages) := by
  constructor
  · intro h r hr hc
    unfold getRule at h
    split at h
    · simp at h
    · rename_i h1
      split at h
      · simp at h
      · rename_i h2
        have e1 := List.find?_eq_none.1 h1 r hr
        have e2 := List.find?_eq_none.1 h2 r hr
        simp [hc.1, hc.2] at e1 e2
        exact e1 e2
  · intro h
    cases hg : getRule reg order stages tvd with
    | none => rfl
    | some p =>
      obtain ⟨r, w⟩ := p
      have := getRule_some reg order stages tvd r w hg
      exact absurd ⟨this.2.1, this.2.2.1⟩ (h r this.1)

/-- C06. Among several exact matches the first registered one is used, so the result only depends
on the registration order. -/
theorem getRule_first (pre post : List Tableau) (r : Tableau)
    (hpre : ∀ q ∈ pre, ¬ (q.order = r.order ∧ q.stages = r.stages ∧ q.tvd = r.tvd)) :
    getRule (pre ++ r :: post) r.order r.stages r.tvd = some (r, false) := by
  have : (pre ++ r :: post).find? (fun q => q.order == r.order && q.stages == r.stages &&
      q.tvd == r.tvd) = some r := by
    rw [List.find?_append, List.find?_eq_none.2 (by
      intro q hq hc
      simp only [Bool.and_eq_true, beq_iff_eq] at hc
      exact hpre q hq ⟨hc.1.1, hc.1.2, hc.2⟩)]
    simp
  unfold getRule
  rw [this]

/-- C06, for the actual registry: every registered rule is found by its own parameters. -/
theorem getRule_registry : ∀ T ∈ registry,
    (getRule registry T.order T.stages T.tvd).map (fun p => (p.1.name, p.2)) =
      some (T.name, false) := by
  decide +kernel

example : (getRule registry 4 4 true).map (fun p => (p.1.name, p.2)) = some ("RK4_4", true) := by
  decide +kernel
example : (getRule registry 4 5 true).isNone := by decide +kernel

end Lookup

section Order

/-- Precondition of all table accesses of the time stepping: it holds for every registered rule. -/
theorem registry_wellFormed : ∀ T ∈ registry, WellFormed T := by
  intro T hT
  simp only [registry, List.mem_cons, List.not_mem_nil, or_false] at hT
  rcases hT with rfl | rfl | rfl | rfl | rfl | rfl | rfl <;>
    refine ⟨rfl, ?_, rfl, by decide, ?_⟩ <;> decide

/-- C05. Every registered rule satisfies Butcher's order conditions for its advertised order, for
all rooted trees with at most that many nodes. -/
theorem registry_autonomousOrder : ∀ T ∈ registry, HasAutonomousOrder T T.order := by
  intro T hT
  simp only [registry, List.mem_cons, List.not_mem_nil, or_false] at hT
  rcases hT with rfl | rfl | rfl | rfl | rfl | rfl | rfl <;>
    exact of_checkWeights (rhs := density1) (by decide +kernel)

/-- The tree with `n + 1` nodes in a row. -/
def tallTree : Nat → Tree
  | 0 => .node []
  | n + 1 => .node [tallTree n]

/-- C05. The advertised order is sharp: no registered rule has a higher order. -/
theorem registry_order_sharp : ∀ T ∈ registry, ¬ HasAutonomousOrder T (T.order + 1) := by
  intro T hT h
  simp only [registry, List.mem_cons, List.not_mem_nil, or_false] at hT
  rcases hT with rfl | rfl | rfl | rfl | rfl | rfl | rfl
  · exact absurd (h (tallTree 1) (by decide)) (by decide +kernel)
  · exact absurd (h (tallTree 2) (by decide)) (by decide +kernel)
  · exact absurd (h (tallTree 2) (by decide)) (by decide +kernel)
  · exact absurd (h (tallTree 3) (by decide)) (by decide +kernel)
  · exact absurd (h (tallTree 4) (by decide)) (by decide +kernel)
  · exact absurd (h (tallTree 5) (by decide)) (by decide +kernel)
  · exact absurd (h (tallTree 3) (by decide)) (by decide +kernel)

/-- C05. The error coefficients of the rules with an error estimate annihilate all trees of order
below the advertised one, i.e. they are the difference with an embedded rule of one order less, and
they do not annihilate all trees of the advertised order (the estimate is not trivial). -/
theorem registry_errorEstimate : ∀ T ∈ registry, ∀ e, T.err = some e →
    (∀ t : Tree, t.order ≤ T.order - 1 → t.weight T.stages T.getA (fun i => e.getD i 0) = 0) ∧
    ∃ t : Tree, t.order = T.order ∧ t.weight T.stages T.getA (fun i => e.getD i 0) ≠ 0 := by
  intro T hT e he
  simp only [registry, List.mem_cons, List.not_mem_nil, or_false] at hT
  rcases hT with rfl | rfl | rfl | rfl | rfl | rfl | rfl <;> cases he
  · exact ⟨of_checkWeights (T := rk2tvd) (rhs := fun _ => 0) (by decide +kernel),
      tallTree 1, by decide, by decide +kernel⟩
  · exact ⟨of_checkWeights (T := dormandPrince) (rhs := fun _ => 0) (by decide +kernel),
      tallTree 4, by decide, by decide +kernel⟩
  · exact ⟨of_checkWeights (T := bogackiShampine) (rhs := fun _ => 0) (by decide +kernel),
      tallTree 2, by decide, by decide +kernel⟩

/-- Three rules have an error estimate. -/
example : (registry.filter (fun T => T.err.isSome)).map (·.name) =
    ["RK2TVD", "DormandPrince", "BogackiShampine"] := by decide +kernel

/-- C05, stage times. Full statement: `∀ T ∈ registry, RowSum T`. It holds for these four rules. -/
theorem rowSum_partial : RowSum forwardEuler ∧ RowSum midPoint ∧ RowSum rk4 ∧
    RowSum dormandPrince := by
  refine ⟨?_, ?_, ?_, ?_⟩ <;> intro i hi
  · have : i < 1 := hi
    interval_cases i; decide +kernel
  · have : i < 2 := hi
    interval_cases i <;> decide +kernel
  · have : i < 4 := hi
    interval_cases i <;> decide +kernel
  · have : i < 7 := hi
    interval_cases i <;> decide +kernel

/-- C05, stage times, negation for the three other rules: `RK2TVD` and `RK3TVD` evaluate every stage
at the old time, `BogackiShampine` uses the stage times of Dormand-Prince. -/
theorem rowSum_fails : ¬ RowSum rk2tvd ∧ ¬ RowSum rk3tvd ∧ ¬ RowSum bogackiShampine := by
  refine ⟨fun h => ?_, fun h => ?_, fun h => ?_⟩
  · exact absurd (h 1 (by decide)) (by decide +kernel)
  · exact absurd (h 1 (by decide)) (by decide +kernel)
  · exact absurd (h 1 (by decide)) (by decide +kernel)

end Order

end Verif.RungeKutta
