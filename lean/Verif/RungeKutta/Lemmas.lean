import Verif.RungeKutta.Spec
import Mathlib.Algebra.Order.Field.Basic
import Mathlib.Tactic.Abel
import Mathlib.Tactic.Module
import Mathlib.Tactic.Linarith
import Mathlib.Tactic.NormNum
import Mathlib.Tactic.Ring
import Mathlib.Tactic.FieldSimp

namespace Verif.RungeKutta
open Finset

section Stepping
variable {V : Type*} [AddCommGroup V] [Module ℝ V]

theorem foldl_add_smul (m : Mem V) (l : List (Nat × ℝ)) (v : V) :
    l.foldl (fun acc p => acc + p.2 • m p.1) v = v + (l.map (fun p => p.2 • m p.1)).sum := by
  induction l generalizing v with
  | nil => simp
  | cons p l ih => simp only [List.foldl_cons, List.map_cons, List.sum_cons, ih]; abel

omit [Module ℝ V] in
theorem list_sum_range (n : Nat) (g : Nat → V) :
    ((List.range n).map g).sum = ∑ j ∈ range n, g j := by
  induction n with
  | zero => simp
  | succ n ih => rw [List.range_succ, List.map_append, List.sum_append, ih, sum_range_succ]; simp

theorem linComb_stageInputs (T : Tableau) (dt : ℝ) (i : Nat) (m : Mem V) :
    linComb m (stageInputs T dt i) =
      m 0 + ∑ j ∈ range i, (dt * (T.getA i j : ℝ)) • m (j + 1) := by
  unfold stageInputs linComb
  dsimp only
  rw [foldl_add_smul, List.map_map, one_smul]
  exact congrArg (m 0 + ·) (list_sum_range i _)

/-- The vectors after the first `n` stages. -/
def afterStages (T : Tableau) (f : ℝ → V → V) (time dt : ℝ) (m : Mem V) (n : Nat) : Mem V :=
  (List.range n).foldl (stage T f time dt) m

theorem afterStages_succ (T : Tableau) (f : ℝ → V → V) (time dt : ℝ) (m : Mem V) (n : Nat) :
    afterStages T f time dt m (n + 1) = stage T f time dt (afterStages T f time dt m n) n := by
  simp [afterStages, List.range_succ]

theorem afterStages_spec (T : Tableau) (f : ℝ → V → V) (time dt : ℝ) (m : Mem V) (n : Nat) :
    (∀ i < n, afterStages T f time dt m n (i + 1) =
      f (time + (T.getC i : ℝ) * dt)
        (m 0 + ∑ j ∈ range i, (dt * (T.getA i j : ℝ)) • afterStages T f time dt m n (j + 1))) ∧
    afterStages T f time dt m n 0 = m 0 ∧
    (∀ id, n < id → afterStages T f time dt m n id = m id) := by
  induction n with
  | zero => simp [afterStages]
  | succ n ih =>
    obtain ⟨h1, h0, h2⟩ := ih
    have hne : ∀ id, id ≠ n + 1 → afterStages T f time dt m (n + 1) id
        = afterStages T f time dt m n id := by
      intro id hid
      rw [afterStages_succ]
      simp [stage, computeTimeDerivative, auxId, Function.update_of_ne hid]
    refine ⟨?_, ?_, ?_⟩
    · intro i hi
      have hsum : ∑ j ∈ range i, (dt * (T.getA i j : ℝ)) • afterStages T f time dt m (n + 1) (j + 1)
          = ∑ j ∈ range i, (dt * (T.getA i j : ℝ)) • afterStages T f time dt m n (j + 1) := by
        refine sum_congr rfl fun j hj => ?_
        have := mem_range.1 hj
        rw [hne (j + 1) (by omega)]
      rw [hsum]
      rcases Nat.lt_succ_iff_lt_or_eq.1 hi with h | h
      · rw [hne (i + 1) (by omega), h1 i h]
      · subst h
        rw [afterStages_succ, stage, computeTimeDerivative, linComb_stageInputs, h0]
        simp [auxId]
    · rw [hne 0 (by omega), h0]
    · intro id hid
      rw [hne id (by omega), h2 id (by omega)]

/-- Adding multiples of the auxiliary vectors to the solution. -/
theorem addFold_spec (w : Nat → ℝ) (m : Mem V) (n : Nat) :
    let r := (List.range n).foldl (fun m j => scaleAndAdd m solId (auxId j) (w j)) m
    r 0 = m 0 + ∑ j ∈ range n, w j • m (j + 1) ∧ ∀ id, 0 < id → r id = m id := by
  induction n with
  | zero => simp
  | succ n ih =>
    simp only [List.range_succ, List.foldl_append, List.foldl_cons, List.foldl_nil] at ih ⊢
    obtain ⟨h0, h1⟩ := ih
    constructor
    · simp only [scaleAndAdd, solId, auxId, Function.update_self] at h0 h1 ⊢
      rw [h0, h1 (n + 1) (by omega), sum_range_succ]
      abel
    · intro id hid
      simp only [scaleAndAdd, solId, auxId] at h1 ⊢
      rw [Function.update_of_ne (by omega), h1 id hid]

theorem step_sol (T : Tableau) (f : ℝ → V → V) (m : Mem V) (time dt : ℝ) :
    (computeOneTimeStep T f m time dt).1 0 = m 0 + ∑ j ∈ range T.stages,
      (dt * (T.getB j : ℝ)) • afterStages T f time dt m T.stages (j + 1) := by
  have h := (addFold_spec (fun j => dt * (T.getB j : ℝ)) (afterStages T f time dt m T.stages)
    T.stages).1
  have h0 := (afterStages_spec T f time dt m T.stages).2.1
  rw [h0] at h
  exact h

theorem step_aux (T : Tableau) (f : ℝ → V → V) (m : Mem V) (time dt : ℝ) (id : Nat) (h : 0 < id) :
    (computeOneTimeStep T f m time dt).1 id = afterStages T f time dt m T.stages id :=
  (addFold_spec (fun j => dt * (T.getB j : ℝ)) (afterStages T f time dt m T.stages)
    T.stages).2 id h

theorem rollback_step (T : Tableau) (f : ℝ → V → V) (m : Mem V) (time dt : ℝ) :
    rollback T (computeOneTimeStep T f m time dt).1 dt 0 = m 0 ∧
    ∀ id, T.stages < id → rollback T (computeOneTimeStep T f m time dt).1 dt id = m id := by
  obtain ⟨h0, h1⟩ := addFold_spec (fun j => -dt * (T.getB j : ℝ))
    (computeOneTimeStep T f m time dt).1 T.stages
  constructor
  · refine h0.trans ?_
    rw [step_sol, add_assoc, ← sum_add_distrib]
    refine (congrArg _ (sum_eq_zero fun j _ => ?_)).trans (add_zero _)
    rw [step_aux _ _ _ _ _ _ (Nat.succ_pos j), ← add_smul]
    simp
  · intro id hid
    refine (h1 id (by omega)).trans ?_
    rw [step_aux _ _ _ _ _ _ (by omega)]
    exact (afterStages_spec T f time dt m T.stages).2.2 id hid

/-- The stages depend only on the solution. -/
theorem afterStages_congr (T : Tableau) (f : ℝ → V → V) (time dt : ℝ) (m m' : Mem V)
    (h0 : m 0 = m' 0) (n : Nat) : ∀ i < n,
    afterStages T f time dt m n (i + 1) = afterStages T f time dt m' n (i + 1) := by
  intro i
  induction i using Nat.strong_induction_on with
  | _ i ih =>
    intro hi
    rw [(afterStages_spec T f time dt m n).1 i hi, (afterStages_spec T f time dt m' n).1 i hi, h0]
    congr 2
    refine sum_congr rfl fun j hj => ?_
    have := mem_range.1 hj
    rw [ih j this (by omega)]

theorem step_congr (T : Tableau) (f : ℝ → V → V) (time dt : ℝ) (m m' : Mem V)
    (h0 : m 0 = m' 0) (h1 : ∀ id, T.stages < id → m id = m' id) :
    (computeOneTimeStep T f m time dt).1 = (computeOneTimeStep T f m' time dt).1 := by
  funext id
  rcases Nat.eq_zero_or_pos id with h | h
  · subst h
    rw [step_sol, step_sol, h0]
    congr 1
    refine sum_congr rfl fun j hj => ?_
    rw [afterStages_congr T f time dt m m' h0 _ j (mem_range.1 hj)]
  · rw [step_aux _ _ _ _ _ _ h, step_aux _ _ _ _ _ _ h]
    rcases Nat.lt_or_ge T.stages id with h2 | h2
    · rw [(afterStages_spec T f time dt m _).2.2 id h2,
        (afterStages_spec T f time dt m' _).2.2 id h2, h1 id h2]
    · obtain ⟨j, rfl⟩ : ∃ j, id = j + 1 := ⟨id - 1, by omega⟩
      exact afterStages_congr T f time dt m m' h0 _ j (by omega)

end Stepping

section Trees

/-- A finite list that contains all forests of order at most `n`. -/
def forests : Nat → List (List Tree)
  | 0 => [[]]
  | n + 1 => [] :: (forests n).flatMap fun f => (forests n).map fun g => Tree.node f :: g

theorem mem_forests : ∀ (n : Nat) (f : List Tree), Tree.orderList f ≤ n → f ∈ forests n := by
  intro n
  induction n with
  | zero =>
    intro f hf
    cases f with
    | nil => simp [forests]
    | cons t ts => cases t; simp [Tree.orderList, Tree.order] at hf
  | succ n ih =>
    intro f hf
    cases f with
    | nil => simp [forests]
    | cons t ts =>
      cases t with
      | node g =>
        simp only [Tree.orderList, Tree.order] at hf
        simp only [forests, List.mem_cons, List.mem_flatMap, List.mem_map]
        exact Or.inr ⟨g, ih g (by omega), ts, ih ts (by omega), rfl⟩

/-- The order conditions as a finite check. -/
def checkWeights (T : Tableau) (w : Nat → ℚ) (rhs : Tree → ℚ) (p : Nat) : Bool :=
  (forests (p - 1)).all fun f =>
    !decide (Tree.orderList f + 1 ≤ p) || decide ((Tree.node f).weight T.stages T.getA w = rhs (.node f))

theorem of_checkWeights {T : Tableau} {w : Nat → ℚ} {rhs : Tree → ℚ} {p : Nat}
    (h : checkWeights T w rhs p = true) :
    ∀ t : Tree, t.order ≤ p → t.weight T.stages T.getA w = rhs t := by
  intro t ht
  cases t with
  | node f =>
    simp only [Tree.order] at ht
    have := List.all_eq_true.1 h f (mem_forests _ _ (by omega))
    rcases Bool.or_eq_true _ _ ▸ this with h1 | h1
    · simp at h1; omega
    · exact of_decide_eq_true h1

def density1 (t : Tree) : ℚ := 1 / (t.density : ℚ)

end Trees

end Verif.RungeKutta
