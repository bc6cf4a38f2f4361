import Verif.RungeKutta.Model
import Mathlib.Algebra.BigOperators.Group.Finset.Basic

/-! # Specification vocabulary for Runge-Kutta methods (textbook definitions) -/
namespace Verif.RungeKutta

open Finset

/-- `k` are the stage derivatives and `u'` the result of one explicit Runge-Kutta step for
`u' = f(t, u)`. -/
def IsRKStep {V : Type*} [AddCommGroup V] [Module ℝ V] (s : Nat) (a : Nat → Nat → ℝ)
    (b c : Nat → ℝ) (f : ℝ → V → V) (t dt : ℝ) (u : V) (k : Nat → V) (u' : V) : Prop :=
  (∀ i < s, k i = f (t + c i * dt) (u + ∑ j ∈ range i, (dt * a i j) • k j)) ∧
  u' = u + ∑ j ∈ range s, (dt * b j) • k j

/-- Rooted trees (Butcher). -/
inductive Tree where
  | node : List Tree → Tree

mutual
/-- Number of nodes of a rooted tree. -/
def Tree.order : Tree → Nat
  | .node ts => 1 + Tree.orderList ts
def Tree.orderList : List Tree → Nat
  | [] => 0
  | t :: ts => t.order + Tree.orderList ts
end

mutual
/-- Density `γ(t)`: the order times the densities of the subtrees. -/
def Tree.density : Tree → Nat
  | .node ts => (1 + Tree.orderList ts) * Tree.densityList ts
def Tree.densityList : List Tree → Nat
  | [] => 1
  | t :: ts => t.density * Tree.densityList ts
end

mutual
/-- Internal stage weight of a tree: the product over the subtrees of `∑_j a_ij Φ_j(subtree)`. -/
def Tree.stageWeight (s : Nat) (a : Nat → Nat → ℚ) : Tree → Nat → ℚ
  | .node ts, i => Tree.stageWeightList s a ts i
def Tree.stageWeightList (s : Nat) (a : Nat → Nat → ℚ) : List Tree → Nat → ℚ
  | [], _ => 1
  | t :: ts, i =>
    ((List.range s).map (fun j => a i j * Tree.stageWeight s a t j)).sum *
      Tree.stageWeightList s a ts i
end

/-- Elementary weight `∑_i w_i Φ_i(t)`. -/
def Tree.weight (s : Nat) (a : Nat → Nat → ℚ) (w : Nat → ℚ) (t : Tree) : ℚ :=
  ((List.range s).map (fun i => w i * t.stageWeight s a i)).sum

/-- Butcher's order conditions: the method has order `p` for autonomous systems iff every rooted
tree with at most `p` nodes has elementary weight `1/γ(t)`. -/
def HasAutonomousOrder (T : Tableau) (p : Nat) : Prop :=
  ∀ t : Tree, t.order ≤ p → t.weight T.stages T.getA T.getB = 1 / (t.density : ℚ)

/-- The stage times match the stage weights; with this the autonomous order carries over to
time-dependent right-hand sides. -/
def RowSum (T : Tableau) : Prop :=
  ∀ i < T.stages, T.getC i = ((List.range i).map (T.getA i)).sum

/-- All the table accesses the stepping code makes are in range. -/
def WellFormed (T : Tableau) : Prop :=
  T.a.length = T.stages ∧ (∀ i < T.stages, (T.a.getD i []).length = i) ∧
  T.b.length = T.stages ∧ T.stages ≤ T.c.length ∧ (∀ e, T.err = some e → e.length = T.stages)

end Verif.RungeKutta
