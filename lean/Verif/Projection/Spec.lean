import Verif.Projection.Model
import Mathlib.Algebra.BigOperators.Group.Finset.Basic

/-! # What is expected of the initial solution -/
namespace Verif.Projection
open Finset

/-- The function with coefficients `c`, at a point: component `v`. -/
def value (nB : Nat) (c : Nat → ℝ) (p : Point) (v : Nat) : ℝ := ∑ b ∈ range nB, p.basis b * c (index nB b v)

/-- The discrete inner product of two functions with `nV` components, by the quadrature. -/
def inner (nV : Nat) (points : List Point) (f g : Point → Nat → ℝ) : ℝ :=
  (points.map fun p => p.weight * ∑ v ∈ range nV, f p v * g p v).sum

/-- Only the zero function vanishes at all quadrature points. -/
def Independent (nB : Nat) (points : List Point) : Prop :=
  ∀ a : Nat → ℝ, (∀ p ∈ points, ∑ b ∈ range nB, p.basis b * a b = 0) → ∀ b < nB, a b = 0

/-- `x` is the largest of zero and the numbers `f a` for `a` in a list. -/
def IsMax {A : Type} (l : List A) (f : A → ℝ) (x : ℝ) : Prop := 0 ≤ x ∧ (∀ a ∈ l, f a ≤ x) ∧ (x = 0 ∨ ∃ a ∈ l, f a = x)

end Verif.Projection
