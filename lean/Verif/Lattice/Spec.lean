import Verif.RefGeometry.Model
import Mathlib.Data.Real.Basic
import Mathlib.LinearAlgebra.AffineSpace.AffineMap
import Mathlib.Algebra.BigOperators.Fin

/-! # Vocabulary of the lattice properties -/
namespace Verif.Lattice
open RefGeometry

/-- The points of the unit simplex whose coordinates are multiples of `1/n`. -/
def simplexLattice (d n : Nat) : Set (Pt d) :=
  {p | ∃ k : Fin d → Nat, ∑ i, k i ≤ n ∧ p = fun i => (k i : ℝ) / n}

/-- The points of `[-1,1]^d` that divide every side in `n` equal parts. -/
def tensorLattice (d n : Nat) : Set (Pt d) :=
  {p | ∃ k : Fin d → Nat, (∀ i, k i ≤ n) ∧ p = fun i => -1 + 2 * (k i : ℝ) / n}

/-- `pts` lists every element of `S` exactly once. -/
def Enumerates {d : Nat} (pts : List (Pt d)) (S : Set (Pt d)) : Prop :=
  pts.Nodup ∧ ∀ p, p ∈ pts ↔ p ∈ S

/-- The point at fraction `t` between `a` and `b`. -/
noncomputable def between {d : Nat} (a b : Pt d) (t : ℝ) : Pt d := AffineMap.lineMap a b t

/-- From position `start` on, `pts` has for every pair of corners in `edges` the `n - 1` inner
points of that edge, from the first corner to the second. -/
def EdgesAt {d : Nat} (pts : List (Pt d)) (n start : Nat) (edges : List (Pt d × Pt d)) : Prop :=
  ∀ (k : Nat) (e : Pt d × Pt d), edges[k]? = some e → ∀ i : Nat, i + 1 < n →
    pts[start + k * (n - 1) + i]? = some (between e.1 e.2 ((i + 1 : ℝ) / n))

end Verif.Lattice
