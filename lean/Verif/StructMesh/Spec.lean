import Verif.StructMesh.Model
import Mathlib.Data.List.Forall2
import Mathlib.Logic.Function.Iterate

/-!
# Lattices, for the structured mesh

A lattice point has one natural number for every direction, from `0` to the number of
elements in this direction.
-/

namespace Verif.StructMesh

variable {K : Type*}

/-- Where a lattice point lies. -/
def position [Field K] : List (Dim K) → List ℕ → List K
  | d :: ds, p :: ps => (d.lower + (p : K) * d.size / (d.n : K)) :: position ds ps
  | _, _ => []

/-- A lattice point of the domain: `0 ≤ p_i ≤ n_i`. -/
def IsPoint (ds : List (Dim K)) (p : List ℕ) : Prop :=
  List.Forall₂ (fun d i => i ≤ d.n) ds p

/-- A cell: `0 ≤ l_i < n_i`. -/
def IsCell (ds : List (Dim K)) (l : List ℕ) : Prop :=
  List.Forall₂ (fun d i => i < d.n) ds l

/-- Corner `j` of a cell: bit `i` of `j` says on which side in direction `i` it lies. -/
def corner : List ℕ → ℕ → List ℕ
  | l :: ls, j => (l + j % 2) :: corner ls (j / 2)
  | [], _ => []

/-- Lattice points that are the same point of the periodic domain. -/
def Identified : List (Dim K) → List ℕ → List ℕ → Prop
  | d :: ds, p :: ps, q :: qs =>
    (p = q ∨ (d.periodic = true ∧ ((p = 0 ∧ q = d.n) ∨ (p = d.n ∧ q = 0)))) ∧ Identified ds ps qs
  | [], [], [] => True
  | _, _, _ => False

/-- Twice the signed area of a triangle. -/
def area2 : List (ℤ × ℤ) → ℤ
  | [a, b, c] => (b.1 - a.1) * (c.2 - a.2) - (b.2 - a.2) * (c.1 - a.1)
  | _ => 0

/-- Six times the signed volume of a tetrahedron. -/
def volume6 : List (ℤ × ℤ × ℤ) → ℤ
  | [a, b, c, d] =>
    (b.1 - a.1) * ((c.2.1 - a.2.1) * (d.2.2 - a.2.2) - (c.2.2 - a.2.2) * (d.2.1 - a.2.1))
    - (b.2.1 - a.2.1) * ((c.1 - a.1) * (d.2.2 - a.2.2) - (c.2.2 - a.2.2) * (d.1 - a.1))
    + (b.2.2 - a.2.2) * ((c.1 - a.1) * (d.2.1 - a.2.1) - (c.2.1 - a.2.1) * (d.1 - a.1))
  | _ => 0

/-- Corner `k` of the unit square and of the unit cube. -/
def square (k : ℕ) : ℤ × ℤ := ((k % 2 : ℕ), (k / 2 % 2 : ℕ))
def cube (k : ℕ) : ℤ × ℤ × ℤ := ((k % 2 : ℕ), (k / 2 % 2 : ℕ), (k / 4 % 2 : ℕ))

/-- Simplices on corners of a cell, turned `r` quarter turns. -/
def turned (T : List (List ℕ)) (r : ℕ) : List (List ℕ) := T.map (List.map (rot^[r]))

/-- The corners of the cube on side `s` (`0` or `1`) in direction `i`. -/
def onSide (i s k : ℕ) : Bool := k / 2 ^ i % 2 == s

/-- The triangles that the tetrahedra `T` leave on side `s` in direction `i`; a corner
on side `1` is given by the number of the corner opposite to it on side `0`. -/
def sideTriangles (i s : ℕ) (T : List (List ℕ)) : List (List ℕ) :=
  (T.map (fun t => t.filter (onSide i s))).filter (·.length = 3)
    |>.map (·.map (fun k => k - s * 2 ^ i))

/-- The same triangles, whatever the order. -/
def SameTriangles (A B : List (List ℕ)) : Prop :=
  (∀ a ∈ A, ∃ b ∈ B, a.Perm b) ∧ (∀ b ∈ B, ∃ a ∈ A, b.Perm a)

end Verif.StructMesh
