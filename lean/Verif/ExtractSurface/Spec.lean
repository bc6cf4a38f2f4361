import Verif.ExtractSurface.Model

/-!
# What a surface mesh is
-/

namespace Verif.ExtractSurface

/-- A point lies in the plane, up to the tolerance of the tool. -/
def InPlane (k : Nat) (loc : ℚ) (x : Point) : Prop := |x.getD k 0 - loc| < 1 / 10 ^ 12

/-- A mesh as the reader builds it: a coordinate belongs to one node, and the coordinates of a face are those of
its nodes. -/
structure Sound (m : Mesh) : Prop where
  apart : ∀ i j : Nat, ∀ a b, m.nodes[i]? = some a → m.nodes[j]? = some b → i ≠ j → ∀ c ∈ a, c ∉ b
  faces : ∀ f ∈ m.faces, List.Forall₂ (fun n c => ∃ a, m.nodes[n]? = some a ∧ c ∈ a) f.nodes f.coords

/-- No periodic connections: a node has one coordinate. -/
def NotPeriodic (m : Mesh) : Prop := ∀ a ∈ m.nodes, ∀ c ∈ a, ∀ c' ∈ a, c = c'

/-- The points of an element of the result. -/
def pointsOf (r : Result) (e : List Nat) : List (Option Point) := e.map fun i => (r.coords[i]?).map (·.2)

/-- The name of a coordinate, in the two spellings. -/
def NameOf (s : String) (k : Nat) : Prop :=
  (s, k) ∈ [("x", 0), ("x0", 0), ("y", 1), ("x1", 1), ("z", 2), ("x2", 2)]

end Verif.ExtractSurface
