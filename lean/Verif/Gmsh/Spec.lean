import Verif.Gmsh.Model

/-!
# What a user expects of a gmsh mesh
-/

namespace Verif.Gmsh

/-- An element as gmsh writes it: type, tags, node tags. -/
structure FileElement where
  type : Nat
  tags : List Nat
  nodes : List Nat

/-- The numbers that describe element `index` (counted from 0) in the file. -/
def FileElement.tokens (index : Nat) (e : FileElement) : List Nat :=
  [index + 1, e.type, e.tags.length] ++ e.tags ++ e.nodes

/-- The numbers of all elements, numbered from 1. -/
def tokensFrom : Nat → List FileElement → List Nat
  | _, [] => []
  | i, e :: es => e.tokens i ++ tokensFrom (i + 1) es

/-- gmsh's documentation of the element types hpGEM knows: type, dimension, number of nodes (line,
triangle, quadrilateral, tetrahedron, cube, prism, pyramid, the quadratic line, triangle and
tetrahedron, point). -/
def documented : List (Nat × Nat × Nat) :=
  [(1, 1, 2), (2, 2, 3), (3, 2, 4), (4, 3, 4), (5, 3, 8), (6, 3, 6), (7, 3, 5), (8, 1, 3), (9, 2, 6),
    (11, 3, 10), (15, 0, 1)]

/-- The result of reading an element: dimension and number of nodes of its type, its first tag, and its
nodes, counted from 0, in hpGEM's order. -/
def ReadAs (e : FileElement) (r : RawElement) : Prop :=
  (e.type, r.dim, e.nodes.length) ∈ documented ∧ r.tag = e.tags.head? ∧
    ElementReorder.reorderToHpGem ElementReorder.gmshTypes r.dim (e.nodes.map (· - 1)) =
      some r.coordinates

/-- The number of coordinates needed for a node. -/
def needed (n : Node) : Nat := if |n.z| > tol then 3 else if |n.y| > tol then 2 else if |n.x| > tol then 1 else 0

end Verif.Gmsh
