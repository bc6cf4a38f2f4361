import Verif.Assign.Model
import Verif.Basis.Spec

/-! # Vocabulary: what an assignment of basis functions means -/
namespace Verif.Assign
open Verif.Basis Verif.ElementData Verif.RefGeometry

/-- The set an element has for an unknown at a place of its list. -/
def St.content (st : St) (e u p : Nat) : Option FSet :=
  ((st.elems[e]?).bind fun b => (b.positions[u]?).bind fun l => (l[p]?).join).bind fun i => st.coll[i]?

/-- The number of functions of a face, an edge or a node for an unknown. -/
def St.count (st : St) (part : Part) (i u : Nat) : Option Nat := ((st.counts part)[i]?).bind (·[u]?)

/-- The number of corners of a shape. -/
def Kind.corners : Kind → Nat
  | .point => 1 | .line => 2 | .triangle => 3 | .square => 4 | .tetrahedron => 4 | .pyramid => 5 | .prism => 6 | .cube => 8
  | .hypercube => 16

/-- The dimension of a shape. -/
def Kind.dim : Kind → Nat
  | .point => 0 | .line => 1 | .triangle => 2 | .square => 2 | .tetrahedron => 3 | .pyramid => 3 | .prism => 3 | .cube => 3
  | .hypercube => 4

/-- All sides of faces. -/
def Mesh.sides (m : Mesh) : List Side := m.faces.flatMap fun f => ⟨f.1.1, f.1.2, 0⟩ :: f.2.toList

/-- The mesh is put together properly: the elements have its dimension, no local face, edge or corner of an element occurs twice, they all exist, and a
corner of an element is a corner of its shape unless the node is a geometric one for all elements around it. -/
structure Mesh.Sound (m : Mesh) : Prop where
  dims : ∀ el ∈ m.elems, el.kind.dim = m.dim
  sides : (m.sides.map fun s => (s.elem, s.num)).Nodup
  side : ∀ s ∈ m.sides, ∃ el, m.elems[s.elem]? = some el ∧ s.num < el.faces
  edges : (m.edges.flatten.map fun s => (s.elem, s.num)).Nodup
  edge : ∀ s ∈ m.edges.flatten, ∃ el, m.elems[s.elem]? = some el ∧ s.num < el.edges
  corners : (m.nodes.flatten.map fun c => (c.elem, c.num)).Nodup
  corner : ∀ c ∈ m.nodes.flatten, ∃ el, m.elems[c.elem]? = some el ∧ c.num < el.nodes ∧
    ∀ t, c.topological = some t → t < el.kind.corners
  node : ∀ n ∈ m.nodes, n ≠ [] ∧ ((∀ c ∈ n, c.topological = none) ∨ ∀ c ∈ n, c.topological ≠ none)

/-- How many faces, edges, nodes there are. -/
def Mesh.number (m : Mesh) : Part → Nat
  | .face => m.faces.length | .edge => m.edges.length | .node => m.nodes.length

/-- There is a list of sets for every element and unknown and a number for every face, edge, node and unknown. -/
structure Fits (m : Mesh) (st : St) : Prop where
  elems : st.elems.length = m.elems.length
  unknowns : ∀ b ∈ st.elems, b.positions.length = m.unknowns
  parts : ∀ part, (st.counts part).length = m.number part
  part : ∀ part, ∀ l ∈ st.counts part, l.length = m.unknowns

/-- Positions in the collection are used only while there is a set. -/
def St.Valid (st : St) : Prop := ∀ b ∈ st.elems, ∀ l ∈ b.positions, ∀ i, some i ∈ l → i < st.coll.length

/-- Two ways to say which set is at a place: there is one just if `sets` has it. -/
def Holds (content : Option FSet) (sets : FSet → Prop) : Prop := ∀ s, content = some s ↔ sets s

/-- An element has, for an unknown, the conforming sets of its own shape, each at the right place, and no others. -/
structure Conforms (m : Mesh) (order : Nat) (st : St) (e u : Nat) (el : Elem) (s : Sets) : Prop where
  interior : st.content e u 0 = some s.interior
  face : ∀ r ∈ m.sides, r.elem = e →
    Holds (st.content e u (1 + r.num)) fun x => x ∈ s.faces ∧ x.aim = some (r.orient, r.num)
  edge : ∀ r ∈ m.edges.flatten, r.elem = e →
    Holds (st.content e u (1 + el.faces + r.num)) fun x => x ∈ s.edges ∧ x.aim = some (r.orient, r.num)
  node : m.dim > 1 → ∀ c ∈ m.nodes.flatten, c.elem = e → ∀ t, c.topological = some t →
    Holds (st.content e u (1 + el.faces + el.edges + c.num)) fun x => s.nodes[t]? = some x
  rest : ∀ p x, st.content e u p = some x → p = 0 ∨ (∃ r ∈ m.sides, r.elem = e ∧ p = 1 + r.num) ∨
    (∃ r ∈ m.edges.flatten, r.elem = e ∧ p = 1 + el.faces + r.num) ∨
    (∃ c ∈ m.nodes.flatten, c.elem = e ∧ c.topological.isSome ∧ m.dim > 1 ∧ p = 1 + el.faces + el.edges + c.num)

/-- The size of the set at a place, 0 if there is none. -/
def St.sizeOf (st : St) (e u p : Nat) : Nat := ((st.content e u p).map fun s => s.fns.length).getD 0

/-- The shape of a face. -/
inductive FaceShape
  | point | line | triangle | square
deriving DecidableEq

/-- The shape of a local face. -/
def Kind.faceShape : Kind → Nat → Option FaceShape
  | .line, f => if f < 2 then some .point else none
  | .triangle, f => if f < 3 then some .line else none
  | .square, f => if f < 4 then some .line else none
  | .tetrahedron, f => if f < 4 then some .triangle else none
  | .pyramid, f => if f = 0 then some .square else if f < 5 then some .triangle else none
  | .prism, f => if f < 2 then some .triangle else if f < 5 then some .square else none
  | .cube, f => if f < 6 then some .square else none
  | _, _ => none

/-- The number of ways to put two faces of this shape together. -/
def FaceShape.orientations : FaceShape → Nat
  | .point => 1 | .line => 2 | .triangle => 6 | .square => 8

/-- The number of functions that belong to a face of a shape. -/
def FaceShape.size (order : Nat) : FaceShape → Nat
  | .point => 1
  | .line => order - 1
  | .triangle => (order - 1) * (order - 2) / 2
  | .square => (order - 1) * (order - 1)

/-- The number of edges of a three dimensional shape. -/
def Kind.numEdges : Kind → Nat
  | .tetrahedron => 6 | .pyramid => 8 | .prism => 9 | .cube => 12 | _ => 0

/-- Two elements meet in a face in a way that exists: the face has the same shape for both and the orientation is one of
those of the shape. Edges have one of two orientations. -/
structure Mesh.Matches (m : Mesh) : Prop where
  face : ∀ f ∈ m.faces, ∃ el sh, m.elems[f.1.1]? = some el ∧ el.kind.faceShape f.1.2 = some sh ∧
    ∀ r ∈ f.2, ∃ el', m.elems[r.elem]? = some el' ∧ el'.kind.faceShape r.num = some sh ∧ r.orient < sh.orientations
  edge : ∀ l ∈ m.edges, ∀ r ∈ l, ∃ el, m.elems[r.elem]? = some el ∧ r.num < el.kind.numEdges ∧ r.orient < 2

/-- The values of the functions of two dimensional elements. -/
noncomputable def Fn.eval2 : Fn → Pt 2 → ℝ
  | .triangle f => f.eval
  | .square f => f.eval
  | _ => fun _ => 0

/-- The values of the functions of tetrahedra, prisms and cubes. -/
noncomputable def Fn.eval3 : Fn → Pt 3 → ℝ
  | .tetrahedron f => f.eval
  | .prism f => f.eval
  | .cube f => f.eval
  | _ => fun _ => 0

/-- The faces of a two dimensional shape. -/
noncomputable def Kind.faces2 : Kind → List (Face 1)
  | .triangle => triangleFaces
  | .square => squareFaces
  | _ => []

/-- The faces of a three dimensional shape. -/
noncomputable def Kind.faces3 : Kind → List (Face 2)
  | .tetrahedron => tetrahedronFaces
  | .prism => prismFaces
  | .cube => cubeFaces
  | _ => []

/-- The ends of an edge of a three dimensional shape, in the order in which the shape lists them. -/
noncomputable def Kind.ends (k : Kind) (i : Nat) : Option (Pt 3 × Pt 3) :=
  let t : Option (Geom 3 × List (List Nat)) := match k with
    | .tetrahedron => some (tetrahedronG, tetrahedronEdges)
    | .prism => some (prismG, prismEdgeTable)
    | .cube => some (cubeG, cubeEdgeTable)
    | _ => none
  t.bind fun (g, table) => (table[i]?).map fun ns => ((g.nodes[ns.headD 0]?).getD 0, (g.nodes[ns.getLastD 0]?).getD 0)

/-- The point at fraction `s` of an edge, counted from one of its two nodes in the mesh; `forward` tells whether the element
lists this node first. -/
noncomputable def along (ends : Pt 3 × Pt 3) (forward : Bool) (s : ℝ) : Pt 3 :=
  if forward then fun i => (1 - s) * ends.1 i + s * ends.2 i else fun i => (1 - s) * ends.2 i + s * ends.1 i

/-- Two sets have the same values along an edge, one by one. -/
def AgreeAlong (x y : FSet) (ends ends' : Pt 3 × Pt 3) (forward forward' : Bool) : Prop :=
  List.Forall₂ (fun f g => ∀ s, f.eval3 (along ends forward s) = g.eval3 (along ends' forward' s)) x.fns y.fns

/-- The orientation an edge gets in an element in which its two nodes have the coordinates number `a` and `b`. -/
def orientationOf (a b : Nat) (forward : Bool) : Nat := if forward then edgeOrientation a b else edgeOrientation b a

end Verif.Assign
