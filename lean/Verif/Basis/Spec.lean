import Verif.Basis.Sets
import Mathlib.Data.List.Forall2

/-! # Vocabulary of the basis function properties -/
namespace Verif.Basis
open Verif.RefGeometry

/-- All functions of one element of a conforming method, when the sets of orientation `o` are used
on all edges and faces. -/
def conformingSet {F : Type} (o : Nat) (vertex : List (List F)) (edge face : List (OrientedSet F))
    (interior : List F) : List F :=
  vertex.flatten ++ (edge.filter (·.orientation = o)).flatMap (·.fns) ++
    (face.filter (·.orientation = o)).flatMap (·.fns) ++ interior

/-- `f` is zero on every face of the element that does not contain all the given nodes. -/
def VanishesOff {d : Nat} (faces : List (Face d)) (nodes : List Nat) (f : Pt (d + 1) → ℝ) : Prop :=
  ∀ F ∈ faces, (∃ a ∈ nodes, a ∉ F.nodeIdx) → ∀ x, f (F.map.transform x) = 0

/-- `VanishesOff` for all functions of oriented sets, the nodes of the entity being looked up in a
table. -/
def SetsVanishOff {d : Nat} {F : Type} (eval : F → Pt (d + 1) → ℝ) (faces : List (Face d))
    (table : List (List Nat)) (sets : List (OrientedSet F)) : Prop :=
  ∀ s ∈ sets, ∃ nodes, table[s.face]? = some nodes ∧
    ∀ f ∈ s.fns, VanishesOff faces nodes (eval f)

/-- The functions a mesh uses for the local face (or edge) `i` with orientation `o`:
MeshManipulator_Impl.h:1075-1107 searches the set for which `checkOrientation(o, i)` holds. -/
def fnsOf {d : Nat} {F : Type} (eval : F → Pt d → ℝ) (sets : List (OrientedSet F)) (i o : Nat) :
    List (Pt d → ℝ) :=
  match sets.find? (fun s => s.orientation = o ∧ s.face = i) with
  | some s => s.fns.map eval
  | none => []

/-- A face of an element of a certain shape together with the functions that are attached to it for
each order and orientation. -/
structure FaceOf (d : Nat) where
  face : Face d
  fns : (order orientation : Nat) → List (Pt (d + 1) → ℝ)

/-- The `n`-th functions of the two sides have the same values on the common face: the point `x` of
the left face is the point `K x` of the right face. -/
def TracesMatch {d : Nat} (L R : Face d) (K : RefMap d d) (l r : List (Pt (d + 1) → ℝ)) : Prop :=
  List.Forall₂ (fun f g => ∀ x, f (L.map.transform x) = g (R.map.transform (K.transform x))) l r

/-- The faces of two dimensional elements (lines). -/
noncomputable def lineFacesOf : List (FaceOf 1) :=
  triangleFaces.zipIdx.map
    (fun (F, i) => ⟨F, fun o k => fnsOf TriangleFn.eval (triangleFaceSets o) i k⟩) ++
  squareFaces.zipIdx.map
    (fun (F, i) => ⟨F, fun o k => fnsOf SquareFn.eval (squareFaceSets o) i k⟩)

/-- The triangular faces of tetrahedra and prisms. -/
noncomputable def triangularFacesOf : List (FaceOf 2) :=
  tetrahedronFaces.zipIdx.map
    (fun (F, i) => ⟨F, fun o k => fnsOf TetFn.eval (tetFaceSets o) i k⟩) ++
  (prismFaces.zipIdx.take 2).map
    (fun (F, i) => ⟨F, fun o k => fnsOf PrismFn.eval (prismFaceSets o) i k⟩)

/-- The faces of cubes. -/
noncomputable def cubeFacesOf : List (FaceOf 2) :=
  cubeFaces.zipIdx.map (fun (F, i) => ⟨F, fun o k => fnsOf CubeFn.eval (cubeFaceSets o) i k⟩)

/-- The square faces of prisms. -/
noncomputable def prismSquareFacesOf : List (FaceOf 2) :=
  (prismFaces.zipIdx.drop 2).map
    (fun (F, i) => ⟨F, fun o k => fnsOf PrismFn.eval (prismFaceSets o) i k⟩)

/-- An edge of a three dimensional element: the positions of its two nodes, in the local order, and
the functions that are attached to it. -/
structure EdgeOf where
  node0 : Pt 3
  node1 : Pt 3
  fns : (order orientation : Nat) → List (Pt 3 → ℝ)

/-- The point at fraction `s` of the edge. The mesh uses orientation 0 if the first local node has
the smaller global number and 1 otherwise (Edge.cpp:52-64); `s` runs from the node with the smaller
global number to the other one. -/
noncomputable def EdgeOf.point (e : EdgeOf) (orientation : Nat) (s : ℝ) : Pt 3 :=
  if orientation = 0 then fun i => (1 - s) * e.node0 i + s * e.node1 i
  else fun i => (1 - s) * e.node1 i + s * e.node0 i

/-- The `n`-th functions of two elements have the same values on their common edge. -/
def EdgesMatch (e e' : EdgeOf) (order o o' : Nat) : Prop :=
  List.Forall₂ (fun f g => ∀ s, f (e.point o s) = g (e'.point o' s)) (e.fns order o)
    (e'.fns order o')

/-- Edges given by a node table. -/
noncomputable def mkEdges {F : Type} (g : Geom 3) (eval : F → Pt 3 → ℝ)
    (sets : Nat → List (OrientedSet F)) (table : List (List Nat)) : List EdgeOf :=
  table.zipIdx.map fun (ns, i) =>
    { node0 := (g.nodes[ns.headD 0]?).getD 0
      node1 := (g.nodes[ns.getLastD 0]?).getD 0
      fns := fun order o => fnsOf eval (sets order) i o }

/-- ReferenceTriangularPrism.cpp:52-53 -/
def prismEdgeTable : List (List Nat) :=
  [[0, 1], [0, 2], [1, 2], [3, 4], [3, 5], [4, 5], [0, 3], [1, 4], [2, 5]]

/-- ReferenceCube.cpp:56-59 -/
def cubeEdgeTable : List (List Nat) :=
  [[0, 1], [2, 3], [4, 5], [6, 7], [0, 2], [1, 3], [4, 6], [5, 7], [0, 4], [1, 5], [2, 6], [3, 7]]

/-- The edges of tetrahedra and prisms. -/
noncomputable def tetPrismEdges : List EdgeOf :=
  mkEdges tetrahedronG TetFn.eval tetEdgeSets tetrahedronEdges ++
    mkEdges prismG PrismFn.eval prismEdgeSets prismEdgeTable

/-- The edges of cubes. -/
noncomputable def cubeEdges : List EdgeOf := mkEdges cubeG CubeFn.eval cubeEdgeSets cubeEdgeTable

/-- The trace on a face of the function of node number `a` of the face is the function of node `a`
of the face geometry. -/
def VertexTraces {n m d : Nat} (nodes : List (Pt (d + 1))) (vertex : Fin n → Pt (d + 1) → ℝ)
    (faceVertex : Fin m → Pt d → ℝ) (F : Face d) : Prop :=
  F.nodeIdx.length = m ∧ nodes.length = n ∧
    ∀ (a : Fin m) (i : Fin n), F.nodeIdx[a.val]? = some i.val →
      ∀ x, vertex i (F.map.transform x) = faceVertex a x

/-- The functions of a set are linearly independent on the reference shape. -/
def Independent {d : Nat} {F : Type} (g : Geom d) (eval : F → Pt d → ℝ) (S : List F) : Prop :=
  ∀ c : F → ℝ, (∀ p, g.isInternal p → (S.map fun f => c f * eval f p).sum = 0) → ∀ f ∈ S, c f = 0

end Verif.Basis
