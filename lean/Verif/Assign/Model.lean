import Verif.Basis.Sets
import Verif.ElementData.Model

/-!
# Model of the assignment of basis functions to a mesh

`MeshManipulator::useDefaultDGBasisFunctions`, `useDefaultConformingBasisFunctions` and
`clearBasisFunctionAssignment` (kernel/Base/MeshManipulator_Impl.h:101-1023) with the functions of `Element`, `Face`, `Edge`
and `Node` they call. A failing assertion, an error that is logged, or an index out of range is `none`. Not modelled:
`configData_->numberOfBasisFunctions_`, which the overloads for one unknown count up and nobody reads, the quadrature rules
that are chosen along the way, and the number of functions an element stores beside the list of its sets (C32).
-/
namespace Verif.Assign
open Verif.Basis Verif.ElementData

/-- Geometry::ReferenceGeometryType (ReferenceGeometry.h:57-70) -/
inductive Kind
  | point | line | triangle | square | tetrahedron | pyramid | prism | cube | hypercube
deriving DecidableEq

/-- A basis function of one of the shapes. The pyramid has vertex functions and a constant only
(BasisFunctions3DH1ConformingPyramid.cpp:171-206). -/
inductive Fn
  | line (f : LineFn)
  | triangle (f : TriangleFn)
  | square (f : SquareFn)
  | tetrahedron (f : TetFn)
  | pyramid (node : Fin 5)
  | pyramidConstant
  | prism (f : PrismFn)
  | cube (f : CubeFn)
deriving DecidableEq

/-- `BasisFunctionSet` and `OrientedBasisFunctionSet`; `aim` is what the latter keeps, the orientation and the number of the
face or edge (OrientedBasisFunctionSet.h:54-80). -/
structure FSet where
  order : Nat
  aim : Option (Nat × Nat)
  fns : List Fn
deriving DecidableEq

/-- A set without orientation. -/
def plain {F : Type} (order : Nat) (wrap : F → Fn) (l : List F) : FSet := ⟨order, none, l.map wrap⟩

/-- A set with orientation. -/
def oriented {F : Type} (order : Nat) (wrap : F → Fn) (s : OrientedSet F) : FSet :=
  ⟨order, some (s.orientation, s.face), s.fns.map wrap⟩

/-- The sets of a shape for conforming functions, as they are added to the collection. -/
structure Sets where
  interior : FSet
  faces : List FSet
  edges : List FSet
  nodes : List FSet

/-- MeshManipulator_Impl.h:418-604 and 736-910: the sets that are made for a shape. -/
def conforming (order : Nat) : Kind → Option Sets
  | .line => some ⟨plain order .line (lineInterior order), (lineVertexSets order).map (oriented order .line), [], []⟩
  | .square => some ⟨plain order .square (squareInterior order), (squareFaceSets order).map (oriented order .square), [],
      (squareVertexSets order).map (plain order .square)⟩
  | .triangle => some ⟨plain order .triangle (triangleInterior order),
      (triangleFaceSets order).map (oriented order .triangle), [], (triangleVertexSets order).map (plain order .triangle)⟩
  | .cube => some ⟨plain order .cube (cubeInterior order), (cubeFaceSets order).map (oriented order .cube),
      (cubeEdgeSets order).map (oriented order .cube), (cubeVertexSets order).map (plain order .cube)⟩
  | .tetrahedron => some ⟨plain order .tetrahedron (tetInterior order),
      (tetFaceSets order).map (oriented order .tetrahedron), (tetEdgeSets order).map (oriented order .tetrahedron),
      (tetVertexSets order).map (plain order .tetrahedron)⟩
  | .prism => some ⟨plain order .prism (prismInterior order), (prismFaceSets order).map (oriented order .prism),
      (prismEdgeSets order).map (oriented order .prism), (prismVertexSets order).map (plain order .prism)⟩
  | .pyramid => if order = 1 then
      some ⟨plain order .pyramid [], [], [], (List.finRange 5).map fun i => plain order .pyramid [i]⟩ else none
  | .hypercube => none
  | .point => none

/-- MeshManipulator_Impl.h:164-226 and 252-314: the set that is made for a shape. -/
def discontinuous (order : Nat) : Kind → Option FSet
  | .line => some (plain order .line (lineDG order))
  | .square => some (plain order .square (squareDG order))
  | .triangle => some (plain order .triangle (triangleDG order))
  | .cube => some (plain order .cube (cubeDG order))
  | .tetrahedron => some (plain order .tetrahedron (tetDG order))
  | .prism => some (plain order .prism (prismDG order))
  | .pyramid => if order = 1 then some (plain order .pyramid (List.finRange 5))
      else if order = 0 then some ⟨order, none, [.pyramidConstant]⟩ else none
  | .hypercube => none
  | .point => none

/-- An element: its shape and the lengths of `facesList_`, `edgesList_` and `nodesList_` (Element.h:478-485). -/
structure Elem where
  kind : Kind
  faces : Nat
  edges : Nat
  nodes : Nat

/-- A side of a face or an edge as seen from an element: the element, the local number, the orientation. -/
structure Side where
  elem : Nat
  num : Nat
  orient : Nat
deriving DecidableEq

/-- A corner of an element: `getNodeNumber` and `getTopologicalNodeNumber`, which is `-1` (here `none`) for a node that only
belongs to the geometry of a curved element. -/
structure Corner where
  elem : Nat
  num : Nat
  topological : Option Nat

/-- The mesh as the functions see it (`getElementsList` etc. with `IteratorType::GLOBAL`). For the left side of a face the
element and the local number are kept, its orientation is always 0; the right side has `getFaceToFaceMapIndex` (MeshManipulator_Impl.h:624, 637). -/
structure Mesh where
  dim : Nat
  unknowns : Nat
  elems : List Elem
  faces : List ((Nat × Nat) × Option Side)
  edges : List (List Side)
  nodes : List (List Corner)

/-- What beside elements has functions of its own. -/
inductive Part
  | face | edge | node
deriving DecidableEq

/-- What is assigned: `collBasisFSet_`, `basisFunctions_` of the elements and `numberOfConformingDOFOnThe…` of faces, edges
and nodes, by unknown. -/
structure St where
  coll : List FSet
  elems : List EBF
  counts : Part → List (List Nat)

/-- A place in the list of sets of an element. -/
inductive Slot
  | face (f : Nat) | edge (j : Nat) | node (k : Nat)
deriving DecidableEq

/-- Element.cpp:100-138: the checks and the number of the place. -/
def Elem.place (e : Elem) : Slot → Option Nat
  | .face f => if f < e.faces then some (1 + f) else none
  | .edge j => if j < e.edges then some (1 + e.faces + j) else none
  | .node k => if k < e.nodes then some (1 + e.faces + e.edges + k) else none

/-- The calls that are made while the faces, edges and nodes are visited. -/
inductive Call
  | put (elem : Nat) (s : Slot) (position : Nat)
  | count (part : Part) (i n : Nat)

/-- What the collection knows of its sets beside the functions. -/
def sizesOf (coll : List FSet) : List BSet := coll.map fun s => ⟨s.fns.length, s.order⟩

/-- Element.h:118-147: register a set for the unknowns of a list. -/
def registerAll (sets : List BSet) (p pos : Nat) : List Nat → EBF → Option EBF
  | [], b => some b
  | u :: us, b => (b.register sets u p pos).bind (registerAll sets p pos us)

/-- `setLocalNumberOfBasisFunctions` (Face.h:285-298, Edge.h:146-159, Node.h:143-156) for the unknowns of a list.
Edges and nodes go through all the numbers they have; that is one for each unknown (`Fits` in the specification). -/
def countAll (n : Nat) : List Nat → List Nat → Option (List Nat)
  | [], l => some l
  | u :: us, l => if u < l.length then countAll n us (l.set u n) else none

/-- Change an entry of a list. -/
def modifyAt {α : Type} (i : Nat) (f : α → Option α) (l : List α) : Option (List α) :=
  (l[i]?).bind fun a => (f a).map fun b => l.set i b

/-- One call. -/
def exec (m : Mesh) (us : List Nat) (st : St) : Call → Option St
  | .put e s pos => (m.elems[e]?).bind fun el => (el.place s).bind fun p =>
      (modifyAt e (registerAll (sizesOf st.coll) p pos us) st.elems).map fun l => { st with elems := l }
  | .count part i n => (modifyAt i (countAll n us) (st.counts part)).map fun l =>
      { st with counts := Function.update st.counts part l }

/-- The calls in turn. -/
def run (m : Mesh) (us : List Nat) : List Call → St → Option St
  | [], st => some st
  | c :: cs, st => (exec m us st c).bind (run m us cs)

/-- The maps `shapeToElementIndex`, `numberOfFaceSets` and `numberOfEdgeSets`. -/
abbrev Index := Kind → Option (Nat × Nat × Nat)

/-- MeshManipulator_Impl.h:411-608 and 727-917: the elements in turn; the sets of a shape are added when it is met for the
first time. Gives the collection, the maps and the position of the interior set for each element. The element is told its
position right away in the code, here it is told by `setDefaults` afterwards; the positions do not change. -/
def gather (order : Nat) : List Elem → List FSet → Index → Option (List FSet × Index × List Nat)
  | [], coll, ix => some (coll, ix, [])
  | e :: es, coll, ix =>
    match ix e.kind with
    | some (start, _, _) => (gather order es coll ix).map fun (c, i, l) => (c, i, start :: l)
    | none => (conforming order e.kind).bind fun s =>
      (gather order es (coll ++ (s.interior :: (s.faces ++ s.edges ++ s.nodes)))
        (Function.update ix e.kind (some (coll.length, s.faces.length, s.edges.length)))).map
        fun (c, i, l) => (c, i, coll.length :: l)

/-- MeshManipulator_Impl.h:156-230 and 242-320: the same for discontinuous functions; there are no other sets than that of
the element. -/
def gatherDG (order : Nat) : List Elem → List FSet → (Kind → Option Nat) → Option (List FSet × List Nat)
  | [], coll, _ => some (coll, [])
  | e :: es, coll, ix =>
    match ix e.kind with
    | some start => (gatherDG order es coll ix).map fun (c, l) => (c, start :: l)
    | none => (discontinuous order e.kind).bind fun s =>
      (gatherDG order es (coll ++ [s]) (Function.update ix e.kind (some coll.length))).map
        fun (c, l) => (c, coll.length :: l)

/-- Element::clearBasisFunctions (Element.h:97-103) for the unknowns of a list. -/
def clearAll : List Nat → EBF → Option EBF
  | [], b => some b
  | u :: us, b => (b.clear u).bind (clearAll us)

/-- Element.h:105-116 and Element.cpp:89-98 `setDefaultBasisFunctionSet`, for the unknowns of a list: clear and register. -/
def setDefault (sets : List BSet) (pos : Nat) : List Nat → EBF → Option EBF
  | [], b => some b
  | u :: us, b => (b.clear u).bind fun b => (b.register sets u 0 pos).bind (setDefault sets pos us)

/-- `setDefaultBasisFunctionSet` for all elements. -/
def setDefaults (us : List Nat) (sets : List BSet) : List Nat → List EBF → Option (List EBF)
  | [], [] => some []
  | pos :: ps, b :: bs => (setDefault sets pos us b).bind fun b => (setDefaults us sets ps bs).map (b :: ·)
  | _, _ => none

/-- The positions from `start` on, `n` of them, at which the collection has a set for an orientation and a number
(`checkOrientation`). The sets are oriented ones at all these positions. -/
def matching (coll : List FSet) (start n o num : Nat) : List Nat :=
  (List.range' start n).filter fun i => ((coll[i]?).bind FSet.aim) == some (o, num)

/-- The size of a set of the collection. -/
def sizeAt (coll : List FSet) (i : Nat) : Nat := ((coll[i]?).map fun s => s.fns.length).getD 0

/-- What the maps say for the shape of an element; an absent shape reads as zeros (`operator[]`). -/
def lookupKind (m : Mesh) (ix : Index) (e : Nat) : Option (Nat × Nat × Nat) :=
  (m.elems[e]?).map fun el => (ix el.kind).getD (0, 0, 0)

/-- MeshManipulator_Impl.h:609-653 and 918-964: the calls for face number `i`. The number of functions is told for the left
side only. -/
def faceCalls (m : Mesh) (coll : List FSet) (ix : Index) (i : Nat) (f : (Nat × Nat) × Option Side) : Option (List Call) :=
  (lookupKind m ix f.1.1).bind fun (start, nf, _) =>
    let left := (matching coll (start + 1) nf 0 f.1.2).flatMap fun pos =>
      [Call.put f.1.1 (.face f.1.2) pos, .count .face i (sizeAt coll pos)]
    match f.2 with
    | none => some left
    | some r => (lookupKind m ix r.elem).map fun (start, nf, _) =>
        left ++ (matching coll (start + 1) nf r.orient r.num).map fun pos => Call.put r.elem (.face r.num) pos

/-- MeshManipulator_Impl.h:655-677 and 966-990: the calls for one side of edge number `i`. -/
def edgeCalls (m : Mesh) (coll : List FSet) (ix : Index) (i : Nat) (s : Side) : Option (List Call) :=
  (lookupKind m ix s.elem).map fun (start, nf, ne) =>
    (matching coll (start + nf + 1) ne s.orient s.num).flatMap fun pos =>
      [Call.put s.elem (.edge s.num) pos, .count .edge i (sizeAt coll pos)]

/-- MeshManipulator_Impl.h:686-700 and 999-1019: the calls for one corner at node number `i`. -/
def cornerCalls (m : Mesh) (coll : List FSet) (ix : Index) (i : Nat) (c : Corner) : Option (List Call) :=
  (lookupKind m ix c.elem).bind fun (start, nf, ne) => c.topological.bind fun t =>
    let pos := start + nf + ne + 1 + t
    if pos < coll.length then some [.put c.elem (.node c.num) pos, .count .node i (sizeAt coll pos)] else none

/-- The calls of a loop over a list, in turn. -/
def collect {α : Type} (f : α → Option (List Call)) : List α → Option (List Call)
  | [] => some []
  | a :: l => (f a).bind fun x => (collect f l).map (x ++ ·)

/-- MeshManipulator_Impl.h:679-703 and 992-1022: the calls for node number `i`. A node without elements fails
(`getTopologicalNodeNumber(0)`). -/
def nodeCalls (m : Mesh) (coll : List FSet) (ix : Index) (i : Nat) (n : List Corner) : Option (List Call) :=
  if m.dim > 1 then
    match n.head? with
    | none => none
    | some c => if c.topological.isNone then some [] else collect (cornerCalls m coll ix i) n
  else some []

/-- All calls, after the elements. -/
def allCalls (m : Mesh) (coll : List FSet) (ix : Index) : Option (List Call) :=
  (collect (fun p => faceCalls m coll ix p.2 p.1) m.faces.zipIdx).bind fun a =>
  (collect (fun p => collect (edgeCalls m coll ix p.2) p.1) m.edges.zipIdx).bind fun b =>
  (collect (fun p => nodeCalls m coll ix p.2 p.1) m.nodes.zipIdx).map fun c => a ++ b ++ c

/-- The part that both overloads have in common. -/
def assign (m : Mesh) (us : List Nat) (order : Nat) (st : St) : Option St :=
  if order = 0 then none else
  (gather order m.elems st.coll fun _ => none).bind fun (coll, ix, ps) =>
  (setDefaults us (sizesOf coll) ps st.elems).bind fun els =>
  (allCalls m coll ix).bind fun cs => run m us cs { st with coll := coll, elems := els }

/-- A function that may fail on all entries of a list. -/
def forAll {α : Type} (f : α → Option α) : List α → Option (List α)
  | [] => some []
  | a :: l => (f a).bind fun b => (forAll f l).map (b :: ·)

/-- MeshManipulator_Impl.h:101-119 `clearBasisFunctionAssignment`. The nodes are left alone in one dimension. -/
def clear (m : Mesh) (st : St) : Option St :=
  (forAll (clearAll (List.range m.unknowns)) st.elems).bind fun els =>
  (forAll (countAll 0 (List.range m.unknowns)) (st.counts .face)).bind fun fs =>
  (forAll (countAll 0 (List.range m.unknowns)) (st.counts .edge)).bind fun es =>
  (if m.dim > 1 then forAll (countAll 0 (List.range m.unknowns)) (st.counts .node)
    else some (st.counts .node)).map fun ns =>
    { coll := [], elems := els, counts := fun | .face => fs | .edge => es | .node => ns }

/-- MeshManipulator_Impl.h:390-705 `useDefaultConformingBasisFunctions(order)`. -/
def useConforming (m : Mesh) (order : Nat) (st : St) : Option St :=
  (clear m st).bind (assign m (List.range m.unknowns) order)

/-- MeshManipulator_Impl.h:707-1023 `useDefaultConformingBasisFunctions(order, unknown)`. -/
def useConformingFor (m : Mesh) (order unknown : Nat) (st : St) : Option St := assign m [unknown] order st

/-- The part that both overloads have in common. -/
def assignDG (m : Mesh) (us : List Nat) (order : Nat) (st : St) : Option St :=
  (gatherDG order m.elems st.coll fun _ => none).bind fun (coll, ps) =>
  (setDefaults us (sizesOf coll) ps st.elems).map fun els => { st with coll := coll, elems := els }

/-- MeshManipulator_Impl.h:153-231 `useDefaultDGBasisFunctions(order)`. -/
def useDG (m : Mesh) (order : Nat) (st : St) : Option St :=
  (clear m st).bind (assignDG m (List.range m.unknowns) order)

/-- MeshManipulator_Impl.h:233-321 `useDefaultDGBasisFunctions(order, unknown)`. -/
def useDGFor (m : Mesh) (order unknown : Nat) (st : St) : Option St :=
  if unknown > 0 then assignDG m [unknown] order st else none

/-- Edge.cpp:55-64 `addElement`: the orientation of an edge as seen from an element, from the indices of the coordinates of its
two ends, in the order in which the element lists them. -/
def edgeOrientation (first second : Nat) : Nat := if first < second then 0 else 1

end Verif.Assign
