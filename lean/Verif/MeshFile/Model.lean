import Verif.PreMesh.Model
import Mathlib.Order.Defs.LinearOrder

/-! # The mesh file between the preprocessor and the solver

Models `outputMesh` (`applications/Preprocessor/lib/output_impl.h`) and `MeshManipulator::readMesh`
(`kernel/Base/MeshManipulator_Impl.h`) with `MeshFileInformation::readInformation`
(`kernel/Base/MeshFileInformation.cpp`).

A file is a list of tokens with explicit ends of lines; spaces only separate tokens. Numbers are exact, so writing with
`std::hexfloat` and reading with `readDouble` is taken to be lossless. A zone name is one token, the text of its line.
The space that is reserved for the node counts is the subject of `MeshFile/Counts.lean`; here the counts are written in
place. Only version 2 of the format is read. `none` stands for an abort, a failed read or an index outside a container. -/
namespace Verif.MeshFile
open Verif.PreMesh

/-- A token of a mesh file. -/
inductive Tok (R : Type) where
  | nat (n : Nat)
  | real (x : R)
  | word (s : String)
  | eol
deriving DecidableEq

variable {R : Type} [LinearOrder R]

/-- `std::set::insert`, on the entries in increasing order. -/
def insertSet {α : Type} [LT α] [DecidableEq α] [DecidableRel (LT.lt (α := α))] (a : α) : List α → List α
  | [] => [a]
  | b :: l => if a = b then b :: l else if a < b then a :: b :: l else b :: insertSet a l

/-- `std::set` with the given entries. -/
def toSet {α : Type} [LT α] [DecidableEq α] [DecidableRel (LT.lt (α := α))] (l : List α) : List α := l.foldr insertSet []

/-! ## Writing -/

/-- The partitions of the elements of node `n` (output_impl.h:137-142, 187-191). -/
def ownersAt (m : Mesh (List R)) (parts : List Nat) (n : Nat) : Option (List Nat) := do
  let ent ← (m.ents 0)[n]?
  ent.inc.mapM fun q => parts[q.1]?

/-- The partitions of all elements that share a node with element `e`. -/
def around (m : Mesh (List R)) (parts : List Nat) (e : Nat) : Option (List Nat) := do
  let el ← m.elems[e]?
  let ls ← (el.inc 0).mapM (ownersAt m parts)
  some ls.flatten

/-- `nodePartitions` (output_impl.h:129-144). -/
def nodePartitions (m : Mesh (List R)) (parts : List Nat) (ent : Entity) : Option (List Nat) := do
  let ls ← ent.inc.mapM fun q => do
    let own ← parts[q.1]?
    let a ← around m parts q.1
    some (own :: a.filter (· ≠ own))
  some (toSet ls.flatten)

/-- The coordinate that element `q.1` has at its local node `q.2`. -/
def posAt (m : Mesh (List R)) (q : Nat × Nat) : Option (List R) := do
  let el ← m.elems[q.1]?
  let c ← el.coords[q.2]?
  let co ← m.coords[c]?
  some co.pos

/-- `nodeCoordinates` (output_impl.h:130, 145-152), in increasing order. -/
def nodeCoordinates (m : Mesh (List R)) (ent : Entity) : Option (List (List R)) := do
  let ps ← ent.inc.mapM (posAt m)
  some (toSet ps)

/-- The lines of a node (output_impl.h:163-175). -/
def nodeLines (m : Mesh (List R)) (parts : List Nat) (ent : Entity) : Option (List (Tok R)) := do
  let ps ← nodePartitions m parts ent
  let cs ← nodeCoordinates m ent
  some (.nat ps.length :: ps.map .nat ++ .eol :: .nat cs.length :: cs.flatten.map .real ++ [.eol])

/-- `coordinateIndices[node][node.getElementIndex(element)]` (output_impl.h:155-162, 182): the position of the coordinate
of the first occurrence of the element in the list of the node (MeshEntity_Impl.h:59-68). -/
def coordinateIndex (m : Mesh (List R)) (n e : Nat) : Option Nat := do
  let ent ← (m.ents 0)[n]?
  let cs ← nodeCoordinates m ent
  let q ← ent.inc.find? fun q => q.1 = e
  let x ← posAt m q
  some (cs.idxOf x)

/-- `shadowPartitions` (output_impl.h:186-194). -/
def shadowPartitions (m : Mesh (List R)) (parts : List Nat) (e : Nat) : Option (List Nat) := do
  let own ← parts[e]?
  let a ← around m parts e
  some (toSet (a.filter (· ≠ own)))

/-- The lines of an element (output_impl.h:177-200). -/
def elementLines (m : Mesh (List R)) (parts : List Nat) (el : Elem) : Option (List (Tok R)) := do
  let ns ← (el.inc 0).mapM fun n => do
    let i ← coordinateIndex m n el.id
    some [.nat n, .nat i]
  let own ← parts[el.id]?
  let sh ← shadowPartitions m parts el.id
  some (.nat (el.inc 0).length :: ns.flatten ++ .nat own :: .nat sh.length :: sh.map .nat ++ [.eol, .nat el.zone, .eol])

/-- `localPartitions` (output_impl.h:77-88). -/
def entityPartitions (m : Mesh (List R)) (parts : List Nat) (ent : Entity) : Option (List Nat) := do
  let ls ← ent.inc.mapM fun q => around m parts q.1
  some (toSet ls.flatten)

/-- The line of a face or an edge (output_impl.h:77-94). -/
def entityLine (m : Mesh (List R)) (parts : List Nat) (ent : Entity) : Option (List (Tok R)) := do
  let ps ← entityPartitions m parts ent
  some (.nat ent.inc.length :: (ent.inc.map fun q => [.nat q.1, .nat q.2]).flatten ++ .nat ps.length :: ps.map .nat ++ [.eol])

/-- `printOtherEntities` (output_impl.h:64-97), from dimension `d` down. -/
def otherLines (m : Mesh (List R)) (parts : List Nat) (dim : Nat) : Nat → Option (List (Tok R))
  | 0 => some []
  | d + 1 => do
    let ls ← (m.ents (d + 1)).mapM (entityLine m parts)
    let rest ← otherLines m parts dim d
    some (.word ("codim" ++ toString (dim - (d + 1))) :: .eol :: ls.flatten ++ rest)

/-- `printOtherEntityCounts` (output_impl.h:51-62), from dimension `d` down. -/
def otherCounts (m : Mesh (List R)) : Nat → List (Tok R)
  | 0 => []
  | d + 1 => .nat (m.ents (d + 1)).length :: otherCounts m d

/-- `partitionData` (output_impl.h:127, 165): how many nodes each partition has. Partitions that do not exist are outside
the vector. -/
def partitionData (m : Mesh (List R)) (parts : List Nat) (count : Nat) : Option (List Nat) := do
  let ls ← (m.ents 0).mapM (nodePartitions m parts)
  if ls.flatten.all (· < count) then some ((List.range count).map fun p => ls.flatten.count p) else none

/-- `outputMesh` (output_impl.h:99-210). -/
def write (dim : Nat) (m : Mesh (List R)) (parts : List Nat) (count : Nat) : Option (List (Tok R)) := do
  let counts ← partitionData m parts count
  let nodes ← (m.ents 0).mapM (nodeLines m parts)
  let elems ← m.elems.mapM (elementLines m parts)
  let others ← otherLines m parts dim (dim - 1)
  some (.word "mesh" :: .nat 2 :: .eol :: .nat (m.ents 0).length :: .nat m.elems.length :: .nat dim :: otherCounts m (dim - 1)
    ++ .eol :: .nat count :: counts.map .nat ++ .eol :: .word "zones" :: .eol :: .nat m.zones.length :: .eol ::
    (m.zones.map fun z => [.word z, .eol]).flatten ++ .word "nodes" :: .eol :: nodes.flatten
    ++ .word "elements" :: .eol :: elems.flatten ++ others)

/-! ## Reading -/

/-- Skipping white space. -/
def strip : List (Tok R) → List (Tok R)
  | .eol :: t => strip t
  | t => t

/-- `input >> n` for `std::size_t`. -/
def readNat (t : List (Tok R)) : Option (Nat × List (Tok R)) :=
  match strip t with
  | .nat n :: t => some (n, t)
  | _ => none

/-- `readDouble` (MeshManipulator_Impl.h:2036-2067). -/
def readReal (t : List (Tok R)) : Option (R × List (Tok R)) :=
  match strip t with
  | .real x :: t => some (x, t)
  | _ => none

/-- `readSegmentHeader` (MeshManipulator_Impl.h:1493-1501). -/
def readHeader (s : String) (t : List (Tok R)) : Option (List (Tok R)) :=
  match strip t with
  | .word w :: t => if w = s then some t else none
  | _ => none

/-- `input.ignore(max, '\n')`. -/
def ignoreLine : List (Tok R) → List (Tok R)
  | [] => []
  | .eol :: t => t
  | _ :: t => ignoreLine t

/-- `n` times `input >> x`. -/
def readNats : Nat → List (Tok R) → Option (List Nat × List (Tok R))
  | 0, t => some ([], t)
  | n + 1, t => do
    let (x, t) ← readNat t
    let (xs, t) ← readNats n t
    some (x :: xs, t)

/-- `n` coordinates of dimension `dim` (MeshManipulator_Impl.h:1604-1612). -/
def readReals : Nat → List (Tok R) → Option (List R × List (Tok R))
  | 0, t => some ([], t)
  | n + 1, t => do
    let (x, t) ← readReal t
    let (xs, t) ← readReals n t
    some (x :: xs, t)

/-- The loop over the coordinates of a node (MeshManipulator_Impl.h:1604-1613). -/
def readPoints (dim : Nat) : Nat → List (Tok R) → Option (List (List R) × List (Tok R))
  | 0, t => some ([], t)
  | n + 1, t => do
    let (x, t) ← readReals dim t
    let (xs, t) ← readPoints dim n t
    some (x :: xs, t)

/-- `std::getline` for the name of a zone. -/
def readZones : Nat → List (Tok R) → Option (List String × List (Tok R))
  | 0, t => some ([], t)
  | n + 1, .word z :: .eol :: t => do
    let (zs, t) ← readZones n t
    some (z :: zs, t)
  | _, _ => none

/-- `MeshFileInformation` (MeshFileInformation.h:53-104). -/
structure Info where
  nodes : Nat
  elems : Nat
  dim : Nat
  /-- `entityCount` for the dimensions `dim - 1` down to 1. -/
  others : List Nat
  counts : List Nat
  zones : List String

/-- `readInformation` (MeshFileInformation.cpp:48-107) for version 2. -/
def readInfo (t : List (Tok R)) : Option (Info × List (Tok R)) :=
  match t with
  | .word "mesh" :: .nat 2 :: .eol :: t => do
    let (nodes, t) ← readNat t
    let (elems, t) ← readNat t
    let (dim, t) ← readNat t
    let (others, t) ← readNats (dim - 1) t
    let (count, t) ← readNat t
    let (counts, t) ← readNats count t
    match ignoreLine t with
    | .word "zones" :: .eol :: t => do
      let (zc, t) ← readNat t
      let (zones, t) ← readZones zc (ignoreLine t)
      some (⟨nodes, elems, dim, others, counts, zones⟩, t)
    | _ => none
  | _ => none

/-- The nodes read so far (MeshManipulator_Impl.h:1577-1583). `start` and `index` are the maps `startOfCoordinates` and
`localNodeIndex`, `nodes` the ids of the local nodes. -/
structure NodeState (R : Type) where
  coords : List (List R)
  start : List (Nat × Nat)
  index : List (Nat × Nat)
  nodes : List Nat
  next : Nat

/-- The loop over the partitions of a node, which stops when the own one is found (MeshManipulator_Impl.h:1593-1597). -/
def findRank (rank : Nat) : Nat → List (Tok R) → Option (Bool × List (Tok R))
  | 0, t => some (false, t)
  | n + 1, t => do
    let (p, t) ← readNat t
    if p = rank then some (true, t) else findRank rank n t

/-- The body of the loop over the nodes (MeshManipulator_Impl.h:1589-1624). -/
def readNode (rank dim i : Nat) (s : NodeState R) (t : List (Tok R)) : Option (NodeState R × List (Tok R)) := do
  let (np, t) ← readNat t
  let (present, t) ← findRank rank np t
  if present then
    let (nc, t) ← readNat (ignoreLine t)
    let (ps, t) ← readPoints dim nc t
    some (⟨s.coords ++ ps, s.start ++ [(i, s.coords.length)], s.index ++ [(i, s.nodes.length)], s.nodes ++ [s.next], s.next + 1⟩, t)
  else some ({ s with next := s.next + 1 }, ignoreLine (ignoreLine t))

/-- The loop over the nodes. -/
def readNodes (rank dim : Nat) : Nat → Nat → NodeState R → List (Tok R) → Option (NodeState R × List (Tok R))
  | 0, _, s, t => some (s, t)
  | n + 1, i, s, t => do
    let (s, t) ← readNode rank dim i s t
    readNodes rank dim n (i + 1) s t

/-- `operator[]` of `std::map`: missing entries are 0. -/
def mapAt (l : List (Nat × Nat)) (k : Nat) : Nat := ((l.find? fun p => p.1 = k).map Prod.snd).getD 0

/-- An element of the solver: its id, the positions of its coordinates and local nodes, its zone and its owner. -/
structure LElem where
  id : Nat
  coords : List Nat
  nodes : List Nat
  zone : Nat
  owner : Nat
deriving DecidableEq

/-- The elements read so far. `actual` is the map `actualElement` from index in the file to position; `push` and `pull`
are the lists of Submesh.h: partition and position of the element. -/
structure ElemState where
  elems : List LElem
  actual : List (Nat × Nat)
  push : List (Nat × Nat)
  pull : List (Nat × Nat)
  next : Nat

/-- The loop over the nodes of an element (MeshManipulator_Impl.h:1645-1651). -/
def readElemNodes (ns : NodeState R) : Nat → List (Tok R) → Option ((List Nat × List Nat) × List (Tok R))
  | 0, t => some (([], []), t)
  | n + 1, t => do
    let (g, t) ← readNat t
    let (o, t) ← readNat t
    let ((cs, xs), t) ← readElemNodes ns n t
    some (((mapAt ns.start g + o) :: cs, mapAt ns.index g :: xs), t)

/-- The body of the loop over the elements (MeshManipulator_Impl.h:1637-1702). -/
def readElem (rank zones i : Nat) (ns : NodeState R) (s : ElemState) (t : List (Tok R)) : Option (ElemState × List (Tok R)) := do
  let (n, t) ← readNat t
  let ((cs, xs), t) ← readElemNodes ns n t
  let (owner, t) ← readNat t
  let (sc, t) ← readNat t
  let (sh, t) ← readNats sc t
  let (zone, t) ← readNat t
  if zone < zones then
    if owner = rank ∨ rank ∈ sh then
      if cs.all (· < ns.coords.length) ∧ xs.all (· < ns.nodes.length) then
        let k := s.elems.length
        let el : LElem := ⟨s.next, cs, xs, zone, owner⟩
        some ({ elems := s.elems ++ [el], actual := s.actual ++ [(i, k)],
                push := if owner = rank then s.push ++ sh.map (fun q => (q, k)) else s.push,
                pull := if owner = rank then s.pull else s.pull ++ [(owner, k)], next := s.next + 1 }, t)
      else none
    else some ({ s with next := s.next + 1 }, t)
  else none

/-- The loop over the elements. -/
def readElems (rank zones : Nat) (ns : NodeState R) : Nat → Nat → ElemState → List (Tok R) → Option (ElemState × List (Tok R))
  | 0, _, s, t => some (s, t)
  | n + 1, i, s, t => do
    let (s, t) ← readElem rank zones i ns s t
    readElems rank zones ns n (i + 1) s t

/-- `FaceType` (FaceGeometry.h:129-137), as far as it is used here. -/
inductive FaceType where
  | internal | periodic | wall | subdomain | periodicSubdomain | partialFace
deriving DecidableEq

/-- A face of the solver: position of the elements and local face numbers. -/
structure LFace where
  id : Nat
  left : Nat × Nat
  right : Option (Nat × Nat)
  type : FaceType
deriving DecidableEq

/-- `actualElement[i]`, a null pointer if the element is not here. -/
def actualAt (s : ElemState) (i : Nat) : Option Nat := (s.actual.find? fun p => p.1 = i).map Prod.snd

/-- Pairs of an element and a local number. -/
def readPairs : Nat → List (Tok R) → Option (List (Nat × Nat) × List (Tok R))
  | 0, t => some ([], t)
  | n + 1, t => do
    let (e, t) ← readNat t
    let (i, t) ← readNat t
    let (ps, t) ← readPairs n t
    some ((e, i) :: ps, t)

/-- Adding a face (MeshManipulator_Impl.h:1746-1779). `periodic` is the test on coordinates in the constructor of `Face`
(Face.cpp:87-103). -/
def makeFace (periodic : Nat × Nat → Nat × Nat → Bool) (s : ElemState) (id : Nat) (ps : List (Nat × Nat)) : Option LFace :=
  match ps with
  | [(e, i)] => (actualAt s e).map fun a => ⟨id, (a, i), none, .wall⟩
  | [(e, i), (e', i')] =>
    match actualAt s e, actualAt s e' with
    | none, none => none
    | none, some b => some ⟨id, (b, i'), none, .partialFace⟩
    | some a, none => some ⟨id, (a, i), none, .partialFace⟩
    | some a, some b => some ⟨id, (a, i), some (b, i'), if periodic (a, i) (b, i') then .periodic else .internal⟩
  | _ => none

/-- The body of the loop over the faces (MeshManipulator_Impl.h:1718-1785). The state is the faces and the next id. A
partition occurs at most once in a line written by the preprocessor; a face is added for every occurrence. -/
def readFace (rank : Nat) (periodic : Nat × Nat → Nat × Nat → Bool) (es : ElemState) (s : List LFace × Nat) (t : List (Tok R)) :
    Option ((List LFace × Nat) × List (Tok R)) := do
  let (n, t) ← readNat t
  if 0 < n ∧ n < 3 then
    let (ps, t) ← readPairs n t
    let (np, t) ← readNat t
    let (qs, t) ← readNats np t
    if rank ∈ qs then
      let fs ← (List.range (qs.count rank)).mapM fun k => makeFace periodic es (s.2 + k) ps
      some ((s.1 ++ fs, s.2 + fs.length), t)
    else some ((s.1, s.2 + 1), t)
  else none

/-- The loop over the faces. -/
def readFaces (rank : Nat) (periodic : Nat × Nat → Nat × Nat → Bool) (es : ElemState) :
    Nat → List LFace × Nat → List (Tok R) → Option ((List LFace × Nat) × List (Tok R))
  | 0, s, t => some (s, t)
  | n + 1, s, t => do
    let (s, t) ← readFace rank periodic es s t
    readFaces rank periodic es n s t

/-- An edge of the solver. -/
structure LEdge where
  id : Nat
  elems : List (Nat × Nat)
deriving DecidableEq

/-- The body of the loop over the edges (MeshManipulator_Impl.h:1796-1829). -/
def readEdge (rank : Nat) (es : ElemState) (s : List LEdge × Nat) (t : List (Tok R)) :
    Option ((List LEdge × Nat) × List (Tok R)) := do
  let (n, t) ← readNat t
  let (ps, t) ← readPairs n t
  let (np, t) ← readNat t
  let (qs, t) ← readNats np t
  if rank ∈ qs then
    let here := ps.filterMap fun q => (actualAt es q.1).map fun a => (a, q.2)
    some ((s.1 ++ (List.range (qs.count rank)).map (fun k => ⟨s.2 + k, here⟩), s.2 + qs.count rank), t)
  else some ((s.1, s.2 + 1), t)

/-- The loop over the edges. -/
def readEdges (rank : Nat) (es : ElemState) : Nat → List LEdge × Nat → List (Tok R) → Option ((List LEdge × Nat) × List (Tok R))
  | 0, s, t => some (s, t)
  | n + 1, s, t => do
    let (s, t) ← readEdge rank es s t
    readEdges rank es n s t

/-- One visit of the last loop to an internal face (MeshManipulator_Impl.h:1853-1863). -/
def visit : FaceType → FaceType
  | .internal => .subdomain
  | _ => .periodicSubdomain

/-- The last loop (MeshManipulator_Impl.h:1850-1867): a face with two elements is visited once for each side on an element
of another partition. -/
def relabel (pulled : List Nat) (f : LFace) : LFace :=
  match f.right with
  | none => f
  | some r =>
    let once := if f.left.1 ∈ pulled then visit f.type else f.type
    { f with type := if r.1 ∈ pulled then visit once else once }

/-- The faces of a one-dimensional mesh (MeshManipulator_Impl.h:1834-1848) for nodes with the given ids and elements. The
state is `lastIndex`, the next id and the faces. -/
def facesOfNodes (periodic : Nat × Nat → Nat × Nat → Bool) : List (Nat × List (Nat × Nat)) → Nat → Nat → Option (List LFace)
  | [], _, _ => some []
  | (id, ps) :: rest, last, next => do
    -- the indices of nodes that are not here are skipped
    let skipped := (id - 1) - last
    let next := next + skipped
    let f ← match ps with
      | [] => none
      | [q] => some ⟨next, q, none, .wall⟩
      | q :: r :: _ => some ⟨next, q, some r, if periodic q r then .periodic else .internal⟩
    let fs ← facesOfNodes periodic rest (last + skipped + 1) (next + 1)
    some (f :: fs)

/-- What one process knows after reading. -/
structure Local (R : Type) where
  zones : List String
  coords : List (List R)
  nodes : List Nat
  elems : List LElem
  push : List (Nat × Nat)
  pull : List (Nat × Nat)
  faces : List LFace
  edges : List LEdge

/-- The elements of a local node, in the order of `Node::addElement`. -/
def elemsOf (elems : List LElem) (n : Nat) : List (Nat × Nat) :=
  (elems.zipIdx.map fun (el, k) => (el.nodes.zipIdx.filter fun (x, _) => x = n).map fun (_, j) => (k, j)).flatten

/-- A segment header that only meshes of dimension more than `d` have (MeshManipulator_Impl.h:1708-1710, 1790-1792). -/
def readSegment (d dim : Nat) (s : String) (t : List (Tok R)) : Option (List (Tok R)) := if d < dim then readHeader s t else some t

/-- The faces, which are made of the nodes in one dimension (MeshManipulator_Impl.h:1834). -/
def allFaces (dim : Nat) (periodic : Nat × Nat → Nat × Nat → Bool) (nodes : List Nat) (elems : List LElem) (fs : List LFace) :
    Option (List LFace) :=
  if dim = 1 then facesOfNodes periodic (nodes.zipIdx.map fun (id, n) => (id, elemsOf elems n)) 0 1 else some fs

/-- `readMesh` (MeshManipulator_Impl.h:1505-1868) of a program for dimension `dim` with `procs` processes, on process
`rank`. All counters of `GlobalUniqueIndex` start at 0. `periodic` is the test of the constructor of `Face`, which depends
on the elements. -/
def read (dim procs rank : Nat) (periodic : List LElem → Nat × Nat → Nat × Nat → Bool) (t : List (Tok R)) : Option (Local R) := do
  let (info, t) ← readInfo t
  if info.dim = dim ∧ info.counts.length = procs ∧ 0 < dim ∧ (info.zones ≠ [] ∨ info.elems = 0) then
    let localNodes ← info.counts[rank]?
    let t ← readHeader "nodes" t
    let (ns, t) ← readNodes rank dim info.nodes 0 ⟨[], [], [], [], if dim = 1 then 1 else 0⟩ t
    if ns.nodes.length = localNodes then
      let t ← readHeader "elements" t
      let (es, t) ← readElems rank info.zones.length ns info.elems 0 ⟨[], [], [], [], 0⟩ t
      let t ← readSegment 1 dim "codim1" t
      let (fs, t) ← readFaces rank (periodic es.elems) es (if 1 < dim then info.others.headD 0 else 0) ([], 0) t
      let t ← readSegment 2 dim "codim2" t
      let (ed, _) ← readEdges rank es (if 2 < dim then info.others.getLastD 0 else 0) ([], 0) t
      let faces ← allFaces dim (periodic es.elems) ns.nodes es.elems fs.1
      some ⟨info.zones, ns.coords, ns.nodes, es.elems, es.push, es.pull, faces.map (relabel (es.pull.map Prod.snd)), ed.1⟩
    else none
  else none

end Verif.MeshFile
