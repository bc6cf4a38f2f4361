import Verif.Common.SMap
import Mathlib.Logic.Function.Basic

/-!
# Model of `Utilities::GlobalIndexing`

kernel/Utilities/GlobalIndexing.h/.cpp, the variant with MPI. Ranks are `0, …, ranks - 1`.
`std::size_t` and `int` indices are `Nat` (fewer than `2 ^ 31` basis functions); differences of
indices are `Int`. `MPI_Allgather` gives every rank the values of all ranks.

The distributed mesh is described once for all ranks: a rank only looks at the elements it owns and
at the faces, edges and nodes of these; the elements around those are all present on the rank (the
layer of ghost elements), so that every rank sees the same list of elements around them. That the
first element of such a list is the same on all ranks is an assumption on the mesh.
-/
namespace Verif.GlobalIndexing
open Function (update)

/-- The kinds of geometrical objects with basis functions. -/
inductive Kind
  | element | face | edge | node
deriving DecidableEq, Repr

/-- A geometrical object: its kind and its `getID()`. -/
structure Obj where
  kind : Kind
  id : Nat
deriving DecidableEq, Repr

/-- What `GlobalIndexing` uses of the mesh. -/
structure Mesh where
  /-- `mesh_->dimension()` -/
  dim : Nat
  /-- number of processors -/
  ranks : Nat
  /-- number of unknowns of every element -/
  unknowns : Nat
  /-- `getElementsList()` of a rank: ids of the elements it owns, in the order of iteration -/
  owned : Nat → List Nat
  /-- `element->getOwner()` -/
  owner : Nat → Nat
  /-- `getFacesList()`, `getEdgesList()`, `getNodesList()` of an element -/
  sub : Kind → Nat → List Nat
  /-- The elements around a face (the left one first), edge or node. -/
  adj : Kind → Nat → List Nat
  /-- `getLocalNumberOfBasisFunctions(unknown)` -/
  count : Obj → Nat → Nat
  /-- `getPushElements()` of a rank: target ↦ elements -/
  push : Nat → SMap (List Nat)
  /-- `getPullElements().size()` of a rank -/
  pulls : Nat → Nat

/-- `face->getPtrElementLeft()`, `edge->getElement(0)`, `node->getElement(0)` -/
def Mesh.first (m : Mesh) (k : Kind) (x : Nat) : Nat := (m.adj k x).headD 0

/-- GlobalIndexing.h:452-500 `Offsets`. The four maps are a function of the kind. -/
structure Offsets where
  blockStart : Nat := 0
  localOffset : Nat := 0
  number : Nat := 0
  included : Bool := false
  maps : Kind → SMap Nat := fun _ => []

/-- The vector `offsets_`, as a function of the unknown. -/
abbrev Table := Nat → Offsets

/-- `offsets_[u].…Offsets_[id] = v` -/
def Table.set (t : Table) (o : Obj) (u v : Nat) : Table :=
  update t u { t u with maps := update (t u).maps o.kind (((t u).maps o.kind).insert o.id v) }

/-- `offsets_[u].…Offsets_.find(id)` -/
def Table.find (t : Table) (o : Obj) (u : Nat) : Option Nat := ((t u).maps o.kind).find o.id

/-- The loop variables `offsets_` and `index`. -/
structure Loop where
  table : Table
  index : Nat

/-- `offsets_[u].…Offsets_[id] = index; index += …->getLocalNumberOfBasisFunctions(u);` -/
def number (m : Mesh) (s : Loop) (o : Obj) (u : Nat) : Loop :=
  ⟨s.table.set o u s.index, s.index + m.count o u⟩

/-- GlobalIndexing.cpp:229-264: the body of the loop over the elements, with `visit` the numbering of
one object. -/
def overElement (m : Mesh) (visit : Loop → Obj → Loop) (s : Loop) (e : Nat) : Loop :=
  let s := visit s ⟨.element, e⟩
  let s := (m.sub .face e).foldl (fun s x => if m.first .face x = e then visit s ⟨.face, x⟩ else s) s
  let s := (m.sub .edge e).foldl (fun s x => if m.first .edge x = e then visit s ⟨.edge, x⟩ else s) s
  if m.dim > 1 then
    (m.sub .node e).foldl (fun s x => if m.first .node x = e then visit s ⟨.node, x⟩ else s) s
  else s

/-- GlobalIndexing.cpp:225-265: the numbering of `constructUnblocked` on one rank, for each object all
included unknowns. -/
def localUnblocked (m : Mesh) (included : List Nat) (t : Table) (rank : Nat) : Loop :=
  (m.owned rank).foldl (overElement m fun s o => included.foldl (fun s u => number m s o u) s) ⟨t, 0⟩

/-- GlobalIndexing.cpp:305-331: the numbering for one unknown in `constructBlocked`. -/
def localBlockedOne (m : Mesh) (t : Table) (rank u : Nat) : Loop :=
  (m.owned rank).foldl (overElement m fun s o => number m s o u) ⟨t, 0⟩

/-- The variables of `constructBlocked` after line 335. -/
structure Blocked where
  table : Table
  numberOfBasisFunctions : Nat → Nat
  localNumber : Nat

/-- GlobalIndexing.cpp:297-335 -/
def localBlocked (m : Mesh) (included : List Nat) (t : Table) (rank : Nat) : Blocked :=
  included.foldl (fun s u =>
    let r := localBlockedOne m s.table rank u
    ⟨r.table, update s.numberOfBasisFunctions u r.index, s.localNumber + r.index⟩) ⟨t, fun _ => 0, 0⟩

/-- `std::partial_sum` -/
def partialSums : List Nat → List Nat
  | [] => []
  | a :: l => a :: (partialSums l).map (a + ·)

/-- GlobalIndexing.cpp:277-286, 344-352, 372-379: `globalOffset` after the `MPI_Allgather` of `value`
and the partial sum. -/
def globalOffset (m : Mesh) (base : Nat) (value : Nat → Nat) : List Nat :=
  partialSums (base :: (List.range m.ranks).map value)

/-- GlobalIndexing.cpp:864-897 `Offsets::setOffset` -/
def Offsets.setOffset (o : Offsets) (globalOffset localOffset numberOfBasisFunctions : Nat) : Offsets :=
  { o with
    localOffset := localOffset
    blockStart := globalOffset
    number := numberOfBasisFunctions
    maps := if globalOffset ≠ 0 then fun k => (o.maps k).map fun (i, v) => (i, v + globalOffset)
      else o.maps }

/-- The members of `GlobalIndexing`. -/
structure State where
  unknowns : Nat
  table : Table
  included : List Nat
  localNumber : Nat
  globalNumber : Nat

/-- GlobalIndexing.cpp:225-293 `constructUnblocked` on one rank, before the communication. The loop of
lines 288-292 runs over all unknowns and skips those that are not included. -/
def constructUnblocked (m : Mesh) (included : List Nat) (t : Table) (rank : Nat) : State :=
  let s := localUnblocked m included t rank
  let g := globalOffset m 0 fun q => (localUnblocked m included t q).index
  { unknowns := m.unknowns
    table := fun u =>
      if u < m.unknowns ∧ (s.table u).included then (s.table u).setOffset (g.getD rank 0) 0 s.index
      else s.table u
    included := included
    localNumber := s.index
    globalNumber := g.getD m.ranks 0 }

/-- GlobalIndexing.cpp:346-371: the loop for `BLOCKED_GLOBAL`; `counts q u` is the number of basis
functions for `u` on rank `q`. The last argument is `globalNumberOfBasisFunctions_`. -/
def globalLoop (m : Mesh) (counts : Nat → Nat → Nat) (rank : Nat) :
    List Nat → Nat → Nat → Table → Nat → Table × Nat
  | [], _, _, t, n => (t, n)
  | u :: l, baseOffset, localBaseOffset, t, _ =>
    let g := globalOffset m baseOffset fun q => counts q u
    globalLoop m counts rank l (g.getD m.ranks 0) (localBaseOffset + counts rank u)
      (update t u ((t u).setOffset (g.getD rank 0) localBaseOffset (counts rank u))) (g.getD m.ranks 0)

/-- GlobalIndexing.cpp:380-389: the loop for `BLOCKED_PROCESSOR`. -/
def processorLoop (counts : Nat → Nat) (start : Nat) : List Nat → Nat → Table → Table
  | [], _, t => t
  | u :: l, localOffset, t =>
    processorLoop counts start l (localOffset + counts u)
      (update t u ((t u).setOffset (start + localOffset) localOffset (counts u)))

/-- GlobalIndexing.cpp:296-401 `constructBlocked` on one rank, before the communication. -/
def constructBlocked (m : Mesh) (included : List Nat) (t : Table) (global : Bool) (rank : Nat) (old : Nat) :
    State :=
  let b := localBlocked m included t rank
  if global then
    let r := globalLoop m (fun q => (localBlocked m included t q).numberOfBasisFunctions) rank included
      0 0 b.table old
    { unknowns := m.unknowns, table := r.1, included := included, localNumber := b.localNumber
      globalNumber := r.2 }
  else
    let g := globalOffset m 0 fun q => (localBlocked m included t q).localNumber
    { unknowns := m.unknowns
      table := processorLoop b.numberOfBasisFunctions (g.getD rank 0) included 0 b.table
      included := included, localNumber := b.localNumber, globalNumber := g.getD m.ranks 0 }

/-- GlobalIndexing.h:122 -/
inductive Layout
  | sequential | blockedProcessor | blockedGlobal
deriving DecidableEq

/-- GlobalIndexing.cpp:180-205: the included unknowns, sorted; `none` if an assertion that is always
checked fails. -/
def includedUnknowns (total : Nat) : Option (List Nat) → Option (List Nat)
  | none => some (List.range total)
  | some l => if l.length > 0 ∧ ∀ u ∈ l, u < total then some (l.mergeSort (· ≤ ·)) else none

/-- GlobalIndexing.cpp:152-217 `reset` with a mesh on one rank, before the communication. `old` are
the members before the call. -/
def reset (m : Mesh) (layout : Layout) (unknowns : Option (List Nat)) (old : State) (rank : Nat) :
    Option State := do
  let included ← includedUnknowns m.unknowns unknowns
  let t : Table := fun u => { included := u ∈ included }
  some (match layout with
    | .sequential => constructUnblocked m included t rank
    | .blockedGlobal => constructBlocked m included t true rank old.globalNumber
    | .blockedProcessor => constructBlocked m included t false rank old.globalNumber)

/-- GlobalIndexing.cpp:218-222 `reset` without a mesh. -/
def State.resetNull (old : State) : State :=
  { old with localNumber := 0, unknowns := 0, table := fun _ => {} }

/-- GlobalIndexing.h:139-187 `getGlobalIndex`; `none` for the failing assertions. -/
def State.getGlobalIndex (s : State) (o : Obj) (u : Nat) : Option Nat :=
  if u < s.unknowns ∧ (s.table u).included then s.table.find o u else none

/-- GlobalIndexing.h:197-245 `getProcessorLocalIndex` -/
def State.getProcessorLocalIndex (s : State) (o : Obj) (u : Nat) : Option Int :=
  (s.getGlobalIndex o u).map fun v => (v : Int) - (s.table u).blockStart + (s.table u).localOffset

/-- GlobalIndexing.h:491-494 -/
def Offsets.owns (o : Offsets) (g : Int) : Bool :=
  o.included && decide ((o.blockStart : Int) ≤ g) && decide (g < (o.blockStart : Int) + o.number)

/-- GlobalIndexing.h:251-260 `globalToProcessorLocalIndex` -/
def State.globalToProcessorLocalIndex (s : State) (g : Int) : Int :=
  match (List.range s.unknowns).find? (fun u => (s.table u).owns g) with
  | some u => g - (s.table u).blockStart + (s.table u).localOffset
  | none => -1

/-- The objects of an element in the order of GlobalIndexing.cpp:89-124. -/
def objects (m : Mesh) (e : Nat) : List Obj :=
  ⟨.element, e⟩ :: (m.sub .face e).map (⟨.face, ·⟩) ++ (m.sub .edge e).map (⟨.edge, ·⟩) ++
    (if m.dim > 1 then (m.sub .node e).map (⟨.node, ·⟩) else [])

/-- GlobalIndexing.cpp:61-137: the indices `getGlobalIndices(element, offset, indices)` writes from
position `offset` on, in order; the return value is `offset` plus their number. `none` if an index is
not known. -/
def State.getGlobalIndices (s : State) (m : Mesh) (e : Nat) : Option (List Nat) := do
  let l ← ((List.range s.unknowns).filter fun u => (s.table u).included).mapM fun u => do
    let l ← (objects m e).mapM fun o => do
      let b ← s.getGlobalIndex o u
      some (List.range' b (m.count o u))
    some l.flatten
  some l.flatten

/-- GlobalIndexing.cpp:139-150 `getGlobalIndices(face, indices)`; `adj .face f` has one element for a
boundary face and two otherwise. -/
def State.getFaceIndices (s : State) (m : Mesh) (f : Nat) : Option (List Nat) := do
  let l ← (m.adj .face f).mapM (s.getGlobalIndices m)
  some l.flatten

end Verif.GlobalIndexing
