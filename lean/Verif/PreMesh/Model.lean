import Verif.ElementShape.Model

/-! # The mesh of the preprocessor

Models `applications/Preprocessor/lib/mesh/MeshImpl/{Mesh,MeshEntity,Element}{.h,_Impl.h}`. `none` stands for an abort
(failed assertion, `logger(ERROR, …)`), an index outside a vector or a loop that does not end. The back pointers to the
mesh are not stored: elements and entities are addressed by their position. -/
namespace Verif.PreMesh
open Verif.ElementShape

/-- `MeshEntity` (MeshEntity.h:72-239): the vectors `elementIDs` and `localIDs`, which are only changed together, form
the list `inc` of pairs. -/
structure Entity where
  id : Nat
  inc : List (Nat × Nat)
  deriving DecidableEq

/-- `Element` (Element.h:65-205). Its own `MeshEntity` part always lists the pair `(id, 0)` (Element.h:174-178). -/
structure Elem where
  id : Nat
  shape : Shape
  /-- `incidenceLists`, by dimension. -/
  inc : Nat → List Nat
  /-- `globalCoordinateIndices`. -/
  coords : List Nat
  zone : Nat

/-- `coordinateData` (Mesh.h:59-65); `none` is the invalid index `EntityGId(-1)`. -/
structure Coord (P : Type) where
  node : Option Nat
  pos : P

/-- `Mesh` (Mesh.h:55-405). -/
structure Mesh (P : Type) where
  elems : List Elem
  coords : List (Coord P)
  /-- `meshEntities`, by dimension. -/
  ents : Nat → List Entity
  zones : List String

variable {P : Type}

/-- `Mesh()` (Mesh.h:68). -/
def Mesh.empty : Mesh P := ⟨[], [], fun _ => [], []⟩

/-- Replaces the value at one dimension. -/
def upd {α : Type} (f : Nat → α) (d : Nat) (x : α) : Nat → α := fun k => if k = d then x else f k

/-- `newEntity<d>` (Mesh.h:381-388). -/
def newEntity (m : Mesh P) (d : Nat) : Mesh P :=
  { m with ents := upd m.ents d (m.ents d ++ [⟨(m.ents d).length, []⟩]) }

/-- `addNode` (Mesh_Impl.h:125-128). -/
def addNode (m : Mesh P) : Mesh P := newEntity m 0

/-- `addNodes` (Mesh_Impl.h:130-135). -/
def addNodes (m : Mesh P) : Nat → Mesh P
  | 0 => m
  | n + 1 => addNodes (addNode m) n

/-- `addNodeCoordinate` (Mesh_Impl.h:137-142). -/
def addNodeCoordinate (m : Mesh P) (node : Nat) (pos : P) : Mesh P := { m with coords := m.coords ++ [⟨some node, pos⟩] }

/-- `getZoneId` (Mesh_Impl.h:308-318). -/
def getZoneId (m : Mesh P) (name : String) : Mesh P × Nat :=
  match m.zones.findIdx? (· == name) with
  | some i => (m, i)
  | none => ({ m with zones := m.zones ++ [name] }, m.zones.length)

/-- `MeshEntity::addElement` (MeshEntity_Impl.h:204-209) on entity `k` of dimension `d`. -/
def linkEntity (m : Mesh P) (d k : Nat) (pair : Nat × Nat) : Option (Mesh P) := do
  let ent ← (m.ents d)[k]?
  some { m with ents := upd m.ents d ((m.ents d).set k { ent with inc := ent.inc ++ [pair] }) }

/-- `MeshEntity::removeElement` (MeshEntity_Impl.h:211-229) on entity `k` of dimension `d`. -/
def unlinkEntity (m : Mesh P) (d k : Nat) (pair : Nat × Nat) : Option (Mesh P) := do
  let ent ← (m.ents d)[k]?
  if pair ∈ ent.inc then some { m with ents := upd m.ents d ((m.ents d).set k { ent with inc := ent.inc.erase pair }) }
  else none

/-- The loop of `addElement` (Mesh_Impl.h:150-153) with `Element::addNode` (Element_Impl.h:187-194). -/
def addElementNodes (m : Mesh P) (e : Elem) : List Nat → Option (Mesh P × Elem)
  | [] => some (m, e)
  | c :: cs => do
    let coord ← m.coords[c]?
    let node ← coord.node
    let e' : Elem := { e with coords := e.coords ++ [c], inc := upd e.inc 0 (e.inc 0 ++ [node]) }
    let m' ← linkEntity m 0 node (e.id, (e.inc 0).length)
    addElementNodes m' e' cs

/-- `Element::getLocalIncidenceListAsIndices<t>(entity)` (Element_Impl.h:157-177) for an entity of dimension `d` with
local index `loc`. -/
def localIncidence (e : Elem) (d t loc : Nat) : Option (List Nat) :=
  if (e.inc t).length < e.shape.count t then some [] else e.shape.adjacent d t loc

/-- `Element::getIncidenceListAsIndices<t>(entity)` (Element_Impl.h:144-155). -/
def elemIncidence (e : Elem) (d t loc : Nat) : Option (List Nat) := do
  let ls ← localIncidence e d t loc
  ls.mapM fun l => (e.inc t)[l]?

/-- `MeshEntity::getLocalIndex(element)` (MeshEntity_Impl.h:82-94): the first pair with the element. -/
def localIndexOf (ent : Entity) (e : Nat) : Option Nat := (ent.inc.find? fun p => p.1 = e).map Prod.snd

/-- The loop over the elements of `getIncidenceListAsIndices` (MeshEntity_Impl.h:135-141). -/
def gather (m : Mesh P) (d t : Nat) (ent : Entity) : List (Nat × Nat) → Option (List Nat)
  | [] => some []
  | p :: ps => do
    let e ← m.elems[p.1]?
    let loc ← localIndexOf ent p.1
    let here ← elemIncidence e d t loc
    let rest ← gather m d t ent ps
    some (here ++ rest)

/-- `std::unique` followed by `erase`: of consecutive equal entries the first one is kept. -/
def unique : List Nat → List Nat
  | [] => []
  | [x] => [x]
  | x :: y :: l => if x = y then unique (y :: l) else x :: unique (y :: l)

/-- `MeshEntity::getIncidenceListAsIndices<t>` (MeshEntity_Impl.h:115-146) of entity `k` of dimension `d` in a mesh of
dimension `dim`. -/
def incidenceList (dim : Nat) (m : Mesh P) (d t k : Nat) : Option (List Nat) := do
  let ent ← (m.ents d)[k]?
  if t = d then some [ent.id]
  else if t = dim then some (ent.inc.map Prod.fst)
  else if t < d then do
    let p ← ent.inc[0]?
    let e ← m.elems[p.1]?
    let loc ← localIndexOf ent p.1
    elemIncidence e d t loc
  else do
    let all ← gather m d t ent ent.inc
    some (unique (sort all))

/-- The global index of `element.getIncidentEntity<0>(i)` (Mesh_Impl.h:210-212, MeshEntity.h:154-159). -/
def elementNode (dim : Nat) (m : Mesh P) (e i : Nat) : Option Nat := do
  let el ← m.elems[e]?
  let nodes ← elemIncidence el dim 0 0
  let n ← nodes[i]?
  let ent ← (m.ents 0)[n]?
  some ent.id

/-- The loop over the further nodes of `fixEntity` (Mesh_Impl.h:217-227). `std::set_intersection` of sorted lists
without repetitions keeps the common entries. -/
def intersect (dim : Nat) (m : Mesh P) (d : Nat) (candidates : List Nat) : List Nat → Option (List Nat)
  | [] => some candidates
  | n :: ns => do
    let new ← incidenceList dim m 0 d n
    intersect dim m d (candidates.filter (· ∈ sort new)) ns

/-- The candidates of `fixEntity` (Mesh_Impl.h:206-227). -/
def candidates (dim : Nat) (m : Mesh P) (d e i : Nat) : Option (List Nat) := do
  let el ← m.elems[e]?
  let local_ ← el.shape.adjacent d 0 i
  let nodes ← local_.mapM (elementNode dim m e)
  match nodes with
  | [] => none
  | n :: ns => do
    let first ← incidenceList dim m 0 d n
    intersect dim m d (sort first) ns

/-- `Element::addEntity<d>` (Element_Impl.h:196-202). -/
def addEntity (m : Mesh P) (d e gid : Nat) : Option (Mesh P) := do
  let el ← m.elems[e]?
  let m' := { m with elems := m.elems.set e { el with inc := upd el.inc d (el.inc d ++ [gid]) } }
  linkEntity m' d gid (el.id, (el.inc d).length)

/-- `fixEntity<d>` (Mesh_Impl.h:202-232). -/
def fixEntity (dim : Nat) (m : Mesh P) (d e i : Nat) : Option (Mesh P) := do
  let cs ← candidates dim m d e i
  match cs with
  | [] => addEntity (newEntity m d) d e (m.ents d).length
  | [c] => addEntity m d e c
  | _ => none

/-- The loop of `fixElement<d>` (Mesh_Impl.h:185-189) over `n` more entities. -/
def fixLevel (dim : Nat) (m : Mesh P) (d e : Nat) : Nat → Nat → Option (Mesh P)
  | 0, _ => some m
  | n + 1, i => do
    let m' ← fixEntity dim m d e i
    fixLevel dim m' d e n (i + 1)

/-- `fixElement` for the dimensions `d, d - 1, …, 1` (Mesh_Impl.h:182-200, Mesh.h:348). -/
def fixElement (dim : Nat) (m : Mesh P) (e : Nat) : Nat → Option (Mesh P)
  | 0 => some m
  | d + 1 => do
    let el ← m.elems[e]?
    let have_ := (el.inc (d + 1)).length
    let m' ← fixLevel dim m (d + 1) e (el.shape.count (d + 1) - have_) have_
    fixElement dim m' e d

/-- `addElement` (Mesh_Impl.h:144-157). -/
def addElement (shapes : List Shape) (dim : Nat) (m : Mesh P) (cs : List Nat) (zone : String) : Option (Mesh P) := do
  let id := m.elems.length
  let (m, z) := getZoneId m zone
  let shape ← findGeometry shapes cs.length
  let (m, e) ← addElementNodes m ⟨id, shape, fun _ => [], [], z⟩ cs
  let m := { m with elems := m.elems ++ [e], ents := upd m.ents dim (m.ents dim ++ [⟨id, [(id, 0)]⟩]) }
  fixElement dim m id (dim - 1)

/-- `fixConnectivity` (Mesh_Impl.h:175-180) over the first `n` elements. -/
def fixConnectivity (dim : Nat) (m : Mesh P) : Nat → Option (Mesh P)
  | 0 => some m
  | n + 1 => do
    let m' ← fixConnectivity dim m n
    fixElement dim m' n (dim - 1)

/-- `Element::setEntity<d>` (Element_Impl.h:100-113), also the last part of `Element::setNode`
(Element_Impl.h:91-97). -/
def setEntity (m : Mesh P) (d e loc gid : Nat) : Option (Mesh P) := do
  let el ← m.elems[e]?
  let cur ← (el.inc d)[loc]?
  if cur ≠ gid then do
    let m := { m with elems := m.elems.set e { el with inc := upd el.inc d ((el.inc d).set loc gid) } }
    let m ← unlinkEntity m d cur (el.id, loc)
    linkEntity m d gid (el.id, loc)
  else some m

/-- `Element::setNode` (Element_Impl.h:83-98). -/
def setNode (m : Mesh P) (e loc gid coord : Nat) : Option (Mesh P) := do
  let el ← m.elems[e]?
  if ¬ loc < el.coords.length then none
  else do
    let m := { m with elems := m.elems.set e { el with coords := el.coords.set loc coord } }
    let c ← m.coords[coord]?
    if c.node = some gid then setEntity m 0 e loc gid else none

/-- One round of the loop of `merge` (MeshEntity_Impl.h:164-171; 184-201 for nodes): the first connection `(e, loc)` of
the source moves to the target. -/
def mergeStep (m : Mesh P) (d target source e loc : Nat) : Option (Mesh P) :=
  if d = 0 then do
    let el ← m.elems[e]?
    let cid ← el.coords[loc]?
    let c ← m.coords[cid]?
    if c.node = some source ∨ c.node = some target then
      setNode { m with coords := m.coords.set cid { c with node := some target } } e loc target cid
    else none
  else setEntity m d e loc target

/-- The loop of `merge`. -/
def mergeLoop (m : Mesh P) (d target source pos : Nat) : Option (Mesh P) :=
  match (m.ents d)[pos]? with
  | none => none
  | some src =>
    match src.inc with
    | [] => some m
    | (e, loc) :: _ => do
      let m' ← mergeStep m d target source e loc
      mergeLoop m' d target source pos
  partial_fixpoint

/-- `MeshEntity::merge` (MeshEntity.h:177-185, MeshEntity_Impl.h:148-202): entity `s` of dimension `d` is merged into
entity `t`. -/
def merge (m : Mesh P) (d t s : Nat) : Option (Mesh P) := do
  let target ← (m.ents d)[t]?
  let source ← (m.ents d)[s]?
  if target.id = source.id then none else mergeLoop m d target.id source.id s

/-- The loop of `removeUnusedEntities` (Mesh_Impl.h:251-266) from entity id `next` on: the remaining entities and the
renumbering. Moving an entity to a smaller position of the vector is the same as building the list of remaining ones. -/
def compact (next : Nat) : List Entity → List Entity × List (Option Nat)
  | [] => ([], [])
  | ent :: ents =>
    if 0 < ent.inc.length then
      let (keep, ren) := compact (next + 1) ents
      ({ ent with id := next } :: keep, some next :: ren)
    else
      let (keep, ren) := compact next ents
      (keep, none :: ren)

/-- `Element::renumberEntities` (Element_Impl.h:179-185). An entity of an element that gets the invalid number `-1` is
reported as `none`. -/
def renumberElem (e : Elem) (d : Nat) (ren : List (Option Nat)) : Option Elem := do
  let l ← (e.inc d).mapM fun k => (ren[k]?).bind id
  some { e with inc := upd e.inc d l }

/-- The loop over the coordinates (Mesh_Impl.h:277-279): an invalid index is used as position, which is undefined. -/
def renumberCoord (c : Coord P) (ren : List (Option Nat)) : Option (Coord P) := do
  let n ← c.node
  let new ← ren[n]?
  some { c with node := new }

/-- `removeUnusedEntities(itag<d>)` without the recursion (Mesh_Impl.h:234-281). -/
def removeUnusedLevel (m : Mesh P) (d : Nat) : Option (Mesh P) :=
  let (keep, ren) := compact 0 (m.ents d)
  let m := { m with ents := upd m.ents d keep }
  if none ∈ ren then do
    let elems ← m.elems.mapM fun e => renumberElem e d ren
    let coords ← if d = 0 then m.coords.mapM fun c => renumberCoord c ren else some m.coords
    some { m with elems := elems, coords := coords }
  else some m

/-- `removeUnusedEntities` for the dimensions below `n` (Mesh_Impl.h:283, Mesh.h:353-356). -/
def removeUnusedBelow (m : Mesh P) : Nat → Option (Mesh P)
  | 0 => some m
  | n + 1 => do
    let m' ← removeUnusedLevel m n
    removeUnusedBelow m' n

/-- `removeUnusedEntities` (Mesh.h:246). -/
def removeUnusedEntities (dim : Nat) (m : Mesh P) : Option (Mesh P) := removeUnusedBelow m dim

/-- The copy and move constructors (Mesh.h:71-89): `zoneNames` is default initialised. -/
def copy (m : Mesh P) : Mesh P := ⟨m.elems, m.coords, m.ents, []⟩

/-- `Element::getZoneName` (Element.h:162). -/
def getZoneName (m : Mesh P) (e : Nat) : Option String := do
  let el ← m.elems[e]?
  m.zones[el.zone]?

/-- The calls a user may make. -/
inductive Op (P : Type)
  | addNode
  | addNodes (n : Nat)
  | addNodeCoordinate (node : Nat) (pos : P)
  | addElement (coords : List Nat) (zone : String)
  | merge (d target source : Nat)
  | removeUnusedEntities
  | fixConnectivity

/-- One call. -/
def step (shapes : List Shape) (dim : Nat) (m : Mesh P) : Op P → Option (Mesh P)
  | .addNode => some (addNode m)
  | .addNodes n => some (addNodes m n)
  | .addNodeCoordinate n p => some (addNodeCoordinate m n p)
  | .addElement cs z => addElement shapes dim m cs z
  | .merge d t s => if d < dim then merge m d t s else none
  | .removeUnusedEntities => removeUnusedEntities dim m
  | .fixConnectivity => fixConnectivity dim m m.elems.length

/-- A history of calls. -/
def run (shapes : List Shape) (dim : Nat) (m : Mesh P) : List (Op P) → Option (Mesh P)
  | [] => some m
  | op :: ops => do
    let m' ← step shapes dim m op
    run shapes dim m' ops

end Verif.PreMesh
