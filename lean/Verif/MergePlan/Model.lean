import Verif.PreMesh.Model
import Verif.UnionFind.Model

/-! # Joining parts of a mesh by a pairing of coordinates

Models `applications/Preprocessor/lib/MergePlan.h`, used for periodic boundaries. `none` stands for an abort or an index
outside a vector. A `std::map<CoordId, CoordId>` is the list of its pairs in increasing order of the first entry. -/
namespace Verif.MergePlan
open Verif.ElementShape Verif.PreMesh

variable {P : Type}

/-- `std::map::find`. -/
def lookup (pairing : List (Nat × Nat)) (c : Nat) : Option Nat := (pairing.find? fun p => p.1 = c).map Prod.snd

/-- `std::set<CoordId>` with the given entries. -/
def toSet (l : List Nat) : List Nat := unique (sort l)

/-- The loop over the elements of a node (MergePlan.h:528-535): those that use coordinate `c` for it. -/
def usingElements (m : Mesh P) (c : Nat) : List (Nat × Nat) → Option (List Nat)
  | [] => some []
  | (e, loc) :: ps => do
    let el ← m.elems[e]?
    let c' ← el.coords[loc]?
    let rest ← usingElements m c ps
    some (if c' = c then el.id :: rest else rest)

/-- The loop of `computeAdjacentElements` (MergePlan.h:524-537) over the coordinates. -/
def collect (m : Mesh P) : List Nat → Option (List Nat)
  | [] => some []
  | c :: cs => do
    let co ← m.coords[c]?
    let n ← co.node
    let ent ← (m.ents 0)[n]?
    let here ← usingElements m c ent.inc
    let rest ← collect m cs
    some (here ++ rest)

/-- `computeAdjacentElements` (MergePlan.h:514-540). -/
def adjacentElements (m : Mesh P) (cs : List Nat) : Option (List Nat) := (collect m cs).map toSet

/-- `forEachBoundingEntity` (MergePlan.h:96-113): the calls, as element and local index. -/
def boundingEntities (dim : Nat) (m : Mesh P) (d : Nat) : List Nat → Option (List (Nat × Nat))
  | [] => some []
  | e :: es => do
    let el ← m.elems[e]?
    let ids ← elemIncidence el dim d 0
    let rest ← boundingEntities dim m d es
    some ((List.range ids.length).map (fun i => (e, i)) ++ rest)

/-- The coordinates of part `i` of dimension `d` of an element (MergePlan.h:410-420, 463-474). -/
def partCoords (el : Elem) (d i : Nat) : Option (List Nat) := do
  let nodes ← el.shape.adjacent d 0 i
  nodes.mapM fun l => el.coords[l]?

/-- `findLeftCandidates` (MergePlan.h:444-492). The map of candidates is a list in which the newest entry for a key is
found first. All coordinates are read before the first of them is translated, while the code stops reading at the first
one without a partner. -/
def findLeft (m : Mesh P) (d : Nat) (pairing : List (Nat × Nat)) :
    List (Nat × Nat) → List (List Nat × Nat) → Option (List (List Nat × Nat))
  | [], found => some found
  | (e, i) :: ps, found => do
    let el ← m.elems[e]?
    let cs ← partCoords el d i
    match cs.mapM (lookup pairing) with
    | none => findLeft m d pairing ps found
    | some rs =>
      if cs.length ≠ (toSet rs).length then none
      else do
        let k ← (el.inc d)[i]?
        findLeft m d pairing ps ((toSet rs, k) :: found)

/-- The second phase of `computeMergePlanLevels` (MergePlan.h:402-433). -/
def matchRight (m : Mesh P) (d : Nat) (left : List (List Nat × Nat)) : List (Nat × Nat) → Option (List (Nat × Nat))
  | [] => some []
  | (e, i) :: ps => do
    let el ← m.elems[e]?
    let cs ← partCoords el d i
    match left.find? fun x => x.1 = toSet cs with
    | none => matchRight m d left ps
    | some x => do
      let k ← (el.inc d)[i]?
      let rest ← matchRight m d left ps
      some ((x.2, k) :: rest)

/-- The pairs of entities of dimension `d > 0` to merge (MergePlan.h:385-433). -/
def levelPairs (dim : Nat) (m : Mesh P) (pairing : List (Nat × Nat)) (d : Nat) : Option (List (Nat × Nat)) := do
  let lefts ← adjacentElements m (pairing.map Prod.fst)
  let rights ← adjacentElements m (pairing.map Prod.snd)
  let ls ← boundingEntities dim m d lefts
  let left ← findLeft m d pairing ls []
  let rs ← boundingEntities dim m d rights
  matchRight m d left rs

/-- The pairs of nodes to merge (MergePlan.h:350-357). -/
def nodePairs (m : Mesh P) (pairing : List (Nat × Nat)) : Option (List (Nat × Nat)) :=
  pairing.mapM fun p => do
    let a ← m.coords[p.1]?
    let b ← m.coords[p.2]?
    let x ← a.node
    let y ← b.node
    some (x, y)

/-- The groups of entities of one dimension (MergePlan.h:358, 436). -/
def levelPlan (dim : Nat) (m : Mesh P) (pairing : List (Nat × Nat)) (d : Nat) : Option (List (List Nat)) :=
  (if d = 0 then nodePairs m pairing else levelPairs dim m pairing d).bind fun pairs =>
    UnionFind.groupMerges (pairs.length + 1) pairs

/-- `computeMergePlan` (MergePlan.h:333-383). -/
def computeMergePlan (dim : Nat) (m : Mesh P) (pairing : List (Nat × Nat)) : Option (List (List (List Nat))) :=
  if pairing = [] then some (List.replicate dim []) else (List.range dim).mapM (levelPlan dim m pairing)

/-- The loop over one group (MergePlan.h:500-508). -/
def mergeGroup (m : Mesh P) (d : Nat) : List Nat → Option (Mesh P)
  | [] => some m
  | t :: ss => ss.foldlM (fun m s => merge m d t s) m

/-- `executeMerge(tag<d>)` and the recursion to larger dimensions (MergePlan.h:494-512). -/
def executeFrom (m : Mesh P) (d : Nat) : List (List (List Nat)) → Option (Mesh P)
  | [] => some m
  | groups :: rest => do
    let m' ← groups.foldlM (fun m g => mergeGroup m d g) m
    executeFrom m' (d + 1) rest

/-- `executeMerge()` (MergePlan.h:152). -/
def executeMerge (m : Mesh P) (plan : List (List (List Nat))) : Option (Mesh P) := executeFrom m 0 plan

/-- A pairing of coordinates is computed and executed (TransformationConnector.h:79-82, MeshFactory.h:139-142). -/
def connect (dim : Nat) (m : Mesh P) (pairing : List (Nat × Nat)) : Option (Mesh P) := do
  let plan ← computeMergePlan dim m pairing
  executeMerge m plan

/-- The loop over the faces that finds the coordinates of faces of one element (TransformationConnector.h:54-66). -/
def boundaryOf (dim : Nat) (m : Mesh P) : List Entity → Option (List Nat)
  | [] => some []
  | f :: fs => do
    let rest ← boundaryOf dim m fs
    match f.inc with
    | [(e, _)] => do
      let el ← m.elems[e]?
      let loc ← localIndexOf f e
      let ls ← localIncidence el (dim - 1) 0 loc
      let cs ← ls.mapM fun l => el.coords[l]?
      some (cs ++ rest)
    | _ => some rest

/-- Stage 1 (TransformationConnector.h:52-66): the set of coordinates on the boundary, in increasing order. -/
def boundaryCoords (dim : Nat) (m : Mesh P) : Option (List Nat) := (boundaryOf dim m (m.ents (dim - 1))).map toSet

/-- The inner loop of stage 2 (TransformationConnector.h:73-79): the last match is kept. -/
def partner (m : Mesh P) (near : P → P → Bool) (bs : List Nat) (c : Nat) : Option Nat :=
  (bs.filter fun c' => ((m.coords[c]?).bind fun x => (m.coords[c']?).map fun y => near x.pos y.pos).getD false).getLast?

/-- Stage 2 (TransformationConnector.h:71-80). `near x y` stands for the test whether the translate of `x` is within the
tolerance of `y`. -/
def translationPairing (m : Mesh P) (near : P → P → Bool) (bs : List Nat) : List (Nat × Nat) :=
  bs.filterMap fun c => (partner m near bs c).map fun c' => (c, c')

/-- `translationConnect` (TransformationConnector.h:49-84). -/
def translationConnect (dim : Nat) (m : Mesh P) (near : P → P → Bool) : Option (Mesh P) := do
  let bs ← boundaryCoords dim m
  connect dim m (translationPairing m near bs)

end Verif.MergePlan
