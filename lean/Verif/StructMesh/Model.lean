import Mathlib.Algebra.Field.Defs

/-!
# The structured mesh generator

`applications/Preprocessor/lib/hpgem.cpp`, `StructuredReader` (lines 55-234).  Numbers of
type `double` are elements of a field.  The reading of the file's numbers (lines 57-97)
is an input; the fields of one direction are kept together.
-/

namespace Verif.StructMesh

variable {K : Type*}

/-- One direction: `numberOfElements[i]`, `lowerLeft[i]`, `size[i]`, `isPeriodic[i]`
(lines 69-96). -/
structure Dim (K : Type*) where
  n : ℕ
  lower : K
  size : K
  periodic : Bool

/-- `numberOfNodes[i]`, lines 97-99. -/
def Dim.nodes (d : Dim K) : ℕ := d.n + (if d.periodic then 0 else 1)

/-- The emulated nested loops, lines 137-140: the first direction is the fastest; after
the last combination the loop starts again. -/
def step : List ℕ → List ℕ → List ℕ
  | c :: cs, i :: is => if i + 1 < c then (i + 1) :: is else 0 :: step cs is
  | _, is => is

/-- Lines 118-122: the node's own coordinate. -/
def basePoint [Field K] (ds : List (Dim K)) (l : List ℕ) : List K :=
  List.zipWith (fun (d : Dim K) (i : ℕ) => d.lower + (i : K) * d.size / (d.n : K)) ds l

/-- Lines 123-134, from direction `i` on: periodic directions double the coordinates of
the nodes at the lower end. -/
def copies [Field K] : ℕ → List (Dim K) → List ℕ → List (List K) → List (List K)
  | i, d :: ds, l :: ls, cs =>
    copies (i + 1) ds ls
      (if d.periodic && l == 0 then cs ++ cs.map (fun c => c.modify i (· + d.size)) else cs)
  | _, _, _, cs => cs

/-- `getNodeCoordinates`, lines 102-145: the next `k` nodes from loop indices `l` on, each
with its coordinates and their ids; `cum` is `cumulativeIndex`. -/
def nodeRun [Field K] (ds : List (Dim K)) : ℕ → List ℕ → ℕ → List (List (List K) × List ℕ)
  | 0, _, _ => []
  | k + 1, l, cum =>
    let cs := copies 0 ds l [basePoint ds l]
    (cs, List.range' cum cs.length) ::
      nodeRun ds k (step (ds.map Dim.nodes) l) (cum + cs.length)

/-- All nodes, lines 103-109 and 142-144. -/
def nodes [Field K] (ds : List (Dim K)) : List (List (List K) × List ℕ) :=
  nodeRun ds (ds.map Dim.nodes).prod (List.replicate ds.length 0) 0

/-- `coordinateIDs`. -/
def coordinateIDs [Field K] (ds : List (Dim K)) : List (List ℕ) := (nodes ds).map (·.2)

/-- The coordinates in the order in which the nodes hand them out; the mesh numbers them
in this order (`MeshFactory.h`, `fromMeshSource`). -/
def coordinates [Field K] (ds : List (Dim K)) : List (List K) := (nodes ds).flatMap (·.1)

/-- `multipliedNodeCounts`, lines 171-174. -/
def mults : ℕ → List (Dim K) → List ℕ
  | m, d :: ds => m :: mults (m * d.nodes) ds
  | _, [] => []

/-- Lines 176-185: the node numbers of the corners before wrapping around. -/
def cornerNodes : List ℕ → List ℕ → List ℕ → List ℕ
  | m :: ms, l :: ls, ids =>
    cornerNodes ms ls (ids.map (· + l * m) ++ ids.map (fun x => x + l * m + m))
  | _, _, ids => ids

/-- Lines 187-199 from direction `i` on, for corner `j`: node number, `subIndex` and
`numberOfPreviousPeriodicDimensions`. -/
def wrapCorner (j : ℕ) : ℕ → List (Dim K) → List ℕ → List ℕ → ℕ × ℕ × ℕ → ℕ × ℕ × ℕ
  | i, d :: ds, m :: ms, l :: ls, (id, sub, prev) =>
    let s := if (j &&& (1 <<< i)) ≠ 0 ∧ l = d.nodes - 1
      then (id - d.nodes * m, sub + (1 <<< prev), prev + 1) else (id, sub, prev)
    let s := if d.periodic = true ∧ l + (j &&& (1 <<< i)) = 0
      then (s.1, s.2.1, s.2.2 + 1) else s
    wrapCorner j (i + 1) ds ms ls s
  | _, _, _, _, s => s

/-- Lines 186-202: the coordinate id of corner `j`; `none`: an index out of range. -/
def cornerId [Field K] (ds : List (Dim K)) (l : List ℕ) (j : ℕ) : Option ℕ := do
  let id ← (cornerNodes (mults 1 ds) l [0])[j]?
  let s := wrapCorner j 0 ds (mults 1 ds) l (id, 0, 0)
  let ids ← (coordinateIDs ds)[s.1]?
  ids[s.2.1]?

/-- Lines 176-202: all corners of a cell. -/
def cellIds [Field K] (ds : List (Dim K)) (l : List ℕ) : Option (List ℕ) :=
  (List.range (cornerNodes (mults 1 ds) l [0]).length).mapM (cornerId ds l)

/-- `rotate`, line 155. -/
def rot (k : ℕ) : ℕ := [2, 0, 3, 1, 6, 4, 7, 5].getD k 0

/-- `cornersOfTriangles`, lines 156-170; `none`: the assertion fails if the mesh is
triangular. -/
def initialCorners : ℕ → Option (List (List ℕ))
  | 2 => some [[0, 1, 2], [1, 3, 2]]
  | 3 => some [[1, 2, 4, 7], [0, 1, 2, 4], [1, 3, 2, 7], [1, 4, 5, 7], [2, 6, 4, 7]]
  | _ => none

/-- Lines 216-233: the loops over the cells with the rotation of the triangles. -/
def advance : List ℕ → List ℕ → List (List ℕ) → List ℕ × List (List ℕ)
  | c :: cs, i :: is, T =>
    let T := T.map (List.map rot)
    if i + 1 < c then ((i + 1) :: is, T)
    else
      let T := if (i + 1) % 2 = 1 then T.map (List.map rot) else T
      let r := advance cs is T
      (0 :: r.1, r.2)
  | _, is, T => (is, T)

/-- The variables of the lambda `increment`. -/
structure State where
  loop : List ℕ
  tri : ℕ
  corners : List (List ℕ)

/-- One call of `increment`, lines 175-234. -/
def increment [Field K] (ds : List (Dim K)) (triangular : Bool) (s : State) :
    Option (List ℕ × State) := do
  let ids ← cellIds ds s.loop
  if triangular then
    let t ← s.corners[s.tri]?
    let out ← t.mapM (fun k => ids[k]?)
    let tri := if s.tri + 1 = s.corners.length then 0 else s.tri + 1
    if tri = 0 then
      let r := advance (ds.map Dim.n) s.loop s.corners
      return (out, ⟨r.1, tri, r.2⟩)
    else
      return (out, { s with tri := tri })
  else
    let r := advance (ds.map Dim.n) s.loop s.corners
    return (ids, ⟨r.1, s.tri, r.2⟩)

/-- The next `k` elements (`customIterator.h`, `Range`). -/
def elementRun [Field K] (ds : List (Dim K)) (triangular : Bool) :
    ℕ → State → Option (List (List ℕ))
  | 0, _ => some []
  | k + 1, s => do
    let (e, s') ← increment ds triangular s
    let rest ← elementRun ds triangular k s'
    return e :: rest

/-- `getElements`, lines 147-245. -/
def elements [Field K] (ds : List (Dim K)) (triangular : Bool) : Option (List (List ℕ)) :=
  let total := (ds.map Dim.n).prod
  if triangular then do
    let T ← initialCorners ds.length
    elementRun ds true (total * T.length) ⟨List.replicate ds.length 0, 0, T⟩
  else
    elementRun ds false total
      ⟨List.replicate ds.length 0, 0, (initialCorners ds.length).getD []⟩

end Verif.StructMesh
