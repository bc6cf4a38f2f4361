import Mathlib.Data.Rat.Lemmas
import Mathlib.Algebra.Order.Group.Abs
import Mathlib.Algebra.Order.Ring.Rat
import Mathlib.Data.List.Basic

/-!
# The tool that extracts a surface mesh

Models `/repo/applications/Preprocessor/extractSurface.cpp`.

Simplifications. Floating point numbers are rationals. Reading the mesh and writing the result are not part
of this model; the mesh is given by its nodes and faces (see `Mesh`). `std::stod` is a parameter.
-/

namespace Verif.ExtractSurface

/-- `Boundary`, extractSurface.cpp:99-158: the two members. -/
structure Boundary where
  /-- `coordinateIndex` -/
  index : Nat
  /-- `location` -/
  location : ℚ
deriving DecidableEq, Repr

/-- The names of the coordinates, extractSurface.cpp:117-125; `none` is the `ERROR`. -/
def coordinateIndex (name : List Char) : Option Nat :=
  if name = ['x'] ∨ name = ['x', '0'] then some 0
  else if name = ['y'] ∨ name = ['x', '1'] then some 1
  else if name = ['z'] ∨ name = ['x', '2'] then some 2
  else none

/-- The constructor of `Boundary`, extractSurface.cpp:102-126. `stod s` is the value `std::stod` reads from the
start of `s` with the number of characters it used, `none` when it throws. `none`: an assertion or the `ERROR`. -/
def parse (stod : List Char → Option (ℚ × Nat)) (description : List Char) : Option Boundary :=
  let d := description.map Char.toLower
  let coordinate := d.takeWhile (· ≠ '=')
  match d.dropWhile (· ≠ '=') with
  | [] => none
  | _ :: value =>
    if value.length = 0 then none
    else match stod value with
      | none => none
      | some (v, processed) =>
        if processed = value.length then
          match coordinateIndex coordinate with
          | some k => some ⟨k, v⟩
          | none => none
        else none

/-- A coordinate. -/
abbrev Point := List ℚ

/-- `Boundary::onBoundary`, extractSurface.cpp:134-141; the assertion on the dimension is in `extract`. -/
def Boundary.on (b : Boundary) (x : Point) : Bool :=
  decide (|x.getD b.index 0 - b.location| < 1 / 10 ^ 12)

/-- The loop of `Boundary::boundaryCoordinate`, extractSurface.cpp:148-151, from index `i` on. -/
def dropFrom (k : Nat) : Nat → Point → Point
  | _, [] => []
  | i, a :: as => if i = k then dropFrom k (i + 1) as else a :: dropFrom k (i + 1) as

/-- `Boundary::boundaryCoordinate`, extractSurface.cpp:144-153. -/
def Boundary.project (b : Boundary) (x : Point) : Point := dropFrom b.index 0 x

/-- A face: its nodes, the coordinates (ids) of its nodes in its first element (in the order of the nodes),
and the partition of that element. -/
structure Face where
  /-- `getIncidenceListAsIndices<0>()` -/
  nodes : List Nat
  /-- the coordinate ids obtained through `getElement(0)` -/
  coords : List Nat
  /-- `inputPartitionID[inputElement]` -/
  part : Nat
deriving DecidableEq, Repr

/-- The input mesh as far as the tool looks at it. -/
structure Mesh where
  /-- the dimension of the mesh -/
  dim : Nat
  /-- the coordinates by id -/
  point : Nat → Point
  /-- for every node the coordinate id in each of its elements -/
  nodes : List (List Nat)
  /-- the faces -/
  faces : List Face

/-- The variables of `processMesh`, extractSurface.cpp:185-192. -/
structure St where
  /-- `boundaryNodes`; the position is the id of the node of the result -/
  bnodes : List Nat
  /-- the coordinates of the result with the node they belong to -/
  coords : List (Nat × Point)
  /-- `toBoundaryIndex`, latest first -/
  index : List (Nat × Nat)
  /-- `processedCoordinates` -/
  seen : List Nat

/-- One round of the inner loop, extractSurface.cpp:197-218, for coordinate `c` of node `n`. Returns also `added`.
The id of the new node is the last one added, as the nodes of the result are added with `boundaryNodes`. -/
def visit (b : Boundary) (point : Nat → Point) (n c : Nat) (added : Bool) (s : St) : Bool × St :=
  if b.on (point c) && !s.seen.contains c then
    let bn := if added then s.bnodes else s.bnodes ++ [n]
    (true,
      { bnodes := bn
        coords := s.coords ++ [(bn.length - 1, b.project (point c))]
        index := (c, s.coords.length) :: s.index
        seen := c :: s.seen })
  else (added, { s with seen := c :: s.seen })

/-- The inner loop over the elements of a node, extractSurface.cpp:196-219. -/
def visitNode (b : Boundary) (point : Nat → Point) (n : Nat) : List Nat → Bool → St → St
  | [], _, s => s
  | c :: cs, added, s =>
    let r := visit b point n c added s
    visitNode b point n cs r.1 r.2

/-- The loop over the nodes, extractSurface.cpp:193-220, from node `n` on. -/
def visitAll (b : Boundary) (point : Nat → Point) : Nat → List (List Nat) → St → St
  | _, [], s => s
  | n, cs :: rest, s => visitAll b point (n + 1) rest (visitNode b point n cs false s)

/-- `toBoundaryIndex[c]`, extractSurface.cpp:248: a missing key is inserted with the value 0. -/
def St.lookup (s : St) (c : Nat) : Nat := (s.index.lookup c).getD 0

/-- The loop over the faces, extractSurface.cpp:223-256: the elements of the result with their partition. -/
def elements (s : St) (faces : List Face) : List (List Nat × Nat) :=
  faces.filterMap fun f =>
    if f.nodes.all s.bnodes.contains then some (f.coords.map s.lookup, f.part) else none

/-- The result: the number of nodes, the coordinates with their node, and the elements. -/
structure Result where
  /-- number of nodes -/
  nodes : Nat
  /-- coordinates with the node they belong to -/
  coords : List (Nat × Point)
  /-- elements: coordinate ids and the partition -/
  elements : List (List Nat × Nat)
deriving DecidableEq, Repr

/-- The state after the loop over the nodes. -/
def scan (b : Boundary) (m : Mesh) : St := visitAll b m.point 0 m.nodes ⟨[], [], [], []⟩

/-- `processMesh`, extractSurface.cpp:165-259. The assertion of `onBoundary` is tested up front, which only
differs for a mesh without nodes. -/
def extract (b : Boundary) (m : Mesh) : Option Result :=
  if m.dim ≤ b.index then none
  else
    let s := scan b m
    some ⟨s.bnodes.length, s.coords, elements s m.faces⟩

end Verif.ExtractSurface
