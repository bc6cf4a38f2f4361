import Verif.Refine.Model

/-!
# Model of `MeshManipulator::refine` for one element

MeshManipulator_Impl.h:1320-1430: the nodes of the sub-elements. Nodes are given by their index in the list of node
coordinates (`globalPointIndices`); the pointers `newNodes` are set at the same places. A face that the neighbour has refined
is given by the list of its sub-faces, each with the nodes of the sub-face in the order of its left element. An index out of
range is `none`.
-/
namespace Verif.Refine
open Verif.RefGeometry (Pt)

/-- MeshManipulator_Impl.h:1357-1379: the nodes of one sub-face, from the `k`-th on, are put at their places. `lj` is
`getSubElementLocalNodeIndices(j)` of the refinement of the face, `l` is `getCodim1LocalNodeIndices`. -/
def putNodes (l lj : List Nat) : List Nat → Nat → List (Option Nat) → Option (List (Option Nat))
  | [], _, slots => some slots
  | id :: ids, k, slots =>
    (lj[k]?).bind fun a => (l[a]?).bind fun pos =>
      if pos < slots.length then putNodes l lj ids (k + 1) (slots.set pos (some id)) else none

/-- MeshManipulator_Impl.h:1346-1380: the sub-faces of a face, from the `j`-th on. -/
noncomputable def putParts {d : Nat} (m : Name d) (l : List Nat) : List (List Nat) → Nat → List (Option Nat) → Option (List (Option Nat))
  | [], _, slots => some slots
  | sub :: subs, j, slots =>
    (m.table.subNodes j).bind fun lj => (putNodes l lj sub 0 slots).bind fun slots' => putParts m l subs (j + 1) slots'

/-- MeshManipulator_Impl.h:1334-1383: the faces, from the `i`-th on; `none` for a face that is not refined yet. A face is
left out if its own refinement has no new nodes. -/
noncomputable def putFaces {d : Nat} (n : Name d) :
    List (Option (List (List Nat))) → Nat → List (Option Nat) → Option (List (Option Nat))
  | [], _, slots => some slots
  | none :: fs, i, slots => putFaces n fs (i + 1) slots
  | some subs :: fs, i, slots =>
    (n.table.faceMaps[i]?).bind fun m =>
      if m.table.numNew = 0 then putFaces n fs (i + 1) slots
      else (n.table.faceNodes i).bind fun l => (putParts m l subs 0 slots).bind fun slots' => putFaces n fs (i + 1) slots'

section
variable {V : Type*} [AddCommGroup V] [Module ℝ V]

/-- MeshManipulator_Impl.h:1385-1399: a node is added for each new node, from number `k` on, that has none yet. `place` is
`element->referenceToPhysical`. -/
def addNodes {d : Nat} (place : Pt d → V) : List (Pt d) → Nat → List (Option Nat) × List V → List (Option Nat) × List V
  | [], _, st => st
  | q :: qs, k, st =>
    match st.1[k]? with
    | some none => addNodes place qs (k + 1) (st.1.set k (some st.2.length), st.2 ++ [place q])
    | _ => addNodes place qs (k + 1) st

/-- MeshManipulator_Impl.h:1320-1416: the nodes of the sub-elements and the list of coordinates after the refinement of an
element with the nodes `ids`. -/
noncomputable def refineElement {d : Nat} (n : Name d) (ids : List Nat) (faces : List (Option (List (List Nat))))
    (coords : List V) : Option (List (List Nat) × List V) :=
  (putFaces n faces 0 (ids.map some ++ List.replicate n.table.numNew none)).bind fun slots =>
    let st := addNodes (n.table.shape.place fun i => coords.getD (ids.getD i 0) 0) n.table.newNodes n.table.shape.corners
      (slots, coords)
    ((List.range n.table.numSubs).mapM fun s => (n.table.subNodes s).bind fun l => l.mapM fun k => (st.1[k]?).join).map
      fun kids => (kids, st.2)

end

end Verif.Refine
