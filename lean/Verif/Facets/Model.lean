import Mathlib.Analysis.Real.Sqrt
import Mathlib.Data.List.Basic
import Mathlib.Order.WithBot

/-!
# Model of sums over facets in DG-Max

applications/DG-Max/Utils/FluxFacets.cpp, Utils/PMLTransmission.cpp, and from DGMaxProgramUtils.cpp `computeZoneBoundingBoxes` and `applyPMLs`. The mesh is divided among processes;
each process has a list of the faces (elements) it knows, with a mark for those it owns. A collective operation combines the values of all processes, which is the same on all of them.
-/
namespace Verif.Facets

variable {φ : Type}

/-- A face with what the code asks of it: the zones of its elements, whether the process owns it, and what identifies it. -/
structure Face (φ : Type) where
  left : Nat
  right : Option Nat
  owned : Bool
  id : φ

/-- Base::Side. -/
inductive Side
  | left
  | right
  deriving DecidableEq

/-- FluxFacets.h:92: a pair of zones; the second is `-1` outside of the mesh. -/
abbrev Pair := Int × Int

/-- FluxFacets.cpp:71-85 `getZoneIndexPair`. -/
def zonePair (f : Face φ) : Pair :=
  match f.right with
  | some r => if (f.left : Int) > r then (r, f.left) else (f.left, r)
  | none => (f.left, -1)

/-- A `std::map` from pairs to vectors, as a list of entries; `facets[key].push_back(value)`. The order of the entries is not used. -/
def push {α β : Type} [DecidableEq α] (map : List (α × List β)) (key : α) (value : β) : List (α × List β) :=
  if key ∈ map.map Prod.fst then map.map fun e => if e.1 = key then (e.1, e.2 ++ [value]) else e
  else map ++ [(key, [value])]

/-- FluxFacets.cpp:43-67: one face in the constructor. -/
def addFace (facets : List (Pair × List (Face φ × Side))) (f : Face φ) : List (Pair × List (Face φ × Side)) :=
  if !f.owned then facets
  else match f.right with
  | some r =>
    if f.left = r then facets
    else push facets (zonePair f) (f, if f.left < r then Side.left else Side.right)
  | none => push facets (zonePair f) (f, Side.left)

/-- FluxFacets.cpp:42-69: the map of the constructor. -/
def facets (faces : List (Face φ)) : List (Pair × List (Face φ × Side)) := faces.foldl addFace []

/-- FluxFacets.cpp:98-100: the linear index of a pair. -/
def index (zones : Nat) (p : Pair) : Nat := (p.1 * (zones + 1) + p.2 + 1).toNat

/-- FluxFacets.cpp:92-101: the flags of a process. -/
def flags (zones : Nat) (facets : List (Pair × List (Face φ × Side))) : Nat → Nat :=
  facets.foldl (fun ordering e => Function.update ordering (index zones e.1) 1) (fun _ => 0)

/-- FluxFacets.cpp:102-107: the maximum over all processes. -/
def maxFlags (zones : Nat) (processes : List (List (Face φ))) : Nat → Nat := fun i => (processes.map fun faces => flags zones (facets faces) i).foldl max 0

/-- FluxFacets.cpp:109-121: the pairs in the order of their linear index; the position in the list is `faceIndexOrdering_`. -/
def ordering (zones : Nat) (processes : List (List (Face φ))) : List Pair :=
  ((List.range (zones * (zones + 1))).filter fun i => maxFlags zones processes i ≠ 0).map fun i => ((i / (zones + 1) : Nat), ((i % (zones + 1) : Nat) : Int) - 1)

/-- FluxFacets.cpp:123-130: the names. `none`: a zone out of range. -/
def names (zoneNames : List String) (processes : List (List (Face φ))) : Option (List String) :=
  (ordering zoneNames.length processes).mapM fun p => do
    let first ← zoneNames[p.1.toNat]?
    if p.2 ≥ 0 then
      let second ← zoneNames[p.2.toNat]?
      return "flux-" ++ first ++ "--" ++ second
    else return "flux-" ++ first

/-- FluxFacets.cpp:140-156: the fluxes of a process, by position. One of the four components. `none`: the assertion that the pair is in the order. -/
def localFluxes {M : Type} [AddCommMonoid M] (order : List Pair) (flux : φ → Side → M) (facets : List (Pair × List (Face φ × Side))) : Option (Nat → M) :=
  facets.foldlM (fun flat e => do
    let i := order.idxOf e.1
    if i = order.length then none
    else return Function.update flat i (e.2.foldl (fun s f => s + flux f.1.id f.2) 0)) (fun _ => 0)

/-- FluxFacets.cpp:157-172 `computeFluxes`: the sum over all processes. -/
def computeFluxes {M : Type} [AddCommMonoid M] (zones : Nat) (processes : List (List (Face φ))) (flux : φ → Side → M) : Option (List M) := do
  let order := ordering zones processes
  let flats ← processes.mapM fun faces => localFluxes order flux (facets faces)
  return (List.range order.length).map fun i => (flats.map fun flat => flat i).sum

/-! ## Transmission through the ends of absorbing layers -/

/-- A face on the boundary for `PMLTransmission`: the zone on its left, whether it is owned, at the far end of a layer (PMLTransmission.cpp:56-70), and its area. -/
structure EndFace (φ : Type) where
  zone : Nat
  owned : Bool
  farEnd : Bool
  area : ℝ
  id : φ

/-- PMLTransmission.cpp:52-75: the faces of a zone that a process takes. -/
def endFaces (faces : List (EndFace φ)) (zone : Nat) : List (EndFace φ) := faces.filter fun f => f.owned && f.farEnd && decide (f.zone = zone)

/-- PMLTransmission.cpp:72-82: the area of a zone, summed over all processes. -/
noncomputable def endArea (processes : List (List (EndFace φ))) (zone : Nat) : ℝ := (processes.map fun faces => ((endFaces faces zone).map EndFace.area).sum).sum

open Classical in
/-- PMLTransmission.cpp:83-98: the zones with an area. -/
noncomputable def endZones (zones : Nat) (processes : List (List (EndFace φ))) : List Nat := (List.range zones).filter fun z => endArea processes z ≠ 0

/-- PMLTransmission.cpp:101-114 `pmlTransmission`: the result on a process. The integrals over its own faces are not summed over the processes. -/
noncomputable def transmission (zones : Nat) (processes : List (List (EndFace φ))) (own : List (EndFace φ)) (integral : φ → ℝ) : List ℝ :=
  (endZones zones processes).map fun z => Real.sqrt (((endFaces own z).map fun f => integral f.id).sum / endArea processes z)

/-! ## Layers for zones -/

/-- An element with its zone, the coordinates of its nodes and its material. -/
structure Element (α μ : Type) where
  zone : Nat
  owned : Bool
  nodes : List α
  material : μ

/-- DGMaxProgramUtils.cpp:270-304: the minimum of a coordinate over the nodes of a zone; `⊤` stands for infinity. First in a process, then over all of them. -/
def lowBound {α μ : Type} [LinearOrder α] (processes : List (List (Element α μ))) (zone : Nat) : WithTop α :=
  (processes.map fun elements => elements.foldl (fun m e => if e.owned && decide (e.zone = zone) then e.nodes.foldl (fun m (x : α) => min m (x : WithTop α)) m else m) (⊤ : WithTop α)).foldl min ⊤

/-- The same for the maximum. -/
def highBound {α μ : Type} [LinearOrder α] (processes : List (List (Element α μ))) (zone : Nat) : WithBot α :=
  (processes.map fun elements => elements.foldl (fun m e => if e.owned && decide (e.zone = zone) then e.nodes.foldl (fun m (x : α) => max m (x : WithBot α)) m else m) (⊥ : WithBot α)).foldl max ⊥

/-- DGMaxProgramUtils.cpp:424-431: one description, with its name and position. It is for the first zone with its name and replaces an earlier one. -/
def describe (zoneNames : List String) (m : Nat → Option Nat) (p : String × Nat) : Nat → Option Nat :=
  match zoneNames.findIdx? (· == p.1) with
  | some j => Function.update m j (some p.2)
  | none => m

/-- DGMaxProgramUtils.cpp:424-431: the description for a zone. -/
def descriptionOf (zoneNames : List String) (pmls : List String) : Nat → Option Nat := pmls.zipIdx.foldl (describe zoneNames) (fun _ => none)

/-- DGMaxProgramUtils.cpp:433-451: the loop over the elements of a process. The list has all elements the process knows; the loop is over `getElementsList()`, those that it owns
(MeshManipulator_Impl.h:1683-1690). The state has for each zone the layer that was made, with its zone, description and material. The result has for every element the layer, or none if it
keeps the material it has from `readMesh`. -/
def applyLayers {α μ : Type} (description : Nat → Option Nat) (elements : List (Element α μ)) : List (Option (Nat × Nat × μ)) :=
  (elements.foldl (fun (st : (Nat → Option (Nat × Nat × μ)) × List (Option (Nat × Nat × μ))) e =>
    if e.owned then
      match description e.zone with
      | none => (st.1, st.2 ++ [none])
      | some d => match st.1 e.zone with
        | some layer => (st.1, st.2 ++ [some layer])
        | none => (Function.update st.1 e.zone (some (e.zone, d, e.material)), st.2 ++ [some (e.zone, d, e.material)])
    else (st.1, st.2 ++ [none])) (fun _ => none, [])).2

end Verif.Facets
