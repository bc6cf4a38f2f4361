import Verif.Facets.Model

/-! # Sums over facets: specification

The mesh is one list of faces, without processes. -/
namespace Verif.Facets

variable {φ : Type}

/-- The side of the face that belongs to zone `a`, if the face is between zone `a` and zone `b`, or the outside for `none`. -/
def sideBetween (a : Nat) (b : Option Nat) (f : Face φ) : Option Side :=
  match f.right, b with
  | none, none => if f.left = a then some .left else none
  | some r, some b => if f.left = a ∧ r = b then some .left else if r = a ∧ f.left = b then some .right else none
  | _, _ => none

/-- The flux through one face from zone `a` to zone `b`. -/
def fluxThrough {M : Type} [AddCommMonoid M] (flux : φ → Side → M) (a : Nat) (b : Option Nat) (f : Face φ) : M :=
  match sideBetween a b f with
  | some side => flux f.id side
  | none => 0

/-- The flux from zone `a` to zone `b`: the sum over the faces between them, each seen from `a`. -/
def fluxBetween {M : Type} [AddCommMonoid M] (mesh : List (Face φ)) (flux : φ → Side → M) (a : Nat) (b : Option Nat) : M := (mesh.map (fluxThrough flux a b)).sum

/-- The interfaces between zones of a mesh that have a face: for every zone first that to the outside, then those to zones with a larger number. -/
def interfaces (zones : Nat) (mesh : List (Face φ)) : List (Nat × Option Nat) :=
  ((List.range zones).flatMap fun a => (a, none) :: ((List.range zones).filter (a < ·)).map fun b => (a, some b)).filter fun p => mesh.any fun f => (sideBetween p.1 p.2 f).isSome

/-- The faces of the mesh are divided among the processes: each is owned by exactly one. A process may know of others. -/
def Divided (mesh : List (Face φ)) (processes : List (List (Face φ))) : Prop := (processes.flatMap fun faces => faces.filter Face.owned).Perm mesh

/-- The zones of a face exist. -/
def Valid (zones : Nat) (f : Face φ) : Prop := f.left < zones ∧ ∀ r, f.right = some r → r < zones

/-- The name of an interface in the output. -/
def interfaceName (zoneNames : List String) : Nat × Option Nat → String
  | (a, none) => "flux-" ++ zoneNames.getD a ""
  | (a, some b) => "flux-" ++ zoneNames.getD a "" ++ "--" ++ zoneNames.getD b ""

/-- The far end of the layer in a zone, on the whole mesh. -/
def endOf (mesh : List (EndFace φ)) (zone : Nat) : List (EndFace φ) := mesh.filter fun f => f.farEnd && decide (f.zone = zone)

open Classical in
/-- The zones with a far end. -/
noncomputable def layerEnds (zones : Nat) (mesh : List (EndFace φ)) : List Nat := (List.range zones).filter fun z => ((endOf mesh z).map EndFace.area).sum ≠ 0

/-- The root mean square of a field on the far end of a layer, when `integral` gives the integral of its square on a face. -/
noncomputable def rootMeanSquare (mesh : List (EndFace φ)) (integral : φ → ℝ) (zone : Nat) : ℝ :=
  Real.sqrt (((endOf mesh zone).map fun f => integral f.id).sum / ((endOf mesh zone).map EndFace.area).sum)

/-- As `Divided`. -/
def EndsDivided (mesh : List (EndFace φ)) (processes : List (List (EndFace φ))) : Prop := (processes.flatMap fun faces => faces.filter EndFace.owned).Perm mesh

/-- The coordinates of the nodes in a zone. -/
def zoneNodes {α μ : Type} (mesh : List (Element α μ)) (zone : Nat) : Set α := {x | ∃ e ∈ mesh, e.zone = zone ∧ x ∈ e.nodes}

/-- As `Divided`. -/
def ElementsDivided {α μ : Type} (mesh : List (Element α μ)) (processes : List (List (Element α μ))) : Prop := (processes.flatMap fun elements => elements.filter Element.owned).Perm mesh

end Verif.Facets
