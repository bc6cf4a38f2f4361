import Verif.MergePlan.Model
import Verif.PreMesh.Spec
import Mathlib.Logic.Relation

/-! # What a pairing of coordinates is to join -/
namespace Verif.MergePlan
open Verif.ElementShape Verif.PreMesh

variable {P : Type}

/-- Part `i` of dimension `d` of element `e` is entity `k` and has the coordinates `cs`. -/
def PartOf (m : Mesh P) (d e i k : Nat) (cs : List Nat) : Prop :=
  ∃ el p, m.elems[e]? = some el ∧ (el.inc d)[i]? = some k ∧ (el.shape.parts d)[i]? = some p ∧
    p.mapM (fun l => el.coords[l]?) = some cs

/-- A pairing that maps every coordinate at most once, and different ones to different ones. -/
def OneToOne (pairing : List (Nat × Nat)) : Prop := (pairing.map Prod.fst).Nodup ∧ (pairing.map Prod.snd).Nodup

/-- The pairing maps the coordinates `cs` onto the coordinates `cs'`. -/
def Maps (pairing : List (Nat × Nat)) (cs cs' : List Nat) : Prop :=
  (∀ c ∈ cs, ∃ c' ∈ cs', (c, c') ∈ pairing) ∧ ∀ c' ∈ cs', ∃ c ∈ cs, (c, c') ∈ pairing

/-- The entities of dimension `d` that MergePlan.h:165-179 asks to merge: nodes of paired coordinates, or entities of
parts of elements whose coordinates are mapped onto each other. -/
def Asked (m : Mesh P) (pairing : List (Nat × Nat)) (d a b : Nat) : Prop :=
  if d = 0 then ∃ p ∈ pairing, ∃ x y, m.coords[p.1]? = some x ∧ m.coords[p.2]? = some y ∧ x.node = some a ∧ y.node = some b
  else ∃ e i e' i' cs cs', PartOf m d e i a cs ∧ PartOf m d e' i' b cs' ∧ Maps pairing cs cs'

/-- Elements have different coordinates, and parts with the same coordinates are one entity. -/
def CoordShared (dim : Nat) (m : Mesh P) : Prop :=
  (∀ el ∈ m.elems, el.coords.Nodup) ∧
  ∀ d, 0 < d → d < dim → ∀ e i k e' i' k' cs cs', PartOf m d e i k cs → PartOf m d e' i' k' cs' →
    (∀ c, c ∈ cs ↔ c ∈ cs') → k = k'

/-- Every coordinate belongs to a node that exists. -/
def CoordsValid (m : Mesh P) : Prop := ∀ co ∈ m.coords, ∃ n, co.node = some n ∧ n < (m.ents 0).length

/-- A coordinate of a face that only one element has. -/
def OnBoundary (dim : Nat) (m : Mesh P) (c : Nat) : Prop :=
  ∃ (k : Nat) (f : Entity) (e i : Nat) (cs : List Nat), (m.ents (dim - 1))[k]? = some f ∧ f.inc = [(e, i)] ∧
    PartOf m (dim - 1) e i k cs ∧ c ∈ cs

/-- Two coordinates of the mesh that match. -/
def Near (m : Mesh P) (near : P → P → Bool) (c c' : Nat) : Prop :=
  ∃ x y, m.coords[c]? = some x ∧ m.coords[c']? = some y ∧ near x.pos y.pos = true

/-- The mesh `m'` is `m` with entity `k` of dimension `d` replaced by `ρ d k` in all elements. Elements keep their
shape, zone and coordinates. -/
structure Renamed (shapes : List Shape) (dim : Nat) (m m' : Mesh P) (ρ : Nat → Nat → Nat) : Prop where
  cons : Consistent shapes dim m'
  elems : m'.elems = m.elems.map fun el => { el with inc := fun d => (el.inc d).map (ρ d) }
  lens : ∀ d, (m'.ents d).length = (m.ents d).length
  pos : m'.coords.map Coord.pos = m.coords.map Coord.pos
  valid : CoordsValid m → CoordsValid m'
  zones : m'.zones = m.zones

end Verif.MergePlan
