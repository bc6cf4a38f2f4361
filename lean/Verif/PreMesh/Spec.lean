import Verif.PreMesh.Model

/-! # What the preprocessor mesh is to keep and what its edits are to do -/
namespace Verif.PreMesh
open Verif.ElementShape

variable {P : Type}

/-- Element `e` lists entity `k` of dimension `d` at local index `i`. -/
def Lists (m : Mesh P) (d e i k : Nat) : Prop := ∃ el, m.elems[e]? = some el ∧ (el.inc d)[i]? = some k

/-- Entity `k` of dimension `d` lists element `e` with local index `i`. -/
def Linked (m : Mesh P) (d k e i : Nat) : Prop := ∃ ent, (m.ents d)[k]? = some ent ∧ (e, i) ∈ ent.inc

/-- A mesh of dimension `dim` whose cross references agree. -/
structure Consistent (shapes : List Shape) (dim : Nat) (m : Mesh P) : Prop where
  /-- The id of an element is its position. -/
  elemId : ∀ (e : Nat) (el : Elem), m.elems[e]? = some el → el.id = e
  /-- The id of an entity is its position. -/
  entId : ∀ (d k : Nat) (ent : Entity), (m.ents d)[k]? = some ent → ent.id = k
  /-- Elements and entities list each other. -/
  both : ∀ d < dim, ∀ e i k : Nat, Lists m d e i k ↔ Linked m d k e i
  /-- No connection is listed twice. -/
  once : ∀ (d k : Nat) (ent : Entity), (m.ents d)[k]? = some ent → ent.inc.Nodup
  /-- Elements have a known shape and an entity for every part of the shape. -/
  full : ∀ el ∈ m.elems, el.shape ∈ shapes ∧ ∀ d < dim, (el.inc d).length = el.shape.count d
  /-- An element has one coordinate for each node, and it belongs to that node. -/
  coords : ∀ el ∈ m.elems, el.coords.length = (el.inc 0).length ∧
    ∀ i c : Nat, el.coords[i]? = some c → ∃ co, m.coords[c]? = some co ∧ co.node = (el.inc 0)[i]?
  /-- The elements are also stored as entities of the dimension of the mesh. -/
  slices : m.ents dim = (List.range m.elems.length).map fun i => ⟨i, [(i, 0)]⟩
  /-- The zone of an element has a name. -/
  zones : ∀ el ∈ m.elems, el.zone < m.zones.length
  /-- Zone names are not repeated. -/
  zoneNames : m.zones.Nodup

/-- Replaces entity `s` by entity `t`. -/
def rename (s t k : Nat) : Nat := if k = s then t else k

/-- The mesh after merging entity `s` of dimension `d` into entity `t`: every element that listed `s` lists `t`, the
connections of `s` follow those of `t`, nothing is connected to `s`, and with nodes the coordinates that elements use
follow. -/
noncomputable def merged (m : Mesh P) (d t s : Nat) (target source : Entity) : Mesh P where
  elems := m.elems.map fun el => { el with inc := upd el.inc d ((el.inc d).map (rename s t)) }
  ents := upd m.ents d (((m.ents d).set t { target with inc := target.inc ++ source.inc }).set s { source with inc := [] })
  coords := open Classical in m.coords.mapIdx fun c co =>
    if d = 0 ∧ co.node = some s ∧ ∃ el ∈ m.elems, c ∈ el.coords then { co with node := some t } else co
  zones := m.zones

/-- Is an entity connected to an element? -/
def used (ent : Entity) : Bool := ent.inc ≠ []

/-- The number of entities of dimension `d` before position `k` that are connected to an element. -/
def rank (m : Mesh P) (d k : Nat) : Nat := ((m.ents d).take k).countP used

/-- Is entity `k` of dimension `d` connected to an element? -/
def usedAt (m : Mesh P) (d k : Nat) : Bool := ((m.ents d)[k]?).any used

/-- The mesh with only the entities that are connected to an element, in the same order and renumbered; coordinates of
nodes that disappear lose their node. -/
def squeezed (dim : Nat) (m : Mesh P) : Mesh P where
  elems := m.elems.map fun el => { el with inc := fun d => if d < dim then (el.inc d).map (rank m d) else el.inc d }
  ents := fun d => if d < dim then ((m.ents d).filter used).mapIdx (fun k ent => { ent with id := k }) else m.ents d
  coords :=
    if 0 < dim ∧ ∃ ent ∈ m.ents 0, used ent = false then m.coords.map fun co =>
      { co with node := co.node.bind fun n => if usedAt m 0 n then some (rank m 0 n) else none }
    else m.coords
  zones := m.zones

/-- The global nodes of part `i` of dimension `d` of an element with the given shape and nodes. -/
def partNodes (shape : Shape) (nodes : List Nat) (d i : Nat) : Option (List Nat) := do
  let p ← (shape.parts d)[i]?
  p.mapM fun l => nodes[l]?

/-- Elements, given by shape and nodes, that fit together: no element repeats a node and no part of an element lies
strictly inside a part of the same dimension of an element. -/
def Conforming (dim : Nat) (els : List (Shape × List Nat)) : Prop :=
  (∀ x ∈ els, x.2.Nodup) ∧
  ∀ d, 0 < d → d < dim → ∀ x ∈ els, ∀ y ∈ els, ∀ i j ns ns', partNodes x.1 x.2 d i = some ns →
    partNodes y.1 y.2 d j = some ns' → ns ⊆ ns' → ns' ⊆ ns

/-- Shapes and nodes of the elements of a mesh. -/
def elemNodes (m : Mesh P) : List (Shape × List Nat) := m.elems.map fun el => (el.shape, el.inc 0)

/-- Parts of elements are the same entity exactly when they have the same nodes. -/
def Shared (dim : Nat) (m : Mesh P) : Prop :=
  ∀ d, 0 < d → d < dim → ∀ (e e' : Nat) (el el' : Elem) (i i' k k' : Nat) (ns ns' : List Nat), m.elems[e]? = some el →
    m.elems[e']? = some el' → (el.inc d)[i]? = some k → (el'.inc d)[i']? = some k' →
    partNodes el.shape (el.inc 0) d i = some ns → partNodes el'.shape (el'.inc 0) d i' = some ns' →
    (k = k' ↔ ∀ n, n ∈ ns ↔ n ∈ ns')

/-- Shapes of dimension `dim` in which no part lies inside another part of the same dimension. -/
structure ShapesOk (shapes : List Shape) (dim : Nat) : Prop where
  dims : ∀ s ∈ shapes, s.dim = dim
  ok : ∀ s ∈ shapes, 0 < s.dim ∧ s.parts 0 = vertices (s.count 0) ∧ s.parts s.dim = [List.range (s.count 0)] ∧
    (∀ d, ∀ p ∈ s.parts d, p.Nodup ∧ (∀ n ∈ p, n < s.count 0) ∧ p ≠ []) ∧ ∀ d, s.dim < d → s.parts d = []
  apart : ∀ s ∈ shapes, ∀ (d i j : Nat) (p q : List Nat), (s.parts d)[i]? = some p → (s.parts d)[j]? = some q → p ⊆ q → i = j

end Verif.PreMesh
