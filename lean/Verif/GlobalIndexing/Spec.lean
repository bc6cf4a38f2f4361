import Verif.GlobalIndexing.Model
import Mathlib.Data.Set.Function
import Mathlib.Order.Interval.Set.Defs

/-! # Vocabulary of the global indexing properties -/
namespace Verif.GlobalIndexing

/-- What the numbering needs of the mesh: every element has one owner and occurs once in the list of
its owner, and no element lists a face, edge or node twice. -/
structure Mesh.Valid (m : Mesh) : Prop where
  owned_nodup : ∀ p < m.ranks, (m.owned p).Nodup
  owner_eq : ∀ p < m.ranks, ∀ e ∈ m.owned p, m.owner e = p
  sub_nodup : ∀ p < m.ranks, ∀ e ∈ m.owned p, ∀ k, (m.sub k e).Nodup

/-- Rank `p` owns the object: an element of its list, or a face, edge or node of such an element that
is the first one around the object. In one dimension nodes have no basis functions of their own. -/
def Mesh.Owns (m : Mesh) (p : Nat) (o : Obj) : Prop :=
  match o.kind with
  | .element => o.id ∈ m.owned p
  | .node => m.dim > 1 ∧ ∃ e ∈ m.owned p, o.id ∈ m.sub .node e ∧ m.first .node o.id = e
  | k => ∃ e ∈ m.owned p, o.id ∈ m.sub k e ∧ m.first k o.id = e

/-- A basis function: the `index`-th one of an object for an unknown. -/
structure Dof where
  obj : Obj
  unknown : Nat
  index : Nat
deriving DecidableEq

/-- The basis functions owned by rank `p`. -/
def Mesh.dofs (m : Mesh) (included : List Nat) (p : Nat) : Set Dof :=
  {d | m.Owns p d.obj ∧ d.unknown ∈ included ∧ d.index < m.count d.obj d.unknown}

/-- The requested unknowns; all if there is no selection. -/
def requested (m : Mesh) : Option (List Nat) → List Nat
  | none => List.range m.unknowns
  | some l => l

/-- On every rank `reset` with the same arguments, on an object with any history, gives the state `S`. -/
def Resets (m : Mesh) (layout : Layout) (unknowns : Option (List Nat)) (S : Nat → State) : Prop :=
  ∀ p < m.ranks, ∃ old, reset m layout unknowns old p = some (S p)

/-- The global index of a basis function as seen by a rank. -/
def State.global (s : State) (d : Dof) : Nat := (s.getGlobalIndex d.obj d.unknown).getD 0 + d.index

/-- The local index of a basis function on a rank. -/
def State.local (s : State) (d : Dof) : Int :=
  (s.getProcessorLocalIndex d.obj d.unknown).getD 0 + d.index

end Verif.GlobalIndexing
