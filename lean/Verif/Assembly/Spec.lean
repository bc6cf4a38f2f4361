import Verif.Assembly.Model
import Verif.GlobalIndexing.ExchangeSpec
import Mathlib.Data.Set.Card

/-! # What assembly and sparsity estimate are to do -/
namespace Verif.Assembly
open GlobalIndexing

/-- The states of all ranks after `reset`, including the exchange of indices. -/
def Indexing (m : Mesh) (layout : Layout) (unk : Option (List Nat)) (s : Nat → State) : Prop :=
  (requested m unk).Nodup ∧ ∃ S strict c, Resets m layout unk S ∧ Reachable m strict S c ∧
    (∀ p < m.ranks, (c.rank p).pc = .done) ∧ ∀ p < m.ranks, s p = (c.rank p).st

/-- What is assumed of the elements and faces of each rank. -/
structure Layer (m : Mesh) (P : Parts) : Prop where
  /-- A rank has its own elements and the layer around them, each once. -/
  present_nodup : ∀ p < m.ranks, (P.present p).Nodup
  present_iff : ∀ p < m.ranks, ∀ e, e ∈ P.present p ↔ m.Has p e
  /-- It lists the faces of its own elements, and no face twice. -/
  faces_nodup : ∀ p < m.ranks, (P.faces p).Nodup
  faces_own : ∀ p < m.ranks, ∀ e ∈ m.owned p, ∀ f ∈ m.sub .face e, f ∈ P.faces p
  /-- It has all elements of a face of one of its own elements; of other faces it may know only some. -/
  around_own : ∀ p < m.ranks, ∀ f ∈ P.faces p, ∀ e ∈ m.adj .face f, e ∈ m.owned p → P.around p f = m.adj .face f
  around_sub : ∀ p < m.ranks, ∀ f ∈ P.faces p, P.around p f ≠ [] ∧
    ∀ e ∈ P.around p f, e ∈ m.adj .face f ∧ m.Has p e ∧ f ∈ m.sub .face e

/-- All elements. -/
def elements (m : Mesh) : Finset Nat := (Finset.range m.ranks).biUnion fun p => (m.owned p).toFinset

/-- All faces. -/
def faces (m : Mesh) : Finset Nat := (elements m).biUnion fun e => (m.sub .face e).toFinset

/-- The requested unknowns in increasing order. -/
def order (m : Mesh) (unk : Option (List Nat)) : List Nat := (requested m unk).mergeSort (· ≤ ·)

/-- The basis functions of an element in the order of its local matrices: by unknown, then those of the element,
of its faces, edges and nodes. -/
def localDofs (m : Mesh) (unk : Option (List Nat)) (e : Nat) : List Dof :=
  (order m unk).flatMap fun u => (objects m e).flatMap fun o => (List.range (m.count o u)).map fun i => ⟨o, u, i⟩

/-- The basis functions of a face matrix: those of the left element, then those of the right element. -/
def faceDofs (m : Mesh) (unk : Option (List Nat)) (f : Nat) : List Dof := (m.adj .face f).flatMap (localDofs m unk)

/-- The entry of a local matrix in a row and a column. -/
def LocalMatrix.entry {α : Type} (M : LocalMatrix α) (a b : Nat) : α := M.data (a + b * M.rows)

/-- What a local matrix with the given rows and columns contributes to the pair `d`, `d'`. -/
def contribution {α : Type} [AddCommMonoid α] (M : LocalMatrix α) (rows cols : List Dof) (d d' : Dof) : α :=
  ∑ a ∈ Finset.range rows.length, ∑ b ∈ Finset.range cols.length,
    if rows[a]? = some d ∧ cols[b]? = some d' then M.entry a b else 0

/-- What a local vector contributes to `d`. -/
def vcontribution {α : Type} [AddCommMonoid α] (v : List α) (rows : List Dof) (d : Dof) : α :=
  ∑ a ∈ Finset.range rows.length, if rows[a]? = some d then v.getD a 0 else 0

/-- The local matrices have the sizes of the lists of basis functions. -/
def Input.Fits {α : Type} (I : Input α) (m : Mesh) (unkR unkC : Option (List Nat)) : Prop :=
  (I.useElements = true → ∀ e ∈ elements m, (I.elementMatrix e).rows = (localDofs m unkR e).length ∧
    (I.elementMatrix e).cols = (localDofs m unkC e).length) ∧
  (I.useFaces = true → ∀ f ∈ faces m, (I.faceMatrix f).rows = (faceDofs m unkR f).length ∧
    (I.faceMatrix f).cols = (faceDofs m unkC f).length)

/-- All basis functions of the selected unknowns. -/
def AllDofs (m : Mesh) (unk : Option (List Nat)) (d : Dof) : Prop := ∃ p < m.ranks, d ∈ m.dofs (requested m unk) p

/-- An element, or two elements of a face, couple `d` and `d'`, where `E` and `F` say which elements and faces are
looked at and `adj` which elements a face has. `faceCoupling` says for which unknowns there are face matrices. -/
def CoupledBy (m : Mesh) (E F : Nat → Prop) (adj : Nat → List Nat) (faceCoupling : Nat → Nat → Prop) (d d' : Dof) : Prop :=
  (∃ e, E e ∧ d.obj ∈ objects m e ∧ d'.obj ∈ objects m e) ∨
  (faceCoupling d.unknown d'.unknown ∧ ∃ f, F f ∧ ∃ e ∈ adj f, ∃ e' ∈ adj f, d.obj ∈ objects m e ∧ d'.obj ∈ objects m e')

/-- Coupling by any element and any face of the mesh. -/
def Coupled (m : Mesh) (faceCoupling : Nat → Nat → Prop) (d d' : Dof) : Prop :=
  CoupledBy m (· ∈ elements m) (· ∈ faces m) (m.adj .face) faceCoupling d d'

/-- Coupling by the elements and faces of a rank. -/
def CoupledOn (m : Mesh) (P : Parts) (p : Nat) (faceCoupling : Nat → Nat → Prop) (d d' : Dof) : Prop :=
  CoupledBy m (· ∈ P.present p) (· ∈ P.faces p) (P.around p) faceCoupling d d'

/-- The table couples two unknowns through faces: its entries are indexed by the positions in the ordered lists. -/
def Table2D.Couples (t : Table2D) (m : Mesh) (unkR unkC : Option (List Nat)) (u u' : Nat) : Prop :=
  ∃ i j, (order m unkR)[i]? = some u ∧ (order m unkC)[j]? = some u' ∧ t.get i j = true

end Verif.Assembly
