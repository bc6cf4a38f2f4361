import Verif.Submesh.Model

/-! # What is expected of the exchanged elements -/
namespace Verif.Submesh

/-- The elements a process sends to another are the elements that the other expects, in the same order. -/
def Answered (ws : List Rank) : Prop :=
  ∀ (p q : Nat) (wp wq : Rank), ws[p]? = some wp → ws[q]? = some wq → wp.push q = wq.pull p

/-- Ids of elements are below the sentinel. Every process only sends its own elements, and only to other processes that
exist. -/
structure Owned (ws : List Rank) : Prop where
  small : ∀ w ∈ ws, ∀ x ∈ w.elems, x < sentinel
  push : ∀ w ∈ ws, ∀ q, ∀ x ∈ w.push q, x ∈ w.elems
  self : ∀ (p : Nat) (w : Rank), ws[p]? = some w → w.pull p = [] ∧ w.push p = []
  others : ∀ w ∈ ws, ∀ q, ws.length ≤ q → w.pull q = [] ∧ w.push q = []

/-- Every element belongs to one process. -/
def Disjoint (ws : List Rank) : Prop :=
  ∀ (p q : Nat) (wp wq : Rank) (x : Nat), ws[p]? = some wp → ws[q]? = some wq → x ∈ wp.elems → x ∈ wq.elems → p = q

/-- What can happen before a synchronisation: a process asks for an element, or all processes look at their lists. -/
inductive Op where
  | request (rank id : Nat)
  | process

/-- Effect of an operation. -/
def apply (ws : List Rank) : Op → Option (List Rank)
  | .request r id => do
    let w ← ws[r]?
    let w ← addPullElement w id
    some (ws.set r w)
  | .process => processPullRequests ws

/-- Effect of operations in turn. -/
def run (ws : List Rank) (ops : List Op) : Option (List Rank) := ops.foldlM apply ws

/-- The processes and elements of the operations exist. -/
def Valid (n : Nat) : Op → Prop
  | .request r id => r < n ∧ id < sentinel
  | .process => True

/-- Finitely many steps. -/
inductive Steps {V : Type} (n : Nat) : State V → State V → Prop
  | refl (s : State V) : Steps n s s
  | step {s t u : State V} : Steps n s t → Step n t u → Steps n s u

end Verif.Submesh
