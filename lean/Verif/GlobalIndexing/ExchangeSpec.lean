import Verif.GlobalIndexing.Exchange
import Verif.GlobalIndexing.Spec

/-! # Vocabulary of the exchange properties -/
namespace Verif.GlobalIndexing

/-- Rank `p` sends the element `e` to rank `q`. -/
def Mesh.Pushes (m : Mesh) (p q e : Nat) : Prop := ∃ els, (m.push p).find q = some els ∧ e ∈ els

/-- What the exchange needs of the distributed mesh. -/
structure Mesh.Ghosts (m : Mesh) : Prop where
  /-- the elements around a face, edge or node of an owned element include that element; -/
  adj_of_sub : ∀ p < m.ranks, ∀ e ∈ m.owned p, ∀ k, ∀ x ∈ m.sub k e, e ∈ m.adj k x
  /-- they all belong to some rank and have the face, edge or node; -/
  sub_of_adj : ∀ p < m.ranks, ∀ e ∈ m.owned p, ∀ k, ∀ x ∈ m.sub k e, ∀ e' ∈ m.adj k x,
    m.owner e' < m.ranks ∧ e' ∈ m.owned (m.owner e') ∧ x ∈ m.sub k e'
  /-- an element is sent to the owners of all elements that share a face, edge or node with it; -/
  closed : ∀ p < m.ranks, ∀ q < m.ranks, p ≠ q → ∀ e ∈ m.owned p, ∀ e' ∈ m.owned q, ∀ k, ∀ x ∈ m.sub k e,
    x ∈ m.sub k e' → m.Pushes p q e
  /-- only elements that the sender owns are sent, to other ranks; -/
  push_owned : ∀ p < m.ranks, ∀ q, ∀ e, m.Pushes p q e → e ∈ m.owned p
  push_rank : ∀ p < m.ranks, ∀ q ∈ (m.push p).keys, q < m.ranks ∧ q ≠ p
  push_sorted : ∀ p < m.ranks, (m.push p).Sorted
  /-- every rank expects a message from the ranks that send it elements. -/
  pulls_eq : ∀ q < m.ranks, m.pulls q = ((List.range m.ranks).filter fun p => q ∈ (m.push p).keys).length

/-- The elements a rank has: its own and the ones sent to it (the ghost layer). -/
def Mesh.Has (m : Mesh) (p e : Nat) : Prop := e ∈ m.owned p ∨ ∃ q < m.ranks, m.Pushes q p e

/-- The configurations that can occur. -/
inductive Reachable (m : Mesh) (strict : Bool) (S : Nat → State) : Config → Prop
  | start : Reachable m strict S (Config.start m S)
  | step (c c' : Config) : Reachable m strict S c → Step m strict c c' → Reachable m strict S c'

/-- Executions of `n` steps. -/
inductive Run (m : Mesh) (strict : Bool) : Nat → Config → Config → Prop
  | nil (c : Config) : Run m strict 0 c c
  | step (n : Nat) (c c' c'' : Config) : Run m strict n c c' → Step m strict c' c'' → Run m strict (n + 1) c c''

end Verif.GlobalIndexing
