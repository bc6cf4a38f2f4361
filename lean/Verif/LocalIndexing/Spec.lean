import Verif.LocalIndexing.Model

/-! # Vocabulary: what a sequence of calls asks for -/
namespace Verif.LocalIndexing

/-- The unknowns and the element given last (at first: no unknowns, no element). -/
def asked (h : List Op) : List Nat × Option Elem :=
  h.foldl (fun a op => match op with
    | .unknowns l => (l, a.2)
    | .element e => (a.1, e)) ([], none)

/-- All lists of unknowns are free of duplicates, as the documentation demands. -/
def Valid (h : List Op) : Prop := ∀ l, .unknowns l ∈ h → l.Nodup

/-- The unknowns and the face given last. -/
def askedFace (h : List FOp) : List Nat × Option Face :=
  h.foldl (fun a op => match op with
    | .unknowns l => (l, a.2)
    | .face f => (a.1, f)) ([], none)

/-- Unknowns without duplicates and no null pointer for a face. -/
def ValidFace (h : List FOp) : Prop :=
  (∀ l, .unknowns l ∈ h → l.Nodup) ∧ .face none ∉ h

/-- The number of basis functions on an element that may be absent. -/
def dofs (e : Option Elem) (u : Nat) : Nat := (e.map (· u)).getD 0

/-- The element on one side of a face that may not have been given yet. -/
def sideElement (f : Option Face) : Side → Option Elem
  | .left => f.map Face.left
  | .right => f.bind Face.right

end Verif.LocalIndexing
