import Verif.LevelTree.Model

/-! # What a refinement forest is and in which order its entries are visited -/
namespace Verif.LevelTree
variable {V : Type}

/-- `e` is the entry at position `i` of the vector of siblings with ancestors `up`. -/
def At (f : List (Entry V)) (up : List Nat) (i : Nat) (e : Entry V) : Prop := (sibs f up)[i]? = some e

/-- The entries know their position, live on at least one level, roots start at level 0, and children
start where their parent stops. -/
structure Wf (f : List (Entry V)) : Prop where
  sib : ∀ up i e, At f up i e → e.sib = i
  depth : ∀ up i e, At f up i e → 1 ≤ e.depth
  root : ∀ i e, At f [] i e → e.level = 0
  child : ∀ up i e, At f up i e → ∀ c ∈ e.children, c.level = e.level + e.depth

mutual
/-- Pre-order: an entry, once for every level it lives on, then the trees of its children. -/
def Entry.preorder : Entry V → List V
  | .mk d _ dp _ cs => List.replicate dp d ++ preorder cs
/-- Pre-order of a forest. -/
def preorder : List (Entry V) → List V
  | [] => []
  | e :: es => e.preorder ++ preorder es
end

mutual
/-- Post-order: the trees of the children, then the entry, once for every level it lives on. A leaf is
visited once. -/
def Entry.postorder : Entry V → List V
  | .mk d _ dp _ cs => postorder cs ++ List.replicate (if cs.isEmpty then 1 else dp) d
/-- Post-order of a forest. -/
def postorder : List (Entry V) → List V
  | [] => []
  | e :: es => e.postorder ++ postorder es
end

mutual
/-- The entries that live on a level, from left to right. -/
def Entry.onLevel (level : Nat) : Entry V → List V
  | .mk d l dp _ cs => (if l ≤ level ∧ level < l + dp then [d] else []) ++ onLevel level cs
/-- The entries of a forest that live on a level, from left to right. -/
def onLevel (level : Nat) : List (Entry V) → List V
  | [] => []
  | e :: es => e.onLevel level ++ onLevel level es
end

/-- The number of levels: one more than the highest level an entry lives on. -/
def levels (f : List (Entry V)) (n : Nat) : Prop :=
  (∀ up i e, At f up i e → e.level + e.depth ≤ n) ∧
  (n = 0 ∨ ∃ up i e, At f up i e ∧ e.level + e.depth = n)

/-- Every entry lives on one level only. -/
def Thin (f : List (Entry V)) : Prop := ∀ up i e, At f up i e → e.depth = 1

mutual
/-- The tree with every leaf that ends before the level stretched to it. -/
def Entry.fill (level : Nat) : Entry V → Entry V
  | .mk d l dp s cs => .mk d l (if cs.isEmpty ∧ l + dp - 1 < level then level - l + 1 else dp) s (fill level cs)
/-- The forest with every leaf that ends before the level stretched to it. -/
def fill (level : Nat) : List (Entry V) → List (Entry V)
  | [] => []
  | e :: es => e.fill level :: fill level es
end

/-- The last leaf of the last tree is `e`. -/
inductive LastLeaf : List (Entry V) → Entry V → Prop
  | leaf (f : List (Entry V)) (e : Entry V) : f.getLast? = some e → e.children = [] → LastLeaf f e
  | node (f : List (Entry V)) (p e : Entry V) : f.getLast? = some p → LastLeaf p.children e → LastLeaf f e

end Verif.LevelTree
