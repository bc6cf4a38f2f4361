import Verif.Common.SMap

/-!
# Model of the sparse union-find structure and of the merge groups

applications/Preprocessor/lib/utils/SparseUnionFind.{h,cpp} and MergePlan.h. The recursion of
`findSetPresent` has no visible bound, so it takes a number of allowed calls; `none` means that
number was exceeded (the theorems show that it is not, given enough of them, that is: the code
terminates). Ranks are natural numbers without overflow.
-/
namespace Verif.UnionFind

/-- SparseUnionFind.h:146-157 `storage_`: parent and rank per item. -/
abbrev UF := SMap (Nat × Nat)

/-- `storage_[elem]` as a read: a missing entry is created with zeros. -/
def access (s : UF) (e : Nat) : UF × (Nat × Nat) :=
  match s.find e with
  | some v => (s, v)
  | none => (s.insert e (0, 0), (0, 0))

/-- `std::get<0>(storage_[elem]) = target`. -/
def setParent (s : UF) (e t : Nat) : UF :=
  let (s, v) := access s e
  s.insert e (t, v.2)

/-- SparseUnionFind.cpp:55-64 -/
def findSetPresent : Nat → UF → Nat → Option (UF × Nat)
  | 0, _, _ => none
  | fuel + 1, s, e =>
    let (s, v) := access s e
    if v.1 ≠ e then do
      let (s, t) ← findSetPresent fuel s v.1
      some (setParent s e t, t)
    else some (s, v.1)

/-- SparseUnionFind.cpp:42-53 -/
def findSet (fuel : Nat) (s : UF) (e : Nat) : Option (UF × Nat) :=
  match s.find e with
  | none => some (s, e)
  | some v => do
    let (s, t) ← findSetPresent fuel s v.1
    some (setParent s e t, t)

/-- SparseUnionFind.cpp:71-76: allocate an item. -/
def allocate (s : UF) (e : Nat) : UF :=
  match s.find e with
  | none => s.insert e (e, 0)
  | some _ => s

/-- SparseUnionFind.cpp:66-99 -/
def unionSets (fuel : Nat) (s : UF) (e1 e2 : Nat) : Option UF :=
  if e1 = e2 then some s
  else do
    let s := allocate (allocate s e1) e2
    let (s, t1) ← findSetPresent fuel s e1
    let (s, t2) ← findSetPresent fuel s e2
    if t1 = t2 then some s
    else
      let (s, v1) := access s t1
      let (s, v2) := access s t2
      if v1.2 > v2.2 then some (s.insert t2 (t1, v2.2))
      else
        let s := s.insert t1 (t2, v1.2)
        if v1.2 = v2.2 then some (s.insert t2 (v2.1, v2.2 + 1)) else some s

/-- SparseUnionFind.h:113-115 -/
def inSameSet (fuel : Nat) (s : UF) (e1 e2 : Nat) : Option (UF × Bool) := do
  let (s, t1) ← findSet fuel s e1
  let (s, t2) ← findSet fuel s e2
  some (s, t1 == t2)

/-- The public operations that change the state. -/
inductive Op where
  | union (a b : Nat)
  | find (a : Nat)

/-- A sequence of operations on a new structure. -/
def run (fuel : Nat) (ops : List Op) : Option UF :=
  ops.foldlM (fun s op => match op with
    | .union a b => unionSets fuel s a b
    | .find a => (findSet fuel s a).map Prod.fst) []

/-- The state of the second loop of `groupMerges`. -/
structure Groups where
  uf : UF
  merges : List (List Nat)
  mergeGroup : SMap Nat

/-- MergePlan.h:314-329, the body of the loop. -/
def groupStep (fuel : Nat) (g : Groups) (entity : Nat) : Option Groups := do
  let (uf, rep) ← findSet fuel g.uf entity
  match g.mergeGroup.find rep with
  | some i => some { g with uf := uf, merges := g.merges.modify i (· ++ [entity]) }
  | none => some ⟨uf, g.merges ++ [[entity]], g.mergeGroup.insert rep g.merges.length⟩

/-- MergePlan.h:294-331 `groupMerges`; the iteration visits the keys of the storage, which the loop
does not change. -/
def groupMerges (fuel : Nat) (pairs : List (Nat × Nat)) : Option (List (List Nat)) := do
  let s ← pairs.foldlM (fun s p => unionSets fuel s p.1 p.2) ([] : UF)
  let g ← s.keys.foldlM (groupStep fuel) ⟨s, [], []⟩
  some g.merges

end Verif.UnionFind
