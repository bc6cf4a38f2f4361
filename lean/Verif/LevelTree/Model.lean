/-! # Refinement forests and their iterators

Models `kernel/Base/TreeEntry.h`, `kernel/Base/TreeIterator.h`, `kernel/Base/LevelTree.h` and
`kernel/Base/LevelTree_Impl.h`. `none` is a failed assertion (also those of debug builds), undefined
behaviour or a loop that does not end. `size_t` is `Nat`. -/
namespace Verif.LevelTree

/-- An entry: TreeEntry.h:70-77 and 291-298. `sib` is `siblingIndex_`. The pointers `siblings_` and
`parent_` are not stored: an entry is reached through the positions of its ancestors (`sibs`), which is
where these pointers lead. -/
inductive Entry (V : Type) where
  | mk (data : V) (level depth sib : Nat) (children : List (Entry V))

namespace Entry
variable {V : Type}
/-- TreeEntry.h:89. -/
def data : Entry V → V | mk d _ _ _ _ => d
/-- TreeEntry.h:128. -/
def level : Entry V → Nat | mk _ l _ _ _ => l
/-- TreeEntry.h:138. -/
def depth : Entry V → Nat | mk _ _ d _ _ => d
/-- TreeEntry.h:155. -/
def sib : Entry V → Nat | mk _ _ _ s _ => s
/-- TreeEntry.h:224-228. -/
def children : Entry V → List (Entry V) | mk _ _ _ _ c => c
/-- TreeEntry.h:131. -/
def isRoot (e : Entry V) : Bool := e.level == 0
/-- TreeEntry.h:259. -/
def hasChild (e : Entry V) : Bool := !e.children.isEmpty
end Entry

variable {V : Type}

/-- The vector of siblings reached through the positions `up` of the ancestors, innermost first: the
roots for `[]`, else the children of the entry at these positions (TreeEntry.h:161-166, 180-204). -/
def sibs (f : List (Entry V)) : List Nat → List (Entry V)
  | [] => f
  | i :: up => match (sibs f up)[i]? with | some e => e.children | none => []

/-- An iterator (TreeIterator.h:628-637): `ptr_` is position `idx` of the vector `sibs f up`, and
`counter` is `depthCounter_`. `end_` is not stored: every function that moves `ptr_` to another vector sets
it to the end of that vector. The traversal method is an argument of the functions that use it. -/
structure Iter where
  up : List Nat
  idx : Nat
  counter : Nat
deriving DecidableEq

/-- The traversal methods (TreeEntry.h:49). -/
inductive Method where
  | singleLevel | allLevel | preOrder | postOrder
deriving DecidableEq

/-- `while (c) b`. It has no value if the condition or the body fails or if it goes on for ever. -/
def whileM {S : Type} (c : S → Option Bool) (b : S → Option S) (s : S) : Option S :=
  match c s with
  | none => none
  | some false => some s
  | some true => match b s with
    | none => none
    | some s' => whileM c b s'
partial_fixpoint

/-- `*ptr_` (TreeIterator.h:172-188); `none` past the end. -/
def deref (f : List (Entry V)) (it : Iter) : Option (Entry V) := (sibs f it.up)[it.idx]?

/-- `ptr_ == end_`. -/
def past (f : List (Entry V)) (it : Iter) : Bool := it.idx == (sibs f it.up).length

/-- TreeEntry.h:172-174. -/
def isLast (f : List (Entry V)) (it : Iter) (e : Entry V) : Bool := e.sib + 1 == (sibs f it.up).length

/-- TreeEntry.h:169. -/
def isFirst (e : Entry V) : Bool := e.sib == 0

/-- `--ptr_`. -/
def dec (it : Iter) : Option Iter := if it.idx = 0 then none else some { it with idx := it.idx - 1 }

/-- TreeIterator.h:339-341, on a valid entry. -/
def canIncrease (it : Iter) (e : Entry V) : Bool := it.counter < e.depth - 1

/-- TreeIterator.h:357-375. -/
def moveToParent (f : List (Entry V)) (it : Iter) : Option Iter := do
  let e ← deref f it
  if it.counter > 0 then some { it with counter := it.counter - 1 }
  else if e.isRoot then none
  else match it.up with
    | [] => none
    | j :: up => match (sibs f up)[j]? with
      | none => none
      | some p => some ⟨up, p.sib, p.depth - 1⟩

/-- TreeIterator.h:378-391. -/
def moveToChild (f : List (Entry V)) (child : Nat) (it : Iter) : Option Iter := do
  let e ← deref f it
  if canIncrease it e then some { it with counter := it.counter + 1 }
  else match e.children[child]? with
    | none => none
    | some c => some ⟨it.idx :: it.up, c.sib, 0⟩

/-- `while ((*ptr_)->hasChild()) moveToChild(getNumberOfChildren() - 1)`: TreeIterator.h:529-531,
543-545, LevelTree_Impl.h:140-144. -/
def descendLast (f : List (Entry V)) (it : Iter) : Option Iter :=
  whileM (fun it => (deref f it).map Entry.hasChild)
    (fun it => do let e ← deref f it; moveToChild f (e.children.length - 1) it) it

/-- `while ((*ptr_)->hasChild()) moveToChild(0)`: TreeIterator.h:560-562, LevelTree_Impl.h:123-127. -/
def descendFirst (f : List (Entry V)) (it : Iter) : Option Iter :=
  whileM (fun it => (deref f it).map Entry.hasChild) (moveToChild f 0) it

/-- `while (!isRoot() && isLastSibling()) moveToParent()`: TreeIterator.h:452-455, 524-526. -/
def climbLast (f : List (Entry V)) (it : Iter) : Option Iter :=
  whileM (fun it => (deref f it).map fun e => !e.isRoot && isLast f it e) (moveToParent f) it

/-- The second branch of `moveToNextPreOrder` (TreeIterator.h:524-534). -/
def nextPreOrderUp (f : List (Entry V)) (it : Iter) : Option Iter := do
  let it ← climbLast f it
  let e ← deref f it
  let it ← if isLast f it e then descendLast f it else some it
  some { it with idx := it.idx + 1, counter := 0 }

/-- TreeIterator.h:518-536. -/
def moveToNextPreOrder (f : List (Entry V)) (it : Iter) : Option Iter := do
  let e ← deref f it
  if e.hasChild || canIncrease it e then moveToChild f 0 it else nextPreOrderUp f it

/-- TreeIterator.h:539-552. -/
def moveToPreviousPreOrder (f : List (Entry V)) (it : Iter) : Option Iter :=
  if past f it then do descendLast f (← dec it)
  else do
    let e ← deref f it
    if !isFirst e && it.counter == 0 then do descendLast f (← dec it)
    else moveToParent f it

/-- TreeIterator.h:555-568. -/
def moveToNextPostOrder (f : List (Entry V)) (it : Iter) : Option Iter := do
  let e ← deref f it
  if !isLast f it e && it.counter == 0 then descendFirst f { it with idx := it.idx + 1 }
  else if e.isRoot && it.counter == 0 then some { it with idx := it.idx + 1 }
  else moveToParent f it

/-- TreeIterator.h:589-600. -/
def hasPreviousPostOrder (f : List (Entry V)) (it : Iter) : Option Bool :=
  if past f it then some true
  else do
    let e ← deref f it
    if e.hasChild || !isFirst e || canIncrease it e then some true
    else do
      let d ← whileM (fun it => (deref f it).map fun e => !e.isRoot && isFirst e) (moveToParent f) it
      let e ← deref f d
      some !(isFirst e)

/-- TreeIterator.h:571-587, with the assertion at its head. -/
def moveToPreviousPostOrder (f : List (Entry V)) (it : Iter) : Option Iter := do
  if !(← hasPreviousPostOrder f it) then none
  else if past f it then dec it
  else do
    let e ← deref f it
    if e.hasChild || canIncrease it e then moveToChild f (e.children.length - 1) it
    else do
      let it ← whileM (fun it => (deref f it).map isFirst) (moveToParent f) it
      dec it

/-- `(*ptr_)->getLevel() + depthCounter_`. -/
def levelOf (f : List (Entry V)) (it : Iter) : Option Nat := (deref f it).map fun e => e.level + it.counter

/-- TreeIterator.h:416-422. -/
def moveUpToLevel (f : List (Entry V)) (level : Nat) (it : Iter) : Option Iter :=
  whileM (fun it => (levelOf f it).map fun l => decide (l > level)) (moveToParent f) it

/-- TreeIterator.h:426-432; the result of the function is whether the iterator is not past the end. -/
def moveDownToLevelBegin (f : List (Entry V)) (level : Nat) (it : Iter) : Option Iter :=
  whileM (fun it => if past f it then some false else (levelOf f it).map fun l => decide (l < level))
    (moveToNextPreOrder f) it

/-- TreeIterator.h:436-443. -/
def moveDownToLevelEnd (f : List (Entry V)) (level : Nat) (it : Iter) : Option (Iter × Bool) := do
  let it ← whileM (fun it =>
      if past f it then some true
      else do
        let l ← levelOf f it
        if l < level then hasPreviousPostOrder f it else some false)
    (moveToPreviousPostOrder f) it
  let l ← levelOf f it
  some (it, l == level)

/-- The iterator that stays in the vector of `it` before `moveToFirstOnLevel` and `moveToLastOnLevel`
climb (TreeIterator.h:395-397, 406-408). -/
def beforeEnd (f : List (Entry V)) (it : Iter) : Option Iter := if past f it then dec it else some it

/-- TreeIterator.h:394-402. -/
def moveToFirstOnLevel (f : List (Entry V)) (level : Nat) (it : Iter) : Option Iter := do
  let it ← beforeEnd f it
  let it ← moveUpToLevel f 0 it
  let e ← (sibs f it.up)[0]?
  moveDownToLevelBegin f level ⟨it.up, e.sib, 0⟩

/-- TreeIterator.h:405-414. -/
def moveToLastOnLevel (f : List (Entry V)) (level : Nat) (it : Iter) : Option Iter := do
  let it ← beforeEnd f it
  let it ← moveUpToLevel f 0 it
  let e ← (sibs f it.up)[(sibs f it.up).length - 1]?
  let r ← moveDownToLevelEnd f level ⟨it.up, e.sib, 0⟩
  some r.1

/-- TreeIterator.h:446-474. -/
def moveToNextOnLevel (f : List (Entry V)) (it : Iter) : Option Iter := do
  let level ← levelOf f it
  let a ← climbLast f it
  let e ← deref f a
  if isLast f a e then some { it with idx := it.idx + 1 }
  else do
    let b ← moveDownToLevelBegin f level { a with idx := a.idx + 1, counter := 0 }
    if past f b then some { it with idx := it.idx + 1 } else some b

/-- TreeIterator.h:477-501. The result of `moveDownToLevelEnd` is asserted in all builds. -/
def moveToPreviousOnLevel (f : List (Entry V)) (it : Iter) : Option Iter :=
  if past f it then dec it
  else do
    let level ← levelOf f it
    let a ← whileM (fun it => (deref f it).map isFirst) (moveToParent f) it
    let b ← dec a
    let r ← moveDownToLevelEnd f level { b with counter := 0 }
    if r.2 then some r.1 else none

/-- TreeIterator.h:503-515. The decrement at the end is that of a traversal of all levels, from an entry
that is not the first of its siblings: it is `moveToPreviousOnLevel`. -/
def hasPreviousOnLevel (f : List (Entry V)) (it : Iter) : Option Bool :=
  if past f it then some true
  else do
    let e ← deref f it
    if !isFirst e then some true
    else do
      let level ← levelOf f it
      let d ← whileM (fun it => (deref f it).map fun e => !e.isRoot && isFirst e) (moveToParent f) it
      let e ← deref f d
      if isFirst e then some false
      else do
        let d ← moveToPreviousOnLevel f d
        let r ← moveDownToLevelEnd f level d
        some r.2

/-- TreeIterator.h:602-613. -/
def moveToNextMultiLevel (f : List (Entry V)) (it : Iter) : Option Iter := do
  let it ← moveToNextOnLevel f it
  if past f it then do
    let it ← dec it
    let l ← levelOf f it
    moveToFirstOnLevel f (l + 1) it
  else some it

/-- TreeIterator.h:615-625. -/
def moveToPreviousMultiLevel (f : List (Entry V)) (it : Iter) : Option Iter := do
  if ← hasPreviousOnLevel f it then moveToPreviousOnLevel f it
  else do
    let l ← levelOf f it
    if l = 0 then none else moveToLastOnLevel f (l - 1) it

/-- `operator++` (TreeIterator.h:190-213). -/
def incr (m : Method) (f : List (Entry V)) (it : Iter) : Option Iter :=
  if past f it then none
  else match m with
    | .allLevel => moveToNextMultiLevel f it
    | .preOrder => moveToNextPreOrder f it
    | .postOrder => moveToNextPostOrder f it
    | .singleLevel => moveToNextOnLevel f it

/-- `operator--` (TreeIterator.h:215-237). -/
def decr (m : Method) (f : List (Entry V)) (it : Iter) : Option Iter :=
  match m with
  | .allLevel => moveToPreviousMultiLevel f it
  | .preOrder => moveToPreviousPreOrder f it
  | .postOrder => moveToPreviousPostOrder f it
  | .singleLevel => moveToPreviousOnLevel f it

/-- `operator==` of two iterators with the same traversal method (TreeIterator.h:260-273): the same entry,
or both past the end. -/
def same (f : List (Entry V)) (a b : Iter) : Bool :=
  if !past f a && !past f b then a.up == b.up && a.idx == b.idx else past f a && past f b

/-- `getIterator(method, level)` (TreeEntry.h:115-119, TreeIterator.h:102-112, 281-292) on the entry at
position `i` of the roots. -/
def rootIterator (m : Method) (level : Nat) (f : List (Entry V)) (i : Nat) : Option Iter := do
  let e ← f[i]?
  let it : Iter := ⟨[], e.sib, 0⟩
  if m = .singleLevel then
    if level < e.level then moveUpToLevel f level it else moveDownToLevelBegin f level it
  else some it

/-- `LevelTree::begin` (LevelTree_Impl.h:116-129); the iterator of an empty tree is past the end. -/
def begin (m : Method) (level : Nat) (f : List (Entry V)) : Option Iter :=
  if f.isEmpty then some ⟨[], 0, 0⟩
  else do
    let it ← rootIterator m level f 0
    if m = .postOrder then descendFirst f it else some it

/-- `LevelTree::end` (LevelTree_Impl.h:131-152). -/
def finish (m : Method) (level : Nat) (f : List (Entry V)) : Option Iter :=
  if f.isEmpty then some ⟨[], 0, 0⟩
  else do
    let it ← rootIterator m level f (f.length - 1)
    let it ← if m = .preOrder ∨ m = .allLevel then descendLast f it else some it
    let it ← if m = .singleLevel then moveToLastOnLevel f level it else some it
    incr m f it

/-- `for (it = a; it != b; ++it)`, collecting the data of the entries visited. -/
def loop (m : Method) (f : List (Entry V)) (b it : Iter) : Option (List V) :=
  if same f it b then some []
  else do
    let e ← deref f it
    let it' ← incr m f it
    let l ← loop m f b it'
    some (e.data :: l)
partial_fixpoint

/-- The same loop with `std::reverse_iterator`s: it starts with the base `it` and ends when the base equals
`b`; dereferencing decrements a copy of the base first (LevelTree_Impl.h:191-209). -/
def reverseLoop (m : Method) (f : List (Entry V)) (b it : Iter) : Option (List V) :=
  if same f it b then some []
  else do
    let it' ← decr m f it
    let e ← deref f it'
    let l ← reverseLoop m f b it'
    some (e.data :: l)
partial_fixpoint

/-- `for (v : tree)`. -/
def iterate (m : Method) (level : Nat) (f : List (Entry V)) : Option (List V) := do
  let b ← finish m level f
  let a ← begin m level f
  loop m f b a

/-- `for (it = tree.rbegin(); it != tree.rend(); ++it)`. -/
def iterateReverse (m : Method) (level : Nat) (f : List (Entry V)) : Option (List V) := do
  let b ← finish m level f
  let a ← begin m level f
  reverseLoop m f a b

/-! ## Changing the forest -/

/-- The forest with the entry at position `i` of the vector `up` replaced by `g` of it. The positions in
`up` are innermost first. -/
def modifyAt (f : List (Entry V)) (g : Entry V → Entry V) : List Nat → Nat → List (Entry V)
  | [], i => f.modify i g
  | j :: up, i =>
    modifyAt f (fun | .mk d l dp s cs => .mk d l dp s (cs.modify i g)) up j

/-- TreeEntry.h:267-271. -/
def Entry.addChild (v : V) : Entry V → Entry V
  | .mk d l dp s cs => .mk d l dp s (cs ++ [.mk v (l + dp) 1 cs.length []])

/-- TreeEntry.h:141-144. -/
def Entry.setDepth (depth : Nat) : Entry V → Entry V
  | .mk d l _ s cs => .mk d l depth s cs

/-- TreeEntry.h:274-279. -/
def Entry.addChildren (vs : List V) (e : Entry V) : Entry V := vs.foldl (fun e v => e.addChild v) e

/-- TreeEntry.h:282-288. -/
def Entry.removeChildren : Entry V → Entry V
  | .mk d l _ s _ => .mk d l 1 s []

/-- A tree (LevelTree.h:188-191). -/
structure Tree (V : Type) where
  entries : List (Entry V)
  maxLevel : Nat
  activeLevel : Nat
  method : Method

/-- LevelTree_Impl.h:45-49; the active level -1 is `2^64 - 1`. -/
def Tree.empty (V : Type) : Tree V := ⟨[], 0, 2 ^ 64 - 1, .allLevel⟩

/-- LevelTree_Impl.h:214-220. -/
def Tree.addRootEntry (t : Tree V) (v : V) : Tree V :=
  { t with maxLevel := max 1 t.maxLevel, entries := t.entries ++ [.mk v 0 1 t.entries.length []] }

/-- LevelTree_Impl.h:222-229; the last child of an entry without children is undefined behaviour. -/
def Tree.addChildren (t : Tree V) (it : Iter) (vs : List V) : Option (Tree V) := do
  let _ ← deref t.entries it
  let entries := modifyAt t.entries (fun e => e.addChildren vs) it.up it.idx
  let e ← deref entries it
  let c ← e.children.getLast?
  some { t with entries := entries, maxLevel := max (c.depth + c.level) t.maxLevel }

/-- LevelTree_Impl.h:231-239. -/
def Tree.addChild (t : Tree V) (it : Iter) (v : V) : Option (Tree V) := do
  let _ ← deref t.entries it
  let entries := modifyAt t.entries (fun e => e.addChild v) it.up it.idx
  let e ← deref entries it
  let c ← e.children.getLast?
  some { t with entries := entries, maxLevel := max (c.depth + c.level) t.maxLevel }

/-- LevelTree_Impl.h:241-254. -/
def Tree.addChildrenAt (t : Tree V) (it : Iter) (vs : List V) (level : Nat) : Option (Tree V) := do
  let p ← deref t.entries it
  if p.level < level then
    let entries := modifyAt t.entries (fun e => (e.setDepth (level - p.level)).addChildren vs) it.up it.idx
    let e ← deref entries it
    let c ← e.children.getLast?
    some { t with entries := entries, maxLevel := max (c.depth + c.level) t.maxLevel }
  else none

/-- LevelTree_Impl.h:256-269. -/
def Tree.addChildAt (t : Tree V) (it : Iter) (v : V) (level : Nat) : Option (Tree V) := do
  let p ← deref t.entries it
  if p.level < level then
    let entries := modifyAt t.entries (fun e => (e.setDepth (level - p.level)).addChild v) it.up it.idx
    let e ← deref entries it
    let c ← e.children.getLast?
    some { t with entries := entries, maxLevel := max (c.depth + c.level) t.maxLevel }
  else none

/-- The body of the loop of `fillToLevel` (LevelTree_Impl.h:282-288). -/
def fillEntry (level : Nat) (f : List (Entry V)) (it : Iter) : Option (List (Entry V)) := do
  let e ← deref f it
  if !e.hasChild && e.level + e.depth - 1 < level then
    some (modifyAt f (fun e => e.setDepth (level - e.level + 1)) it.up it.idx)
  else some f

/-- The loop of `fillToLevel` (LevelTree_Impl.h:281-289); `end()` is evaluated in every round. -/
def fillLoop (level : Nat) (f : List (Entry V)) (it : Iter) : Option (List (Entry V)) :=
  match finish .postOrder 0 f with
  | none => none
  | some b =>
    if same f it b then some f
    else match fillEntry level f it with
      | none => none
      | some f' => match incr .postOrder f' it with
        | none => none
        | some it' => fillLoop level f' it'
partial_fixpoint

/-- LevelTree_Impl.h:276-291. -/
def Tree.fillToLevel (t : Tree V) (level : Nat) : Option (Tree V) := do
  let it ← begin .postOrder 0 t.entries
  let f ← fillLoop level t.entries it
  some { t with entries := f, maxLevel := max (level + 1) t.maxLevel }

/-- The loop of `eraseChilds` (LevelTree_Impl.h:330-338). -/
def shrink (f : List (Entry V)) (maxLevel : Nat) : Option Nat :=
  whileM (fun l => do
      let e ← f[0]?
      let it ← moveDownToLevelBegin f (l - 1) ⟨[], e.sib, 0⟩
      some (past f it))
    (fun l => some (l - 1)) maxLevel

/-- LevelTree_Impl.h:328-339. -/
def Tree.eraseChilds (t : Tree V) (it : Iter) : Option (Tree V) := do
  let _ ← deref t.entries it
  let entries := modifyAt t.entries Entry.removeChildren it.up it.idx
  let l ← shrink entries t.maxLevel
  some { t with entries := entries, maxLevel := l }

/-- LevelTree_Impl.h:341-348. -/
def Tree.clear (t : Tree V) : Tree V := { t with entries := [], maxLevel := 0 }

/-- LevelTree_Impl.h:76-84. -/
def Tree.setSingleLevelTraversal (t : Tree V) (level : Nat) : Option (Tree V) :=
  if (t.entries.length = 0 ∧ level = 0) ∨ t.maxLevel > level then
    some { t with activeLevel := level, method := .singleLevel }
  else none

/-- LevelTree_Impl.h:86-108: the other three methods. -/
def Tree.setTraversalMethod (t : Tree V) (m : Method) : Option (Tree V) :=
  if m = .singleLevel then none else some { t with method := m }

/-- A call that changes a tree. -/
inductive Op (V : Type) where
  | addRootEntry (v : V)
  | addChildren (it : Iter) (vs : List V)
  | addChild (it : Iter) (v : V)
  | addChildrenAt (it : Iter) (vs : List V) (level : Nat)
  | addChildAt (it : Iter) (v : V) (level : Nat)
  | fillToLevel (level : Nat)
  | eraseChilds (it : Iter)
  | clear
  | setSingleLevelTraversal (level : Nat)
  | setTraversalMethod (m : Method)

/-- The effect of a call. -/
def Tree.apply (t : Tree V) : Op V → Option (Tree V)
  | .addRootEntry v => some (t.addRootEntry v)
  | .addChildren it vs => t.addChildren it vs
  | .addChild it v => t.addChild it v
  | .addChildrenAt it vs level => t.addChildrenAt it vs level
  | .addChildAt it v level => t.addChildAt it v level
  | .fillToLevel level => t.fillToLevel level
  | .eraseChilds it => t.eraseChilds it
  | .clear => some t.clear
  | .setSingleLevelTraversal level => t.setSingleLevelTraversal level
  | .setTraversalMethod m => t.setTraversalMethod m

/-- The effect of a history of calls. -/
def Tree.run (t : Tree V) : List (Op V) → Option (Tree V)
  | [] => some t
  | o :: os => match t.apply o with
    | none => none
    | some t' => t'.run os

end Verif.LevelTree
