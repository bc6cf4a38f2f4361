import Verif.LevelTree.LemmasFill

/-! # Properties of refinement forests (C25, C26) -/
namespace Verif.LevelTree
variable {V : Type}

/-! ## Histories -/

/-- What a call with a start level for the children needs: the level is the one the entry ends at, or the
entry is a leaf and does not get shorter. The other calls need nothing, except that stretching leaves to a
level needs a leaf. -/
def Op.Allowed (t : Tree V) : Op V → Prop
  | .addChildrenAt it _ level => ∀ p, deref t.entries it = some p →
      p.level + p.depth = level ∨ (p.children = [] ∧ p.level + p.depth ≤ level)
  | .addChildAt it _ level => ∀ p, deref t.entries it = some p →
      p.level + p.depth = level ∨ (p.children = [] ∧ p.level + p.depth ≤ level)
  | .fillToLevel _ => t.entries ≠ []
  | _ => True

/-- Every call of a history is allowed in the state it is made in. -/
def AllowedRun (t : Tree V) : List (Op V) → Prop
  | [] => True
  | o :: os => o.Allowed t ∧ ∀ t', t.apply o = some t' → AllowedRun t' os

/-- A call that does not choose levels. -/
def Op.Plain : Op V → Prop
  | .addChildrenAt .. => False
  | .addChildAt .. => False
  | .fillToLevel _ => False
  | _ => True

private theorem apply_levels {t t' : Tree V} {o : Op V} (ho : o.Allowed t) (w : Wf t.entries)
    (hl : levels t.entries t.maxLevel) (h : t.apply o = some t') : Wf t'.entries ∧ levels t'.entries t'.maxLevel := by
  cases o with
  | addRootEntry v => cases h; exact addRoot_levels v w hl
  | addChildren it vs => exact addChildren_levels w hl h
  | addChild it v => exact addChildren_levels (vs := [v]) w hl h
  | addChildrenAt it vs level => exact addChildrenAt_levels w hl ho h
  | addChildAt it v level => exact addChildrenAt_levels (vs := [v]) w hl ho h
  | fillToLevel level =>
    simp only [Tree.apply, (fillToLevel_eq level w hl.1).1, Option.some.injEq] at h
    subst h
    exact fill_levels level w hl ho
  | eraseChilds it =>
    cases he : deref t.entries it with
    | none => simp [Tree.apply, Tree.eraseChilds, he] at h
    | some e =>
      obtain ⟨k, h1, h2⟩ := erase_eq w hl.1 he
      simp only [Tree.apply, h1, Option.some.injEq] at h
      subst h
      exact h2
  | clear =>
    cases h
    refine ⟨⟨?_, ?_, ?_, ?_⟩, ?_, Or.inl rfl⟩
    all_goals
      have hs : ∀ up : List Nat, sibs ([] : List (Entry V)) up = [] := by
        intro up
        induction up with
        | nil => rfl
        | cons j up ih => simp [sibs, ih]
      simp [At, hs, Tree.clear]
  | setSingleLevelTraversal level =>
    simp only [Tree.apply, Tree.setSingleLevelTraversal] at h
    split at h <;> simp at h
    subst h
    exact ⟨w, hl⟩
  | setTraversalMethod m =>
    simp only [Tree.apply, Tree.setTraversalMethod] at h
    split at h <;> simp at h
    subst h
    exact ⟨w, hl⟩

private theorem run_levels (ops : List (Op V)) : ∀ {t t' : Tree V}, AllowedRun t ops → Wf t.entries → levels t.entries t.maxLevel →
    t.run ops = some t' → Wf t'.entries ∧ levels t'.entries t'.maxLevel := by
  induction ops with
  | nil => intro t t' _ w hl h; cases h; exact ⟨w, hl⟩
  | cons o os ih =>
    intro t t' ha w hl h
    rw [Tree.run] at h
    split at h
    · simp at h
    · rename_i t1 h1
      obtain ⟨w1, hl1⟩ := apply_levels ha.1 w hl h1
      exact ih (ha.2 t1 h1) w1 hl1 h

private theorem empty_levels : Wf (Tree.empty V).entries ∧ levels (Tree.empty V).entries (Tree.empty V).maxLevel := by
  have hs : ∀ up : List Nat, sibs ([] : List (Entry V)) up = [] := by
    intro up
    induction up with
    | nil => rfl
    | cons j up ih => simp [sibs, ih]
  refine ⟨⟨?_, ?_, ?_, ?_⟩, ?_, Or.inl rfl⟩ <;> simp [At, hs, Tree.empty]

private theorem plain_allowed : ∀ (ops : List (Op V)), (∀ o ∈ ops, o.Plain) → ∀ t : Tree V, AllowedRun t ops
  | [], _, _ => trivial
  | o :: os, h, t => by
    refine ⟨?_, fun t' _ => plain_allowed os (fun o' ho' => h o' (by simp [ho'])) t'⟩
    have := h o (by simp)
    cases o <;> simp_all [Op.Plain, Op.Allowed]

/-- C25: after every history of allowed calls from an empty tree the entries know their position, live on at
least one level, roots start at level 0, children start at the level their parent ends at, and the tree knows
the exact number of levels. -/
theorem levels_consistent (ops : List (Op V)) (t : Tree V) (ha : AllowedRun (Tree.empty V) ops)
    (h : (Tree.empty V).run ops = some t) : Wf t.entries ∧ levels t.entries t.maxLevel :=
  run_levels ops ha empty_levels.1 empty_levels.2 h

/-- C25: histories of calls that do not choose levels need no further condition. -/
theorem plain_levels_consistent (ops : List (Op V)) (t : Tree V) (hp : ∀ o ∈ ops, o.Plain)
    (h : (Tree.empty V).run ops = some t) : Wf t.entries ∧ levels t.entries t.maxLevel :=
  levels_consistent ops t (plain_allowed ops hp _) h

/-- A history: two roots, two children of the first, one grandchild, and the children of the first erased. -/
example : (Tree.empty Nat).run [.addRootEntry 1, .addRootEntry 2, .addChildren ⟨[], 0, 0⟩ [3, 4], .addChild ⟨[0], 1, 0⟩ 5] =
    some ⟨[.mk 1 0 1 0 [.mk 3 1 1 0 [], .mk 4 1 1 1 [.mk 5 2 1 0 []]], .mk 2 0 1 1 []], 3, 2 ^ 64 - 1, .allLevel⟩ := by
  simp [Tree.run, Tree.apply, Tree.addRootEntry, Tree.empty, Tree.addChildren, Tree.addChild, deref, sibs, modifyAt,
    Entry.addChildren, Entry.addChild, Entry.children, Entry.level, Entry.depth]

/-- C25: calls with an iterator to an entry do not fail on a consistent tree. -/
theorem valid_calls_succeed (t : Tree V) (it : Iter) (e : Entry V) (w : Wf t.entries) (hl : levels t.entries t.maxLevel)
    (he : deref t.entries it = some e) :
    (∀ v, (t.addChild it v).isSome) ∧ (∀ vs, vs ≠ [] → (t.addChildren it vs).isSome) ∧
    (∀ v level, (t.addChildAt it v level).isSome ↔ e.level < level) ∧ (t.eraseChilds it).isSome ∧
    ∀ level, (t.fillToLevel level).isSome := by
  have hAt : At t.entries it.up it.idx e := he
  have hd : ∀ g : Entry V → Entry V, deref (modifyAt t.entries g it.up it.idx) it = some (g e) := fun g => at_modifyAt hAt
  have hlast : ∀ (e : Entry V) (v : V), ∃ c, (e.addChild v).children.getLast? = some c := by
    intro e v
    rw [(addChild_eq v e).2.2.2.2]
    exact ⟨_, List.getLast?_concat⟩
  refine ⟨?_, ?_, ?_, ?_, ?_⟩
  · intro v
    obtain ⟨c, hc⟩ := hlast e v
    simp [Tree.addChild, he, hd, hc]
  · intro vs hv
    obtain ⟨c, hc, -⟩ := (addChildren_eq vs e).2.2.2.2 hv
    simp [Tree.addChildren, he, hd, hc]
  · intro v level
    obtain ⟨c, hc⟩ := hlast (e.setDepth (level - e.level)) v
    by_cases h : e.level < level <;> simp [Tree.addChildAt, he, hd, hc, h]
  · obtain ⟨k, h1, -⟩ := erase_eq w hl.1 he
    simp [h1]
  · intro level
    simp [(fillToLevel_eq level w hl.1).1]

/-- C25: what the calls do to the entry they are made on: `addChildren` appends new leaves on the level the
entry ends at, `eraseChilds` leaves a leaf on one level. -/
theorem calls_effect (t t' : Tree V) (it : Iter) (e : Entry V) (he : deref t.entries it = some e) :
    (∀ vs, t.addChildren it vs = some t' → ∃ e', deref t'.entries it = some e' ∧
      e'.data = e.data ∧ e'.level = e.level ∧ e'.depth = e.depth ∧
      e'.children = e.children ++ vs.mapIdx fun k v => .mk v (e.level + e.depth) 1 (e.children.length + k) []) ∧
    (t.eraseChilds it = some t' → deref t'.entries it = some (.mk e.data e.level 1 e.sib [])) := by
  have hAt : At t.entries it.up it.idx e := he
  have hd : ∀ g : Entry V → Entry V, deref (modifyAt t.entries g it.up it.idx) it = some (g e) := fun g => at_modifyAt hAt
  constructor
  · intro vs h
    simp only [Tree.addChildren, he, Option.bind_eq_bind, Option.bind_some, hd] at h
    cases hc : (e.addChildren vs).children.getLast? with
    | none => rw [hc] at h; simp at h
    | some c =>
      rw [hc] at h
      simp only [Option.bind_some, Option.some.injEq] at h
      subst h
      refine ⟨e.addChildren vs, hd _, ?_⟩
      clear hc hd hAt he
      induction vs generalizing e with
      | nil => simp [addChildren_nil]
      | cons v vs ih =>
        obtain ⟨h1, h2, h3, h4, h5⟩ := addChild_eq v e
        obtain ⟨i1, i2, i3, i4⟩ := ih (e.addChild v)
        rw [addChildren_cons, i1, i2, i3, i4, h1, h2, h4, h5]
        refine ⟨rfl, rfl, rfl, ?_⟩
        simp [List.mapIdx_cons, Nat.add_assoc, Nat.add_comm 1]
  · intro h
    simp only [Tree.eraseChilds, he, Option.bind_eq_bind, Option.bind_some] at h
    cases hs : shrink (modifyAt t.entries Entry.removeChildren it.up it.idx) t.maxLevel with
    | none => rw [hs] at h; simp at h
    | some k =>
      rw [hs] at h
      simp only [Option.bind_some, Option.some.injEq] at h
      subst h
      rw [hd]
      cases e; rfl

/-- C25: `fillToLevel` stretches exactly the leaves that end before the level. -/
theorem fillToLevel_stretches (t : Tree V) (level : Nat) (w : Wf t.entries)
    (hb : ∀ up i e, At t.entries up i e → e.level + e.depth ≤ t.maxLevel) :
    t.fillToLevel level =
      some { t with entries := fill level t.entries, maxLevel := max (level + 1) t.maxLevel } ∧
    Wf (fill level t.entries) ∧
    (∀ up i e, At (fill level t.entries) up i e → e.level + e.depth ≤ max (level + 1) t.maxLevel) :=
  ⟨(fillToLevel_eq level w hb).1, good_wf (fillToLevel_eq level w hb).2⟩

example : fill 2 [.mk 1 0 1 0 [.mk 3 1 1 0 []], .mk 2 0 1 1 ([] : List (Entry Nat))] =
    [.mk 1 0 1 0 [.mk 3 1 2 0 []], .mk 2 0 3 1 []] := by
  simp [fill, Entry.fill]

/-- C25: in a consistent tree with entries a level can be selected for iteration if and only if there are
entries on it. -/
theorem level_selectable (t : Tree V) (w : Wf t.entries) (hl : levels t.entries t.maxLevel) (hne : t.entries ≠ [])
    (level : Nat) : (t.setSingleLevelTraversal level).isSome ↔ onLevel level t.entries ≠ [] := by
  have h0 : t.entries.length ≠ 0 := by simpa using hne
  rw [onLevel_ne_iff w]
  simp only [Tree.setSingleLevelTraversal, h0, false_and, false_or]
  constructor
  · intro h
    have hgt : t.maxLevel > level := by
      by_cases hc : t.maxLevel > level
      · exact hc
      · rw [if_neg hc] at h; simp at h
    rcases hl.2 with h1 | ⟨up, i, e, he, h2⟩
    · omega
    · exact ⟨up, i, e, he, by omega⟩
  · rintro ⟨up, i, e, he, h1⟩
    have := hl.1 _ _ _ he
    rw [if_pos (by omega)]; rfl

/-! ### Where the levels go wrong -/

/-- Finding: `addChild` with a level on an entry that has children leaves the old children on their level,
so that siblings start on different levels and the parent overlaps one of them. -/
theorem addChildAt_breaks_levels : ∃ (t t' : Tree Nat) (it : Iter) (v level : Nat),
    Wf t.entries ∧ levels t.entries t.maxLevel ∧ t.addChildAt it v level = some t' ∧ ¬ Wf t'.entries := by
  have hr : (Tree.empty Nat).run [.addRootEntry 1, .addChild ⟨[], 0, 0⟩ 2] =
      some ⟨[.mk 1 0 1 0 [.mk 2 1 1 0 []]], 2, 2 ^ 64 - 1, .allLevel⟩ := by
    simp [Tree.run, Tree.apply, Tree.addRootEntry, Tree.empty, Tree.addChild, deref, sibs, modifyAt,
      Entry.addChild, Entry.children, Entry.level, Entry.depth]
  obtain ⟨w, hl⟩ := plain_levels_consistent _ _ (by simp [Op.Plain]) hr
  refine ⟨_, ⟨[.mk 1 0 3 0 [.mk 2 1 1 0 [], .mk 3 3 1 1 []]], 4, 2 ^ 64 - 1, .allLevel⟩, ⟨[], 0, 0⟩, 3, 3, w, hl, ?_, ?_⟩
  · simp [Tree.addChildAt, deref, sibs, modifyAt, Entry.addChild, Entry.setDepth, Entry.children, Entry.level, Entry.depth]
  · intro w'
    have := w'.child [] 0 _ rfl (.mk 2 1 1 0 []) (by simp [Entry.children])
    simp [Entry.level, Entry.depth] at this

/-- Finding: `addChild` with a level that shortens a stretched leaf leaves the number of levels too large. A
level without entries can then be selected. -/
theorem addChildAt_keeps_maxLevel : ∃ (t t' : Tree Nat) (it : Iter) (v level : Nat),
    Wf t.entries ∧ levels t.entries t.maxLevel ∧ t.addChildAt it v level = some t' ∧ ¬ levels t'.entries t'.maxLevel ∧
    (t'.setSingleLevelTraversal 4).isSome ∧ onLevel 4 t'.entries = [] := by
  have hr : (Tree.empty Nat).run [.addRootEntry 1] = some ⟨[.mk 1 0 1 0 []], 1, 2 ^ 64 - 1, .allLevel⟩ := by
    simp [Tree.run, Tree.apply, Tree.addRootEntry, Tree.empty]
  obtain ⟨w, hl⟩ := plain_levels_consistent _ _ (by simp [Op.Plain]) hr
  obtain ⟨w', hl'⟩ := fill_levels 4 w hl (by simp)
  refine ⟨⟨fill 4 [.mk 1 0 1 0 []], max (4 + 1) 1, 0, .allLevel⟩, ⟨[.mk 1 0 1 0 [.mk 2 1 1 0 []]], 5, 0, .allLevel⟩,
    ⟨[], 0, 0⟩, 2, 1, w', hl', ?_, ?_, ?_, ?_⟩
  · simp [Tree.addChildAt, deref, sibs, modifyAt, Entry.addChild, Entry.setDepth, Entry.children, Entry.level, Entry.depth, fill, Entry.fill]
  · rintro ⟨-, h | ⟨up, i, e, he, h⟩⟩
    · simp at h
    · have : onLevel 4 ([.mk 1 0 1 0 [.mk 2 1 1 0 []]] : List (Entry Nat)) ≠ [] := by
        refine (onLevel_ne_iff ?_ 4).2 ⟨up, i, e, he, by simp at h; omega⟩
        have hr : (Tree.empty Nat).run [.addRootEntry 1, .addChild ⟨[], 0, 0⟩ 2] =
            some ⟨[.mk 1 0 1 0 [.mk 2 1 1 0 []]], 2, 2 ^ 64 - 1, .allLevel⟩ := by
          simp [Tree.run, Tree.apply, Tree.addRootEntry, Tree.empty, Tree.addChild, deref, sibs, modifyAt,
            Entry.addChild, Entry.children, Entry.level, Entry.depth]
        exact (plain_levels_consistent _ _ (by simp [Op.Plain]) hr).1
      simp [onLevel, Entry.onLevel] at this
  · simp [Tree.setSingleLevelTraversal]
  · simp [onLevel, Entry.onLevel]

/-- Finding: `addChildren` with an empty list on a leaf reads the last child of an entry without children. -/
theorem addChildren_nil_undefined (t : Tree V) (it : Iter) (e : Entry V) (he : deref t.entries it = some e)
    (hl : e.children = []) : t.addChildren it [] = none := by
  have hAt : At t.entries it.up it.idx e := he
  have hd : deref (modifyAt t.entries (fun e => e.addChildren []) it.up it.idx) it = some (e.addChildren []) :=
    at_modifyAt (g := fun e => e.addChildren []) hAt
  simp only [Tree.addChildren, he, hd, Option.bind_eq_bind, Option.bind_some]
  simp [addChildren_nil, hl]

/-! ## Traversals -/

/-- C26: iterating over one level visits exactly the entries on that level, from left to right, and backwards
from right to left. -/
theorem singleLevel_visits (f : List (Entry V)) (w : Wf f) (level : Nat) (hl : onLevel level f ≠ []) :
    iterate .singleLevel level f = some (onLevel level f) ∧
    iterateReverse .singleLevel level f = some (onLevel level f).reverse := by
  refine iterate_level w ?_ level hl
  rintro rfl
  exact hl rfl

/-- C26: after every allowed history every level that can be selected is visited exactly. -/
theorem history_singleLevel (ops : List (Op V)) (t t' : Tree V) (level : Nat) (ha : AllowedRun (Tree.empty V) ops)
    (h : (Tree.empty V).run ops = some t) (hne : t.entries ≠ []) (hs : t.setSingleLevelTraversal level = some t') :
    iterate t'.method t'.activeLevel t'.entries = some (onLevel level t.entries) ∧
    iterateReverse t'.method t'.activeLevel t'.entries = some (onLevel level t.entries).reverse ∧
    onLevel level t.entries ≠ [] := by
  obtain ⟨w, hl⟩ := levels_consistent ops t ha h
  have hon := (level_selectable t w hl hne level).1 (by rw [hs]; rfl)
  have ht : t' = { t with activeLevel := level, method := .singleLevel } := by
    simp only [Tree.setSingleLevelTraversal] at hs
    split at hs <;> simp at hs
    exact hs.symm
  subst ht
  obtain ⟨h1, h2⟩ := singleLevel_visits t.entries w level hon
  exact ⟨h1, h2, hon⟩

/-- C26: iterating in post-order visits children before their parent, for every forest. -/
theorem postOrder_visits (f : List (Entry V)) (w : Wf f) (hne : f ≠ []) (level : Nat) :
    iterate .postOrder level f = some (postorder f) := iterate_post w hne level

/-- C26, backwards in post-order: only if every entry lives on one level. -/
theorem postOrder_reverse_partial (f : List (Entry V)) (w : Wf f) (hne : f ≠ []) (thin : Thin f) (level : Nat) :
    iterateReverse .postOrder level f = some (postorder f).reverse := iterateReverse_post w hne thin level

/-- C26: iterating in pre-order visits every entry before its children, if the last leaf lives on one level. -/
theorem preOrder_visits_partial (f : List (Entry V)) (w : Wf f) (hne : f ≠ [])
    (hl : ∀ e, LastLeaf f e → e.depth = 1) (level : Nat) : iterate .preOrder level f = some (preorder f) :=
  iterate_pre w hne hl level

/-- C26, backwards in pre-order: only if the leaves and the first root live on one level. -/
theorem preOrder_reverse_partial (f : List (Entry V)) (w : Wf f) (hne : f ≠ [])
    (hleaf : ∀ up i e, At f up i e → e.children = [] → e.depth = 1) (hroot : ∀ r, At f [] 0 r → r.depth = 1)
    (level : Nat) : iterateReverse .preOrder level f = some (preorder f).reverse :=
  iterateReverse_pre w hne hleaf hroot level

private theorem lastLeaf_unique (g : List (Entry V)) (a b : Entry V) (ha : LastLeaf g a) : LastLeaf g b → a = b := by
  induction ha generalizing b with
  | leaf g a h1 h2 =>
    intro hb
    cases hb with
    | leaf _ _ h3 h4 => rw [h1] at h3; exact Option.some.inj h3
    | node _ p _ h3 h4 =>
      rw [h1] at h3; cases h3
      rw [h2] at h4
      cases h4 <;> simp_all
  | node g p a h1 h2 ih =>
    intro hb
    cases hb with
    | leaf _ _ h3 h4 =>
      rw [h1] at h3; cases h3
      rw [h4] at h2
      cases h2 <;> simp_all
    | node _ p' _ h3 h4 =>
      rw [h1] at h3; cases h3
      exact ih _ h4

/-- C26: iterating over all levels visits level after level, but it ends with the level of the last leaf of the
last tree. The backward iteration visits the same entries. This is for entries that live on one level. -/
theorem allLevel_visits_partial (f : List (Entry V)) (w : Wf f) (hne : f ≠ []) (thin : Thin f) (e : Entry V)
    (he : LastLeaf f e) (level : Nat) :
    iterate .allLevel level f = some ((List.range (e.level + 1)).flatMap fun l => onLevel l f) ∧
    iterateReverse .allLevel level f = some ((List.range (e.level + 1)).flatMap fun l => onLevel l f).reverse :=
  ⟨iterate_all w hne thin level he, iterateReverse_all w hne thin level he fun a ha => lastLeaf_unique f a e ha he⟩

/-- C26: if the last leaf is on the last level all levels are visited. -/
theorem allLevel_complete_partial (f : List (Entry V)) (w : Wf f) (hne : f ≠ []) (thin : Thin f) (n : Nat)
    (hn : levels f n) (e : Entry V) (he : LastLeaf f e) (hlast : e.level + 1 = n) (level : Nat) :
    iterate .allLevel level f = some ((List.range n).flatMap fun l => onLevel l f) ∧
    (∀ l, onLevel l f ≠ [] → l < n) := by
  refine ⟨by rw [← hlast]; exact (allLevel_visits_partial f w hne thin e he level).1, ?_⟩
  intro l h
  obtain ⟨up, i, a, ha, h1⟩ := (onLevel_ne_iff w l).1 h
  have := hn.1 _ _ _ ha
  omega

/-- The example of the theorems above: two roots, the second with a child and a grandchild. -/
def exEven : List (Entry Nat) := [.mk 1 0 1 0 [.mk 3 1 1 0 []], .mk 2 0 1 1 [.mk 4 1 1 0 [.mk 5 2 1 0 []]]]

/-- Two roots, the first with a child. -/
def exUneven : List (Entry Nat) := [.mk 1 0 1 0 [.mk 3 1 1 0 []], .mk 2 0 1 1 []]

/-- Roots on two levels with a child each. -/
def exTwo : List (Entry Nat) := [.mk 1 0 2 0 [.mk 3 2 1 0 []], .mk 2 0 2 1 [.mk 4 2 1 0 []]]

/-- A root on two levels. -/
def exDeep : List (Entry Nat) := [.mk 1 0 2 0 []]

/-- A root on two levels before a root on one. -/
def exStretched : List (Entry Nat) := [.mk 1 0 2 0 [], .mk 2 0 1 1 []]

/-- A root on one level before a root on two with a child. -/
def exGap : List (Entry Nat) := [.mk 1 0 1 0 [], .mk 2 0 2 1 [.mk 3 2 1 0 []]]

private theorem ex_good : Good 3 0 0 exEven ∧ Good 2 0 0 exUneven ∧ Good 3 0 0 exTwo ∧ Good 2 0 0 exDeep ∧
    Good 2 0 0 exStretched ∧ Good 3 0 0 exGap := by
  simp [exEven, exUneven, exTwo, exDeep, exStretched, exGap, Good, Entry.Good]

mutual
private def thinE : Entry V → Bool
  | .mk _ _ dp _ cs => dp == 1 && thinL cs
private def thinL : List (Entry V) → Bool
  | [] => true
  | e :: es => thinE e && thinL es
end

private theorem thinL_get {es : List (Entry V)} (h : thinL es = true) : ∀ e ∈ es, e.depth = 1 ∧ thinL e.children = true := by
  induction es with
  | nil => simp
  | cons e es ih =>
    rw [thinL, Bool.and_eq_true] at h
    intro x hx
    rcases List.mem_cons.1 hx with rfl | hx
    · cases x
      have := h.1
      rw [thinE, Bool.and_eq_true] at this
      simpa [Entry.depth, Entry.children] using this
    · exact ih h.2 x hx

private theorem thin_of_bool {f : List (Entry V)} (h : thinL f = true) : Thin f := by
  have hs : ∀ up : List Nat, thinL (sibs f up) = true := by
    intro up
    induction up with
    | nil => exact h
    | cons j up ih =>
      simp only [sibs]
      split
      · rename_i e he
        exact (thinL_get ih e (List.mem_of_getElem? he)).2
      · rfl
  intro up i e he
  exact (thinL_get (hs up) e (List.mem_of_getElem? he)).1

example : Wf exEven ∧ exEven ≠ [] ∧ Thin exEven ∧ onLevel 1 exEven = [3, 4] ∧ onLevel 2 exEven = [5] ∧
    preorder exEven = [1, 3, 2, 4, 5] ∧ postorder exEven = [3, 1, 5, 4, 2] ∧ LastLeaf exEven (.mk 5 2 1 0 []) := by
  refine ⟨(good_wf ex_good.1).1, by simp [exEven], thin_of_bool (by simp [exEven, thinL, thinE]), ?_, ?_, ?_, ?_, ?_⟩
  · simp [exEven, onLevel, Entry.onLevel]
  · simp [exEven, onLevel, Entry.onLevel]
  · simp [exEven, preorder, Entry.preorder]
  · simp [exEven, postorder, Entry.postorder]
  · exact .node _ (.mk 2 0 1 1 [.mk 4 1 1 0 [.mk 5 2 1 0 []]]) _ rfl
      (.node _ (.mk 4 1 1 0 [.mk 5 2 1 0 []]) _ rfl (.leaf _ _ rfl rfl))

/-- An entry on several levels in pre-order and post-order. -/
example : Wf exTwo ∧ preorder exTwo = [1, 1, 3, 2, 2, 4] ∧ postorder exTwo = [3, 1, 1, 4, 2, 2] ∧ onLevel 1 exTwo = [1, 2] := by
  refine ⟨(good_wf ex_good.2.2.1).1, ?_, ?_, ?_⟩ <;>
    simp [exTwo, preorder, Entry.preorder, postorder, Entry.postorder, onLevel, Entry.onLevel]

/-! ### Where traversals go wrong -/

/-- Finding: with the default traversal (all levels) a loop over a forest misses the levels below the last leaf
of the last tree. -/
theorem allLevel_misses : Wf exUneven ∧ Thin exUneven ∧ onLevel 1 exUneven = [3] ∧
    iterate .allLevel 0 exUneven = some [1, 2] := by
  have w := (good_wf ex_good.2.1).1
  have th : Thin exUneven := thin_of_bool (by simp [exUneven, thinL, thinE])
  refine ⟨w, th, by simp [exUneven, onLevel, Entry.onLevel], ?_⟩
  have := (allLevel_visits_partial exUneven w (by simp [exUneven]) th (.mk 2 0 1 1 []) (.leaf _ _ rfl rfl) 0).1
  rw [this]
  simp [exUneven, onLevel, Entry.onLevel, Entry.level, List.range_succ]

/-- Finding: in pre-order a last leaf on more than one level is missed. -/
theorem preOrder_misses : Wf exDeep ∧ onLevel 0 exDeep = [1] ∧ iterate .preOrder 0 exDeep = some [] := by
  have w := (good_wf ex_good.2.2.2.1).1
  refine ⟨w, by simp [exDeep, onLevel, Entry.onLevel], ?_⟩
  have hne : exDeep ≠ [] := by simp [exDeep]
  obtain ⟨up, i, h1, h2⟩ := finish_pre_deep w hne 0 (e := .mk 1 0 2 0 []) (.leaf _ _ rfl rfl) (by simp [Entry.depth])
  have hup : up = [] ∧ i = 0 := by
    cases up with
    | nil =>
      refine ⟨rfl, ?_⟩
      have := h2.lt
      simp [sibs, exDeep] at this
      exact this
    | cons j up =>
      obtain ⟨p, hp, hc⟩ := h2.parent
      have := w.child _ _ _ hp _ (List.mem_of_getElem? hc)
      have := w.depth _ _ _ hp
      simp [Entry.level] at *
      omega
  obtain ⟨rfl, rfl⟩ := hup
  have hb := (begin_pre w hne .preOrder (Or.inl rfl) 0 ⟨[], 0, 0⟩).2
  simp only [iterate, h1, hb, Option.bind_eq_bind, Option.bind_some]
  rw [loop]
  simp [same, past, sibs, exDeep]

/-- Finding: iterating over all levels shows an entry on a level it does not live on. -/
theorem allLevel_wrong_level : Wf exStretched ∧ onLevel 1 exStretched = [1] ∧
    incr .allLevel exStretched ⟨[], 0, 1⟩ = some ⟨[], 1, 1⟩ ∧
    ∃ e, deref exStretched ⟨[], 1, 1⟩ = some e ∧ e.data = 2 ∧ e.level + e.depth ≤ 1 := by
  have w := (good_wf ex_good.2.2.2.2.1).1
  have h0 : At exStretched [] 0 (.mk 1 0 2 0 []) := rfl
  have h1 : At exStretched [] 1 (.mk 2 0 1 1 []) := rfl
  refine ⟨w, by simp [exStretched, onLevel, Entry.onLevel], ?_, _, rfl, rfl, by simp [Entry.level, Entry.depth]⟩
  obtain ⟨r, up', i', e', hr, L, hll, h3, h2, -⟩ := first_eq w (by simp [exStretched])
  have hself := L.self (by cases hr.inj h1; rfl)
  obtain ⟨rfl, rfl, rfl⟩ := hself
  have hn : nextPreOrderUp exStretched ⟨[], 0, 1⟩ = some ⟨[], 1, 0⟩ := nextUp_sibling w h0 (by simp [sibs, exStretched])
  have hp : past exStretched ⟨[], 2, 0⟩ = true := by simp [past, sibs, exStretched]
  have hstep : moveToNextPreOrder exStretched ⟨[], 1, 0⟩ = some ⟨[], 2, 0⟩ := by
    have := h2 0
    simp [moveToNextPreOrder, h1.deref, Entry.hasChild, Entry.children, canIncrease, Entry.depth]
    exact this
  have hmd : moveDownToLevelBegin exStretched 1 ⟨[], 1, 0⟩ = some ⟨[], 2, 0⟩ := by
    rw [moveDown_step (h1.deref 0) (by simp [Entry.level]) hstep]
    exact moveDown_past hp
  have hnext := nextOnLevel_eq w h0 (c := 1) (by simp [Entry.depth])
  have hcl : contL exStretched ((Entry.mk 1 0 2 0 [] : Entry Nat).level + 1) ⟨[], 0, 1⟩ = some none := by
    simp only [Entry.level, Nat.zero_add]
    simp [contL, hn, hmd, hp]
  rw [hcl] at hnext
  have hp1 : past exStretched ⟨[], 0, 1⟩ = false := h0.past 1
  have hp2 : past exStretched ⟨[], 1, 1⟩ = false := h1.past 1
  simp [incr, hp1, moveToNextMultiLevel, hnext, hp2]

/-- Finding: going back in post-order from the first child of a stretched entry skips a visit of the entry before
it: `--` does not undo `++`. -/
theorem postOrder_back_skips : Wf exTwo ∧ incr .postOrder exTwo ⟨[], 0, 0⟩ = some ⟨[1], 0, 0⟩ ∧
    decr .postOrder exTwo ⟨[1], 0, 0⟩ = some ⟨[], 0, 1⟩ := by
  have w := (good_wf ex_good.2.2.1).1
  have h0 : At exTwo [] 0 (.mk 1 0 2 0 [.mk 3 2 1 0 []]) := rfl
  have h1 : At exTwo [] 1 (.mk 2 0 2 1 [.mk 4 2 1 0 []]) := rfl
  have h2 : At exTwo [1] 0 (.mk 4 2 1 0 []) := rfl
  refine ⟨w, ?_, ?_⟩
  · refine incr_post ?_
    rw [nextPost_sibling w (es := []) ⟨[], 0, 0⟩ h0 h1]
    simp [postPos, countersDown]
  · obtain ⟨c', h3, h4⟩ := prevPost_leaf w h2 (by rfl) (c := 0) (by simp [Entry.depth]) (up' := []) (i' := 0) (by simp [prevTree])
    rcases h4 with ⟨h4, -⟩ | ⟨-, a, ha, rfl, -⟩
    · omega
    · cases h1.inj ha
      exact h3

/-- Finding: `--` over all levels aborts on a first child if an entry on an earlier level, but not on the last
level of its parent, comes before it. -/
theorem allLevel_back_aborts : Wf exGap ∧ onLevel 1 exGap = [2] ∧ onLevel 2 exGap = [3] ∧
    decr .allLevel exGap ⟨[1], 0, 0⟩ = none := by
  have w := (good_wf ex_good.2.2.2.2.2).1
  have h0 : At exGap [] 0 (.mk 1 0 1 0 []) := rfl
  have h1 : At exGap [] 1 (.mk 2 0 2 1 [.mk 3 2 1 0 []]) := rfl
  have h2 : At exGap [1] 0 (.mk 3 2 1 0 []) := rfl
  refine ⟨w, by simp [exGap, onLevel, Entry.onLevel], by simp [exGap, onLevel, Entry.onLevel], ?_⟩
  have hc := climbFirstRoot_up w h2 h1 0
  have hc' := climbFirstRoot_stop w h1 (c := 1) (Or.inl (by omega))
  have hs := climbFirst_stop w h1 (c := 1)
  have hend : ∃ x, moveDownToLevelEnd exGap 1 ⟨[], 0, 0⟩ = some (x, false) := by
    refine moveDownEnd_none w h0 (by simp [Entry.level]) (c := 0) (Or.inr ⟨by simp [Entry.depth], by simp [Entry.level]⟩) ?_
    simp [before, exGap, posLevel]
  obtain ⟨x, hx⟩ := hend
  have hprev : moveToPreviousOnLevel exGap ⟨[], 1, 1⟩ = none := by
    simp [moveToPreviousOnLevel, h1.past, levelOf, h1.deref, hs, dec, Entry.level, hx]
  have hhas : hasPreviousOnLevel exGap ⟨[1], 0, 0⟩ = none := by
    simp only [hasPreviousOnLevel, h2.past, h2.deref, Option.bind_eq_bind, Option.bind_some, w.isFirst h2, levelOf, hc]
    simp [Entry.depth, hc', h1.deref, w.isFirst h1, hprev]
  simp [decr, moveToPreviousMultiLevel, hhas]

end Verif.LevelTree
