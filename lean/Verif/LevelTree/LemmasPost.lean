import Verif.LevelTree.LemmasPrePost
set_option linter.all false
namespace Verif.LevelTree
variable {V : Type}

/-- The positions of an entry with decreasing counter. -/
def countersDown (up : List Nat) (i : Nat) : Nat → List Iter
  | 0 => []
  | n + 1 => ⟨up, i, n⟩ :: countersDown up i n

/-- Post-order positions of the trees at positions `i`, `i+1`, … of a vector. -/
def postPos (up : List Nat) (i : Nat) : List (Entry V) → List Iter
  | [] => []
  | .mk _ _ dp _ cs :: es =>
    postPos (i :: up) 0 cs ++ (countersDown up i (if cs.isEmpty then 1 else dp) ++ postPos up (i + 1) es)

theorem postPos_cons (up : List Nat) (i : Nat) (e : Entry V) (es : List (Entry V)) :
    postPos up i (e :: es) = postPos (i :: up) 0 e.children ++
      (countersDown up i (if e.children.isEmpty then 1 else e.depth) ++ postPos up (i + 1) es) := by
  cases e; rw [postPos]; rfl

theorem postorder_cons (e : Entry V) (es : List (Entry V)) :
    postorder (e :: es) = postorder e.children ++
      (List.replicate (if e.children.isEmpty then 1 else e.depth) e.data ++ postorder es) := by
  cases e; rw [postorder, Entry.postorder, List.append_assoc]; rfl

theorem Shows.countersDown {f : List (Entry V)} {up : List Nat} {i : Nat} {e : Entry V} (h : At f up i e) (n : Nat) :
    Shows f (countersDown up i n) (List.replicate n e.data) := by
  induction n with
  | zero => simp [Shows, LevelTree.countersDown]
  | succ n ih =>
    unfold Shows at *
    simp [LevelTree.countersDown, List.replicate_succ, h.deref] at ih ⊢
    exact ih

theorem shows_postPos {f : List (Entry V)} {up : List Nat} {i : Nat} {es : List (Entry V)} (t : Tail f up i es) :
    Shows f (postPos up i es) (postorder es) := by
  induction t using forest_ind with
  | nil => simp [Shows, postPos, postorder]
  | cons up i e es hAt t t' ih1 ih2 =>
    rw [postPos_cons, postorder_cons]
    exact ih1.append ((Shows.countersDown hAt _).append ih2)

section
variable {f : List (Entry V)} (w : Wf f)
include w

theorem descendFirst_node {up : List Nat} {i : Nat} {e : Entry V} (h : At f up i e) (hl : e.children ≠ [])
    (n : Nat) : ∀ c, c + n + 1 = e.depth →
    descendFirst f ⟨up, i, c⟩ = descendFirst f ⟨i :: up, 0, 0⟩ := by
  have hpos : 0 < e.children.length := List.length_pos_iff.2 hl
  induction n with
  | zero =>
    intro c hc
    refine whileM_true (by simp [h.deref, (hasChild_iff e).2 hl]) ?_
    exact w.moveToChild_child h (by omega) (List.getElem?_eq_getElem (by omega))
  | succ n ih =>
    intro c hc
    rw [← ih (c + 1) (by omega)]
    refine whileM_true (by simp [h.deref, (hasChild_iff e).2 hl]) ?_
    exact w.moveToChild_succ h (by omega)

theorem descendFirst_eq (e : Entry V) : ∀ (up : List Nat) (i : Nat) (es : List (Entry V)) (z : Iter), At f up i e →
    descendFirst f ⟨up, i, 0⟩ = some ((postPos up i (e :: es)).headD z) := by
  induction e using Entry.ind with
  | h e ih =>
    intro up i es z h
    have hd := w.depth _ _ _ h
    rw [postPos_cons]
    by_cases hl : e.children = []
    · have : descendFirst f ⟨up, i, 0⟩ = some ⟨up, i, 0⟩ := by
        refine whileM_false ?_
        simp [h.deref, Entry.hasChild, hl]
      rw [this]
      simp [hl, postPos, countersDown]
    · obtain ⟨c, cs, hcs⟩ := List.exists_cons_of_ne_nil hl
      rw [descendFirst_node w h hl (e.depth - 1) 0 (by omega),
        ih c (by simp [hcs]) (i :: up) 0 cs
          ((countersDown up i (if e.children.isEmpty then 1 else e.depth) ++ postPos up (i + 1) es).headD z) (h.child (by simp [hcs])), hcs]
      cases postPos (i :: up) 0 (c :: cs) <;> simp

theorem nextPost_succ {up : List Nat} {i c : Nat} {e : Entry V} (h : At f up i e) :
    moveToNextPostOrder f ⟨up, i, c + 1⟩ = some ⟨up, i, c⟩ := by
  simp [moveToNextPostOrder, h.deref, moveToParent_succ w h]

theorem nextPost_sibling {up : List Nat} {i : Nat} {e e' : Entry V} {es : List (Entry V)} (z : Iter) (h : At f up i e)
    (h' : At f up (i + 1) e') :
    moveToNextPostOrder f ⟨up, i, 0⟩ = some ((postPos up (i + 1) (e' :: es)).headD z) := by
  have := h'.lt
  have hne : ¬ (i + 1 = (sibs f up).length) := by omega
  simp [moveToNextPostOrder, h.deref, w.isLast h, hne]
  rw [descendFirst_eq w e' up (i + 1) es z h']
  simp

theorem walk_countersDown {up : List Nat} {i : Nat} {e : Entry V} {z : Iter} (h : At f up i e)
    (hz : moveToNextPostOrder f ⟨up, i, 0⟩ = some z) (n : Nat) :
    Walk (moveToNextPostOrder f) (countersDown up i n) z := by
  induction n with
  | zero => trivial
  | succ n ih =>
    refine ⟨?_, ih⟩
    cases n with
    | zero => simpa [countersDown] using hz
    | succ n => simpa [countersDown] using nextPost_succ w h

theorem walk_postPos {up : List Nat} {i : Nat} {es : List (Entry V)} (t : Tail f up i es) : ∀ (z : Iter),
    (sibs f up ≠ [] → moveToNextPostOrder f ⟨up, (sibs f up).length - 1, 0⟩ = some z) →
    Walk (moveToNextPostOrder f) (postPos up i es) z := by
  induction t using forest_ind with
  | nil => intro z _; simp [postPos, Walk]
  | cons up i e es hAt t t' ih1 ih2 =>
    intro z hz
    have hd := w.depth _ _ _ hAt
    have hlast := ih2 z hz
    have hnext : moveToNextPostOrder f ⟨up, i, 0⟩ = some ((postPos up (i + 1) es).headD z) := by
      cases es with
      | nil =>
        have h1 : (sibs f up).length - 1 = i := by have := t'.nil; omega
        have h2 := hAt.lt
        have := hz (by intro h; rw [h] at h2; simp at h2)
        rw [h1] at this
        simpa [postPos] using this
      | cons e' es => exact nextPost_sibling w z hAt t'.cons.1
    rw [postPos_cons]
    refine Walk.append (ih1 _ fun hne => ?_) (Walk.append (walk_countersDown w hAt hnext _) hlast)
    rw [hAt.sibs] at hne ⊢
    have hpos : 0 < e.children.length := List.length_pos_iff.2 hne
    obtain ⟨c, hc⟩ : ∃ c, At f (i :: up) (e.children.length - 1) c := at_of_lt (by rw [hAt.sibs]; omega)
    have hs : e.children.length - 1 + 1 = (sibs f (i :: up)).length := by rw [hAt.sibs]; omega
    simp only [moveToNextPostOrder, hc.deref, Option.bind_eq_bind, Option.bind_some, w.isLast hc, hs,
      w.isRoot_false hc, w.moveToParent_zero hc hAt, decide_true]
    have he : e.children.isEmpty = false := by simpa using hne
    simp only [he]
    cases hh : e.depth with
    | zero => omega
    | succ k => simp [countersDown]

theorem finish_post (hne : f ≠ []) (level : Nat) : finish .postOrder level f = some ⟨[], f.length, 0⟩ ∧
    moveToNextPostOrder f ⟨[], f.length - 1, 0⟩ = some ⟨[], f.length, 0⟩ := by
  have hpos : 0 < f.length := List.length_pos_iff.2 hne
  obtain ⟨r, hr⟩ : ∃ r, At f [] (f.length - 1) r := at_of_lt (by simp [sibs]; omega)
  have hr' : f[f.length - 1]? = some r := hr
  have hs : f.length - 1 + 1 = (sibs f []).length := by simp [sibs]; omega
  have hn : moveToNextPostOrder f ⟨[], f.length - 1, 0⟩ = some ⟨[], f.length, 0⟩ := by
    simp [moveToNextPostOrder, hr.deref, w.isLast hr, hs, w.isRoot_true hr]
    simp [sibs]
  refine ⟨?_, hn⟩
  have hf : f.isEmpty = false := by simpa using hne
  have := incr_post hn
  simp [finish, hf, rootIterator, hr', w.sib _ _ _ hr, this]

theorem post_walk (hne : f ≠ []) : Walk (moveToNextPostOrder f) (postPos [] 0 f) ⟨[], f.length, 0⟩ :=
  walk_postPos w (Tail.start f []) _ fun _ => (finish_post w hne 0).2

theorem begin_post (hne : f ≠ []) (level : Nat) (z : Iter) :
    begin .postOrder level f = some ((postPos [] 0 f).headD z) := by
  obtain ⟨e, es, rfl⟩ := List.exists_cons_of_ne_nil hne
  have h : At (e :: es) [] 0 e := rfl
  simp [begin, rootIterator, w.sib _ _ _ h]
  rw [descendFirst_eq w e [] 0 es z h]
  simp

theorem iterate_post (hne : f ≠ []) (level : Nat) : iterate .postOrder level f = some (postorder f) := by
  have hp : past f ⟨[], f.length, 0⟩ = true := by simp [past, sibs]
  have hS := shows_postPos (Tail.start f [])
  have := loop_eq (b := ⟨[], f.length, 0⟩) _ _ _ ((post_walk w hne).mono fun a z => incr_post) hS
    (fun a ha => by obtain ⟨e, he⟩ := hS.mem ha; exact same_past (past_false_of_deref he) hp)
    (same_past' hp hp)
  simp only [iterate, (finish_post w hne level).1, begin_post w hne level ⟨[], f.length, 0⟩, Option.bind_eq_bind, Option.bind_some]
  exact this

/-! ### Backwards -/

/-- Climbing along first children. -/
theorem climbFirst_stop {up : List Nat} {i c : Nat} {e : Entry V} (h : At f up (i + 1) e) :
    whileM (fun it => (deref f it).map isFirst) (moveToParent f) ⟨up, i + 1, c⟩ = some ⟨up, i + 1, c⟩ := by
  refine whileM_false ?_
  simp [h.deref, w.isFirst h]

theorem climbFirst_up {up : List Nat} {j : Nat} {e p : Entry V} (h : At f (j :: up) 0 e) (hp : At f up j p) (c : Nat) :
    whileM (fun it => (deref f it).map isFirst) (moveToParent f) ⟨j :: up, 0, c⟩ =
    whileM (fun it => (deref f it).map isFirst) (moveToParent f) ⟨up, j, p.depth - 1⟩ := by
  induction c with
  | zero => exact whileM_true (by simp [h.deref, w.isFirst h]) (w.moveToParent_zero h hp)
  | succ c ih =>
    rw [← ih]
    exact whileM_true (by simp [h.deref, w.isFirst h]) (moveToParent_succ w h)

/-- The same loop, which also stops at a root. -/
theorem climbFirstRoot_stop {up : List Nat} {i c : Nat} {e : Entry V} (h : At f up i e) (hs : i ≠ 0 ∨ up = []) :
    whileM (fun it => (deref f it).map fun e => !e.isRoot && isFirst e) (moveToParent f) ⟨up, i, c⟩ = some ⟨up, i, c⟩ := by
  refine whileM_false ?_
  simp [h.deref, w.isFirst h]
  intro hr
  rcases hs with hs | rfl
  · exact hs
  · rw [w.isRoot_true h] at hr; simp at hr

theorem climbFirstRoot_up {up : List Nat} {j : Nat} {e p : Entry V} (h : At f (j :: up) 0 e) (hp : At f up j p) (c : Nat) :
    whileM (fun it => (deref f it).map fun e => !e.isRoot && isFirst e) (moveToParent f) ⟨j :: up, 0, c⟩ =
    whileM (fun it => (deref f it).map fun e => !e.isRoot && isFirst e) (moveToParent f) ⟨up, j, p.depth - 1⟩ := by
  induction c with
  | zero => exact whileM_true (by simp [h.deref, w.isFirst h, w.isRoot_false h]) (w.moveToParent_zero h hp)
  | succ c ih =>
    rw [← ih]
    exact whileM_true (by simp [h.deref, w.isFirst h, w.isRoot_false h]) (moveToParent_succ w h)

end

/-- The tree before the tree at `(up, i)`: the sibling before it or before the nearest ancestor that has
one. -/
def prevTree : List Nat → Nat → Option (List Nat × Nat)
  | up, i + 1 => some (up, i)
  | j :: up, 0 => prevTree up j
  | [], 0 => none

section
variable {f : List (Entry V)} (w : Wf f)
include w

theorem prevTree_at {up : List Nat} {i : Nat} {e : Entry V} (h : At f up i e) {up' : List Nat} {i' : Nat}
    (hp : prevTree up i = some (up', i')) : ∃ a b, At f up' i' a ∧ At f up' (i' + 1) b := by
  induction up generalizing i e with
  | nil =>
    cases i with
    | zero => simp [prevTree] at hp
    | succ i =>
      simp [prevTree] at hp
      obtain ⟨rfl, rfl⟩ := hp
      have := h.lt
      obtain ⟨a, ha⟩ := at_of_lt (f := f) (up := []) (i := i) (by omega)
      exact ⟨a, e, ha, h⟩
  | cons j up ih =>
    cases i with
    | zero =>
      simp [prevTree] at hp
      obtain ⟨p, hpp, -⟩ := h.parent
      exact ih hpp hp
    | succ i =>
      simp [prevTree] at hp
      obtain ⟨rfl, rfl⟩ := hp
      have := h.lt
      obtain ⟨a, ha⟩ := at_of_lt (f := f) (up := j :: up) (i := i) (by omega)
      exact ⟨a, e, ha, h⟩

/-- Climbing from the first child ends next to the tree before. The counter is the old one or the last of
an ancestor. -/
theorem climbFirst_eq {up : List Nat} {i : Nat} {e : Entry V} (h : At f up i e) {up' : List Nat} {i' : Nat}
    (hp : prevTree up i = some (up', i')) (c : Nat) : ∃ c',
    whileM (fun it => (deref f it).map isFirst) (moveToParent f) ⟨up, i, c⟩ = some ⟨up', i' + 1, c'⟩ ∧
    ((0 < i ∧ up' = up ∧ i = i' + 1 ∧ c' = c) ∨ (i = 0 ∧ ∃ a, At f up' (i' + 1) a ∧ c' = a.depth - 1 ∧ a.level + a.depth ≤ e.level)) := by
  induction up generalizing i e c with
  | nil =>
    cases i with
    | zero => simp [prevTree] at hp
    | succ i =>
      simp [prevTree] at hp
      obtain ⟨rfl, rfl⟩ := hp
      exact ⟨c, climbFirst_stop w h, Or.inl ⟨by omega, rfl, rfl, rfl⟩⟩
  | cons j up ih =>
    cases i with
    | zero =>
      simp [prevTree] at hp
      obtain ⟨p, hpp, hc⟩ := h.parent
      have hl := w.child _ _ _ hpp e (List.mem_of_getElem? hc)
      have hd := w.depth _ _ _ hpp
      obtain ⟨c', h1, h2⟩ := ih hpp hp (p.depth - 1)
      refine ⟨c', by rw [climbFirst_up w h hpp, h1], Or.inr ⟨rfl, ?_⟩⟩
      rcases h2 with ⟨h2, rfl, rfl, rfl⟩ | ⟨_, a, h3, h4, h5⟩
      · exact ⟨p, hpp, rfl, by omega⟩
      · exact ⟨a, h3, h4, by omega⟩
    | succ i =>
      simp [prevTree] at hp
      obtain ⟨rfl, rfl⟩ := hp
      exact ⟨c, climbFirst_stop w h, Or.inl ⟨by omega, rfl, rfl, rfl⟩⟩

theorem climbFirstRoot_eq {up : List Nat} {i : Nat} {e : Entry V} (h : At f up i e) {up' : List Nat} {i' : Nat}
    (hp : prevTree up i = some (up', i')) (c : Nat) : ∃ c',
    whileM (fun it => (deref f it).map fun e => !e.isRoot && isFirst e) (moveToParent f) ⟨up, i, c⟩ = some ⟨up', i' + 1, c'⟩ ∧
    ((0 < i ∧ up' = up ∧ i = i' + 1 ∧ c' = c) ∨ (i = 0 ∧ ∃ a, At f up' (i' + 1) a ∧ c' = a.depth - 1)) := by
  induction up generalizing i e c with
  | nil =>
    cases i with
    | zero => simp [prevTree] at hp
    | succ i =>
      simp [prevTree] at hp
      obtain ⟨rfl, rfl⟩ := hp
      exact ⟨c, climbFirstRoot_stop w h (Or.inl (by omega)), Or.inl ⟨by omega, rfl, rfl, rfl⟩⟩
  | cons j up ih =>
    cases i with
    | zero =>
      simp [prevTree] at hp
      obtain ⟨p, hpp, hc⟩ := h.parent
      obtain ⟨c', h1, h2⟩ := ih hpp hp (p.depth - 1)
      refine ⟨c', by rw [climbFirstRoot_up w h hpp, h1], Or.inr ⟨rfl, ?_⟩⟩
      rcases h2 with ⟨h2, rfl, rfl, rfl⟩ | ⟨_, a, h3, h4⟩
      · exact ⟨p, hpp, rfl⟩
      · exact ⟨a, h3, h4⟩
    | succ i =>
      simp [prevTree] at hp
      obtain ⟨rfl, rfl⟩ := hp
      exact ⟨c, climbFirstRoot_stop w h (Or.inl (by omega)), Or.inl ⟨by omega, rfl, rfl, rfl⟩⟩

theorem climbFirstRoot_none {up : List Nat} {i : Nat} {e : Entry V} (h : At f up i e)
    (hp : prevTree up i = none) (c : Nat) : ∃ c' r,
    whileM (fun it => (deref f it).map fun e => !e.isRoot && isFirst e) (moveToParent f) ⟨up, i, c⟩ = some ⟨[], 0, c'⟩ ∧
    At f [] 0 r := by
  induction up generalizing i e c with
  | nil =>
    cases i with
    | zero => exact ⟨c, e, climbFirstRoot_stop w h (Or.inr rfl), h⟩
    | succ i => simp [prevTree] at hp
  | cons j up ih =>
    cases i with
    | zero =>
      simp [prevTree] at hp
      obtain ⟨p, hpp, hc⟩ := h.parent
      obtain ⟨c', r, h1, h2⟩ := ih hpp hp (p.depth - 1)
      exact ⟨c', r, by rw [climbFirstRoot_up w h hpp, h1], h2⟩
    | succ i => simp [prevTree] at hp

theorem hasPrevious_leaf {up : List Nat} {i c : Nat} {e : Entry V} (h : At f up i e) (hl : e.children = [])
    (hc : e.depth ≤ c + 1) : hasPreviousPostOrder f ⟨up, i, c⟩ = some (prevTree up i).isSome := by
  have hci : canIncrease ⟨up, i, c⟩ e = false := by simp [canIncrease]; omega
  simp only [hasPreviousPostOrder, h.past, h.deref, Option.bind_eq_bind, Option.bind_some, hci, (hasChild_false e).2 hl]
  cases i with
  | succ i => simp [w.isFirst h, prevTree]
  | zero =>
    simp only [w.isFirst h]
    cases hp : prevTree up 0 with
    | none =>
      obtain ⟨c', r, h1, h2⟩ := climbFirstRoot_none w h hp c
      simp [h1, h2.deref, w.isFirst h2]
    | some q =>
      obtain ⟨up', i'⟩ := q
      obtain ⟨c', h1, h2⟩ := climbFirstRoot_eq w h hp c
      obtain ⟨a, b, ha, hb⟩ := prevTree_at w h hp
      simp [h1, hb.deref, w.isFirst hb]

/-- One step back in post-order from the end of a leaf. -/
theorem prevPost_leaf {up : List Nat} {i c : Nat} {e : Entry V} (h : At f up i e) (hl : e.children = [])
    (hc : e.depth ≤ c + 1) {up' : List Nat} {i' : Nat} (hp : prevTree up i = some (up', i')) :
    ∃ c', moveToPreviousPostOrder f ⟨up, i, c⟩ = some ⟨up', i', c'⟩ ∧
      ((0 < i ∧ up' = up ∧ i = i' + 1 ∧ c' = c) ∨ (i = 0 ∧ ∃ a, At f up' (i' + 1) a ∧ c' = a.depth - 1 ∧ a.level + a.depth ≤ e.level)) := by
  obtain ⟨c', h1, h2⟩ := climbFirst_eq w h hp c
  refine ⟨c', ?_, h2⟩
  have hci : canIncrease ⟨up, i, c⟩ e = false := by simp [canIncrease]; omega
  simp [moveToPreviousPostOrder, hasPrevious_leaf w h hl hc, hp, h.past, h.deref, hci, (hasChild_false e).2 hl, h1, dec]

theorem hasPrevious_node {up : List Nat} {i c : Nat} {e : Entry V} (h : At f up i e) (hl : e.children ≠ [] ∨ c + 1 < e.depth) :
    hasPreviousPostOrder f ⟨up, i, c⟩ = some true := by
  simp only [hasPreviousPostOrder, h.past, h.deref, Option.bind_eq_bind, Option.bind_some]
  rcases hl with hl | hl
  · simp [(hasChild_iff e).2 hl]
  · have : c < e.depth - 1 := by omega
    simp [canIncrease, this]

/-- Post-order backwards, if no entry lives on more than one level. -/
theorem back_postPos (thin : Thin f) {up : List Nat} {i : Nat} {es : List (Entry V)} (t : Tail f up i es) : ∀ (z : Iter),
    moveToPreviousPostOrder f z = some ⟨up, (sibs f up).length - 1, 0⟩ →
    WalkBack (moveToPreviousPostOrder f) (postPos up i es) z ∧
    (es ≠ [] → ∀ up' i', prevTree up i = some (up', i') → ∀ y,
      moveToPreviousPostOrder f ((postPos up i es).headD y) = some ⟨up', i', 0⟩) := by
  induction t using forest_ind with
  | nil => intro z _; simp [postPos, WalkBack]
  | cons up i e es hAt t t' ih1 ih2 =>
    intro z hz
    have hd := thin _ _ _ hAt
    obtain ⟨hlast, hnext'⟩ := ih2 z hz
    have hnext : moveToPreviousPostOrder f ((postPos up (i + 1) es).headD z) = some ⟨up, i, 0⟩ := by
      cases es with
      | nil =>
        have h1 : (sibs f up).length - 1 = i := by have := t'.nil; omega
        rw [h1] at hz
        simpa [postPos] using hz
      | cons e' es => exact hnext' (by simp) up i (by simp [prevTree]) z
    rw [postPos_cons, hd]
    have hmid : WalkBack (moveToPreviousPostOrder f) (countersDown up i 1 ++ postPos up (i + 1) es) z := by
      refine WalkBack.append ?_ hlast
      exact ⟨by simpa [countersDown] using hnext, trivial⟩
    simp only [ite_self]
    by_cases hl : e.children = []
    · rw [hl]
      refine ⟨by simpa [postPos] using hmid, ?_⟩
      intro _ up' i' hp y
      simp only [postPos, List.nil_append, countersDown, List.cons_append, List.headD_cons]
      obtain ⟨c', h1, h2⟩ := prevPost_leaf w hAt hl (c := 0) (by omega) hp
      rw [h1]
      rcases h2 with ⟨_, _, _, rfl⟩ | ⟨_, a, ha, rfl, _⟩
      · rfl
      · rw [thin _ _ _ ha]
    · have hpos : 0 < e.children.length := List.length_pos_iff.2 hl
      obtain ⟨hch, hch'⟩ := ih1 ⟨up, i, 0⟩ (by
        rw [hAt.sibs]
        simp only [moveToPreviousPostOrder, hasPrevious_node w hAt (Or.inl hl), hAt.past, hAt.deref, Option.bind_eq_bind, Option.bind_some, (hasChild_iff e).2 hl]
        simp
        exact w.moveToChild_child hAt (by omega) (List.getElem?_eq_getElem (by omega)))
      refine ⟨WalkBack.append (by simpa [countersDown] using hch) hmid, ?_⟩
      intro _ up' i' hp y
      have := hch' hl up' i' (by simpa [prevTree] using hp)
        ((countersDown up i 1 ++ postPos up (i + 1) es).headD y)
      rw [← this]
      congr 1
      cases postPos (i :: up) 0 e.children <;> simp

theorem postPos_noroot {up : List Nat} {i : Nat} {es : List (Entry V)} (t : Tail f up i es) :
    (es = [] → postPos up i es = []) ∧ (es ≠ [] → postPos up i es ≠ []) := by
  induction t using forest_ind with
  | nil => simp [postPos]
  | cons up i e es hAt t t' ih1 ih2 =>
    have := w.depth _ _ _ hAt
    refine ⟨by simp, fun _ => ?_⟩
    rw [postPos_cons]
    cases he : e.children.isEmpty <;> simp [countersDown]
    intro _ h
    cases hh : e.depth <;> simp [hh, countersDown] at h
    omega

theorem postPos_nodup_aux (thin : Thin f) {up : List Nat} {i : Nat} {es : List (Entry V)} (t : Tail f up i es) :
    (postPos up i es).Nodup ∧ (∀ a ∈ postPos up i es, ∃ pre k, i ≤ k ∧ (pre ++ [k]) ++ up = a.idx :: a.up) ∧
    (∀ a ∈ postPos up i es, a.counter = 0) := by
  induction t using forest_ind with
  | nil => simp [postPos]
  | cons up i e es hAt t t' ih1 ih2 =>
    have hd := thin _ _ _ hAt
    rw [postPos_cons, hd]
    simp only [ite_self, countersDown, List.cons_append, List.nil_append]
    obtain ⟨a1, a2, a3⟩ := ih1
    obtain ⟨b1, b2, b3⟩ := ih2
    refine ⟨?_, ?_, ?_⟩
    · rw [List.nodup_append]
      refine ⟨a1, ?_, ?_⟩
      · rw [List.nodup_cons]
        refine ⟨?_, b1⟩
        intro h
        obtain ⟨pre, k, hk, h2⟩ := b2 _ h
        have h2' : pre ++ [k] ++ up = [i] ++ up := h2
        have h3 := List.append_cancel_right h2'
        cases pre with
        | nil => simp at h3; omega
        | cons x pre => simp at h3
      · intro a ha b hb hab
        subst hab
        obtain ⟨pre, k, hk, h2⟩ := a2 _ ha
        rw [List.mem_cons] at hb
        rcases hb with rfl | hb
        · have := congrArg List.length h2
          simp at this; omega
        · obtain ⟨pre', k', hk', h2'⟩ := b2 _ hb
          rw [← h2'] at h2
          have h3 : (pre ++ [k] ++ [i]) ++ up = (pre' ++ [k']) ++ up := by simpa using h2
          have h4 := List.append_cancel_right h3
          have := List.append_inj' h4 rfl
          simp at this
          omega
    · intro a ha
      rw [List.mem_append, List.mem_cons] at ha
      rcases ha with ha | rfl | ha
      · obtain ⟨pre, k, hk, h2⟩ := a2 _ ha
        exact ⟨pre ++ [k], i, Nat.le_refl _, by rw [← h2]; simp⟩
      · exact ⟨[], i, Nat.le_refl _, rfl⟩
      · obtain ⟨pre, k, hk, h2⟩ := b2 _ ha
        exact ⟨pre, k, by omega, h2⟩
    · intro a ha
      rw [List.mem_append, List.mem_cons] at ha
      rcases ha with ha | rfl | ha
      · exact a3 _ ha
      · rfl
      · exact b3 _ ha

theorem iterateReverse_post (hne : f ≠ []) (thin : Thin f) (level : Nat) :
    iterateReverse .postOrder level f = some (postorder f).reverse := by
  have hpos : 0 < f.length := List.length_pos_iff.2 hne
  have hp : past f ⟨[], f.length, 0⟩ = true := by simp [past, sibs]
  have hS := shows_postPos (Tail.start f [])
  have hback : WalkBack (decr .postOrder f) (postPos [] 0 f) ⟨[], f.length, 0⟩ := by
    refine (back_postPos w thin (Tail.start f []) _ ?_).1
    have : ¬ (f.length = 0) := by omega
    simp [moveToPreviousPostOrder, hasPreviousPostOrder, hp, dec, this, sibs]
  have hnl : postPos [] 0 f ≠ [] := (postPos_noroot w (Tail.start f [])).2 hne
  obtain ⟨a, l, hl⟩ := List.exists_cons_of_ne_nil hnl
  obtain ⟨hnd, -, hc0⟩ := postPos_nodup_aux w thin (Tail.start f [])
  have hb : begin .postOrder level f = some a := by
    rw [begin_post w hne level ⟨[], 0, 0⟩, hl]; rfl
  have ha : past f a = false := by
    obtain ⟨e, he⟩ := hS.mem (a := a) (by change a ∈ postPos [] 0 f; rw [hl]; simp)
    exact past_false_of_deref he
  change (postPos [] 0 f).Nodup at hnd
  change ∀ a ∈ postPos [] 0 f, _ at hc0
  have := reverseLoop_eq (a := a) _ _ _ _ rfl hback hS ?_ ?_ ?_
  · simp only [iterateReverse, (finish_post w hne level).1, hb, Option.bind_eq_bind, Option.bind_some]
    exact this
  · intro x hx
    change x ∈ (postPos [] 0 f).tail at hx
    rw [hl] at hx hnd hc0
    simp at hx
    have hxe : past f x = false := by
      obtain ⟨e, he⟩ := hS.mem (a := x) (by change x ∈ postPos [] 0 f; rw [hl]; simp [hx])
      exact past_false_of_deref he
    have hne' : x ≠ a := by rintro rfl; exact (List.nodup_cons.1 hnd).1 hx
    simp [same, hxe, ha]
    intro h1 h2
    exact hne' (by
      have e1 := hc0 x (by simp [hx])
      have e2 := hc0 a (by simp)
      cases x; cases a; simp_all)
  · intro _
    simp [same, hp, ha]
  · change same f ((postPos [] 0 f).headD _) a = true
    rw [hl]
    exact same_self w _

end
end Verif.LevelTree
