import Verif.LevelTree.LemmasPost
set_option linter.all false
namespace Verif.LevelTree
variable {V : Type}

/-- The positions on a level of the trees at positions `i`, `i+1`, … of a vector. -/
def posLevel (level : Nat) (up : List Nat) (i : Nat) : List (Entry V) → List Iter
  | [] => []
  | .mk _ l dp _ cs :: es =>
    (if l ≤ level ∧ level < l + dp then [⟨up, i, level - l⟩] else []) ++
      (posLevel level (i :: up) 0 cs ++ posLevel level up (i + 1) es)

theorem posLevel_cons (level : Nat) (up : List Nat) (i : Nat) (e : Entry V) (es : List (Entry V)) :
    posLevel level up i (e :: es) =
      (if e.level ≤ level ∧ level < e.level + e.depth then [⟨up, i, level - e.level⟩] else []) ++
      (posLevel level (i :: up) 0 e.children ++ posLevel level up (i + 1) es) := by
  cases e; rw [posLevel]; rfl

theorem onLevel_cons (level : Nat) (e : Entry V) (es : List (Entry V)) :
    onLevel level (e :: es) =
      (if e.level ≤ level ∧ level < e.level + e.depth then [e.data] else []) ++
      (onLevel level e.children ++ onLevel level es) := by
  cases e; rw [onLevel, Entry.onLevel, List.append_assoc]; rfl

theorem posLevel_append (level : Nat) (up : List Nat) (i : Nat) (a b : List (Entry V)) :
    posLevel level up i (a ++ b) = posLevel level up i a ++ posLevel level up (i + a.length) b := by
  induction a generalizing i with
  | nil => simp [posLevel]
  | cons e a ih =>
    rw [List.cons_append, posLevel_cons, posLevel_cons, ih]
    simp [Nat.add_assoc, Nat.add_comm]

theorem shows_posLevel {f : List (Entry V)} {level : Nat} {up : List Nat} {i : Nat} {es : List (Entry V)} (t : Tail f up i es) :
    Shows f (posLevel level up i es) (onLevel level es) := by
  induction t using forest_ind with
  | nil => simp [Shows, posLevel, onLevel]
  | cons up i e es hAt t t' ih1 ih2 =>
    rw [posLevel_cons, onLevel_cons]
    refine Shows.append ?_ (ih1.append ih2)
    split <;> simp [Shows, hAt.deref]

/-- Positions of a level list are on that level. -/
theorem posLevel_at {f : List (Entry V)} {level : Nat} {up : List Nat} {i : Nat} {es : List (Entry V)} (t : Tail f up i es) :
    ∀ a ∈ posLevel level up i es, ∃ e, At f a.up a.idx e ∧ e.level + a.counter = level ∧ a.counter < e.depth := by
  induction t using forest_ind with
  | nil => simp [posLevel]
  | cons up i e es hAt t t' ih1 ih2 =>
    intro a ha
    rw [posLevel_cons] at ha
    simp only [List.mem_append] at ha
    rcases ha with ha | ha | ha
    · split at ha
      · simp at ha; subst ha
        exact ⟨e, hAt, by simp; omega, by simp; omega⟩
      · simp at ha
    · exact ih1 a ha
    · exact ih2 a ha

/-- Distinct positions of a level list are at distinct entries. -/
theorem posLevel_keys {f : List (Entry V)} {level : Nat} {up : List Nat} {i : Nat} {es : List (Entry V)} (t : Tail f up i es) :
    ((posLevel level up i es).map fun a => a.idx :: a.up).Nodup ∧
    (∀ a ∈ posLevel level up i es, ∃ pre k, i ≤ k ∧ (pre ++ [k]) ++ up = a.idx :: a.up) := by
  induction t using forest_ind with
  | nil => simp [posLevel]
  | cons up i e es hAt t t' ih1 ih2 =>
    rw [posLevel_cons]
    obtain ⟨a1, a2⟩ := ih1
    obtain ⟨b1, b2⟩ := ih2
    have hab : ∀ a ∈ posLevel level (i :: up) 0 e.children, ∀ b ∈ posLevel level up (i + 1) es,
        a.idx :: a.up ≠ b.idx :: b.up := by
      intro a ha b hb hab
      obtain ⟨pre, k, hk, h2⟩ := a2 _ ha
      obtain ⟨pre', k', hk', h2'⟩ := b2 _ hb
      rw [hab, ← h2'] at h2
      have h3 : (pre ++ [k] ++ [i]) ++ up = (pre' ++ [k']) ++ up := by simpa using h2
      have h4 := List.append_cancel_right h3
      have := List.append_inj' h4 rfl
      simp at this
      omega
    have hA : ∀ a ∈ posLevel level (i :: up) 0 e.children, i :: up ≠ a.idx :: a.up := by
      intro a ha h
      obtain ⟨pre, k, hk, h2⟩ := a2 _ ha
      have := congrArg List.length (h2.trans h.symm)
      simp at this; omega
    have hB : ∀ b ∈ posLevel level up (i + 1) es, i :: up ≠ b.idx :: b.up := by
      intro b hb h
      obtain ⟨pre, k, hk, h2⟩ := b2 _ hb
      rw [← h] at h2
      have h2' : pre ++ [k] ++ up = [i] ++ up := h2
      have h3 := List.append_cancel_right h2'
      cases pre with
      | nil => simp at h3; omega
      | cons x pre => simp at h3
    have hcat : ((posLevel level (i :: up) 0 e.children ++ posLevel level up (i + 1) es).map fun a => a.idx :: a.up).Nodup := by
      rw [List.map_append, List.nodup_append]
      refine ⟨a1, b1, ?_⟩
      intro x hx y hy
      obtain ⟨a, ha, rfl⟩ := List.mem_map.1 hx
      obtain ⟨b, hb, rfl⟩ := List.mem_map.1 hy
      exact hab a ha b hb
    constructor
    · split
      · rw [List.singleton_append, List.map_cons, List.nodup_cons]
        refine ⟨?_, hcat⟩
        intro h
        obtain ⟨a, ha, h1⟩ := List.mem_map.1 h
        rw [List.mem_append] at ha
        rcases ha with ha | ha
        · exact hA a ha h1.symm
        · exact hB a ha h1.symm
      · simpa using hcat
    · intro a ha
      simp only [List.mem_append] at ha
      rcases ha with ha | ha | ha
      · split at ha
        · simp at ha; subst ha; exact ⟨[], i, Nat.le_refl _, rfl⟩
        · simp at ha
      · obtain ⟨pre, k, hk, h2⟩ := a2 _ ha
        exact ⟨pre ++ [k], i, Nat.le_refl _, by rw [← h2]; simp⟩
      · obtain ⟨pre, k, hk, h2⟩ := b2 _ ha
        exact ⟨pre, k, by omega, h2⟩

theorem moveDown_stop {f : List (Entry V)} {level : Nat} {a : Iter} {e : Entry V} (h : deref f a = some e)
    (hl : level ≤ e.level + a.counter) : moveDownToLevelBegin f level a = some a := by
  refine whileM_false ?_
  simp [past_false_of_deref h, levelOf, h]; omega

theorem moveDown_past {f : List (Entry V)} {level : Nat} {a : Iter} (h : past f a = true) :
    moveDownToLevelBegin f level a = some a := by
  refine whileM_false ?_
  simp [h]

theorem moveDown_step {f : List (Entry V)} {level : Nat} {a b : Iter} {e : Entry V} (h : deref f a = some e)
    (hl : e.level + a.counter < level) (hb : moveToNextPreOrder f a = some b) :
    moveDownToLevelBegin f level a = moveDownToLevelBegin f level b := by
  refine whileM_true ?_ hb
  simp [past_false_of_deref h, levelOf, h, hl]

theorem moveDown_walk {f : List (Entry V)} {level : Nat} : ∀ {l : List Iter} {z : Iter}, Walk (moveToNextPreOrder f) l z →
    (∀ a ∈ l, ∃ e, deref f a = some e ∧ e.level + a.counter < level) →
    moveDownToLevelBegin f level (l.headD z) = moveDownToLevelBegin f level z
  | [], z, _, _ => rfl
  | a :: l, z, hw, h => by
    obtain ⟨e, he, hlt⟩ := h a (by simp)
    rw [List.headD_cons, moveDown_step he hlt hw.1]
    exact moveDown_walk hw.2 fun x hx => h x (by simp [hx])

theorem mem_counters {up : List Nat} {i : Nat} {a : Iter} : ∀ {c n : Nat}, a ∈ counters up i c n →
    a.up = up ∧ a.idx = i ∧ a.counter < c + n
  | c, 0, h => by simp [counters] at h
  | c, n + 1, h => by
    rw [counters, List.mem_cons] at h
    rcases h with rfl | h
    · exact ⟨rfl, rfl, by simp⟩
    · obtain ⟨h1, h2, h3⟩ := mem_counters h
      exact ⟨h1, h2, by omega⟩

section
variable {f : List (Entry V)} (w : Wf f)
include w

/-- The siblings from `i` on start on the level of the first of them. -/
theorem level_tail {up : List Nat} {i : Nat} {e : Entry V} {es : List (Entry V)} (t : Tail f up i (e :: es)) :
    ∀ e' ∈ es, e'.level = e.level := by
  intro e' he'
  obtain ⟨hAt, t'⟩ := t.cons
  obtain ⟨k, hk⟩ := List.mem_iff_getElem?.1 he'
  have hAt' : At f up (i + 1 + k) e' := by
    have := t'.2
    unfold At
    rw [← hk, ← this]; simp
  cases up with
  | nil => rw [w.root _ _ hAt, w.root _ _ hAt']
  | cons j up =>
    obtain ⟨p, hp, hc⟩ := hAt.parent
    obtain ⟨p', hp', hc'⟩ := hAt'.parent
    cases hp.inj hp'
    rw [w.child _ _ _ hp _ (List.mem_of_getElem? hc), w.child _ _ _ hp _ (List.mem_of_getElem? hc')]

theorem level_at {up : List Nat} {i i' : Nat} {e e' : Entry V} (hAt : At f up i e) (hAt' : At f up i' e') :
    e'.level = e.level := by
  cases up with
  | nil => rw [w.root _ _ hAt, w.root _ _ hAt']
  | cons j up =>
    obtain ⟨p, hp, hc⟩ := hAt.parent
    obtain ⟨p', hp', hc'⟩ := hAt'.parent
    cases hp.inj hp'
    rw [w.child _ _ _ hp _ (List.mem_of_getElem? hc), w.child _ _ _ hp _ (List.mem_of_getElem? hc')]

/-- Nothing lives on a level above its own. -/
theorem posLevel_above {level : Nat} {up : List Nat} {i : Nat} {es : List (Entry V)} (t : Tail f up i es)
    : (∀ e ∈ es, level < e.level) → posLevel level up i es = [] := by
  induction t using forest_ind with
  | nil => simp [posLevel]
  | cons up i e es hAt t t' ih1 ih2 =>
    intro h
    have h1 := h e (by simp)
    have hd := w.depth _ _ _ hAt
    rw [posLevel_cons, if_neg (by omega), ih1 ?_, ih2 (fun e' he' => h e' (by simp [he']))]
    · rfl
    · intro c hc
      rw [w.child _ _ _ hAt c hc]; omega

/-- The next position of the pre-order after the tree `e`. -/
theorem exit_next {up : List Nat} {i : Nat} {e : Entry V} {es : List (Entry V)} {z : Iter} (hAt : At f up i e)
    (t' : Tail f up (i + 1) es)
    (hz : ∀ e, At f up ((sibs f up).length - 1) e →
      nextPreOrderUp f ⟨up, (sibs f up).length - 1, e.depth - 1⟩ = some z) :
    nextPreOrderUp f ⟨up, i, e.depth - 1⟩ = some ((prePos up (i + 1) es).headD z) := by
  cases es with
  | nil =>
    have h1 : (sibs f up).length - 1 = i := by have := t'.nil; omega
    have := hz e (by rw [h1]; exact hAt)
    rw [h1] at this
    simpa [prePos] using this
  | cons e' es =>
    obtain ⟨hAt', t''⟩ := t'.cons
    rw [nextUp_sibling w hAt hAt'.lt, prePos_head w hAt']

/-- The exit of the children of `e` is that of `e`. -/
theorem exit_children {up : List Nat} {i : Nat} {e : Entry V} {z : Iter} (hAt : At f up i e)
    (hz : nextPreOrderUp f ⟨up, i, e.depth - 1⟩ = some z) :
    ∀ c, At f (i :: up) ((sibs f (i :: up)).length - 1) c →
      nextPreOrderUp f ⟨i :: up, (sibs f (i :: up)).length - 1, c.depth - 1⟩ = some z := by
  intro c hc
  have := hc.lt
  rw [nextUp_up w hc hAt (by omega), hz]

theorem next_max {up : List Nat} {i : Nat} {e : Entry V} {z : Iter} (hAt : At f up i e)
    (hz : nextPreOrderUp f ⟨up, i, e.depth - 1⟩ = some z) :
    moveToNextPreOrder f ⟨up, i, e.depth - 1⟩ = some ((prePos (i :: up) 0 e.children).headD z) := by
  have h1 : ¬ (e.depth - 1 < e.depth - 1) := by omega
  simp only [moveToNextPreOrder, hAt.deref, Option.bind_eq_bind, Option.bind_some, canIncrease, h1, decide_false, Bool.or_false]
  cases hcs : e.children with
  | nil =>
    rw [if_neg (by simp [Entry.hasChild, hcs]), hz]
    simp [prePos]
  | cons c cs =>
    have hc : At f (i :: up) 0 c := hAt.child (by simp [hcs])
    rw [if_pos (by simp [Entry.hasChild, hcs]), w.moveToChild_child hAt (by omega) (e' := c) (by simp [hcs]),
      prePos_head w hc]

theorem moveDown_counter {level : Nat} {up : List Nat} {i : Nat} {e : Entry V} (hAt : At f up i e)
    (h : level < e.level + e.depth) (n : Nat) : ∀ c, e.level + c + n = level →
    moveDownToLevelBegin f level ⟨up, i, c⟩ = some ⟨up, i, level - e.level⟩ := by
  induction n with
  | zero =>
    intro c hc
    rw [moveDown_stop (hAt.deref c) (by simp; omega)]
    congr 2; omega
  | succ n ih =>
    intro c hc
    have h1 : c < e.depth - 1 := by omega
    rw [← ih (c + 1) (by omega)]
    refine moveDown_step (hAt.deref c) (by simp; omega) ?_
    simp only [moveToNextPreOrder, hAt.deref, Option.bind_eq_bind, Option.bind_some, canIncrease, h1, decide_true, Bool.or_true, if_true]
    exact w.moveToChild_succ hAt (by omega)

/-- `moveDownToLevelBegin` finds the first entry of the level, or goes on after the vector. -/
theorem moveDown_eq {level : Nat} {up : List Nat} {i : Nat} {es : List (Entry V)} (t : Tail f up i es) : ∀ (z : Iter),
    (∀ e ∈ es, e.level ≤ level) →
    (∀ e, At f up ((sibs f up).length - 1) e →
      nextPreOrderUp f ⟨up, (sibs f up).length - 1, e.depth - 1⟩ = some z) →
    moveDownToLevelBegin f level ((prePos up i es).headD z) =
      match posLevel level up i es with | [] => moveDownToLevelBegin f level z | p :: _ => some p := by
  induction t using forest_ind with
  | nil => intro z _ _; simp [prePos, posLevel]
  | cons up i e es hAt t t' ih1 ih2 =>
    intro z hl hz
    have hle := hl e (by simp)
    have hd := w.depth _ _ _ hAt
    have hex := exit_next w hAt t' hz
    rw [posLevel_cons]
    by_cases hin : level < e.level + e.depth
    · rw [if_pos ⟨hle, hin⟩, prePos_head w hAt, moveDown_counter w hAt hin (level - e.level) 0 (by omega)]
      rfl
    · rw [if_neg (by omega), List.nil_append]
      have hwalk := walk_counters w hAt (next_max w hAt hex) _ 0 (Nat.zero_add _)
      have h1 := moveDown_walk (level := level) hwalk (by
        intro a ha
        obtain ⟨h1, h2, h3⟩ := mem_counters ha
        refine ⟨e, ?_, by omega⟩
        cases a; simp at h1 h2; subst h1; subst h2; exact hAt.deref _)
      rw [counters_head (by omega)] at h1
      rw [prePos_head w hAt, h1, ih1 _ ?_ (exit_children w hAt hex)]
      · cases posLevel level (i :: up) 0 e.children with
        | nil => simpa using ih2 z (fun e' he' => hl e' (by simp [he'])) hz
        | cons p l => rfl
      · intro c hc
        rw [w.child _ _ _ hAt c hc]; omega

/-- Where the traversal of a level goes on after the tree at a position. -/
def contL (f : List (Entry V)) (level : Nat) (it : Iter) : Option (Option Iter) := do
  let z ← nextPreOrderUp f it
  let b ← moveDownToLevelBegin f level z
  some (if past f b then none else some b)

theorem climbLast_ends {up : List Nat} {i c : Nat} {e : Entry V} (h : At f up i e) (hc : c < e.depth) :
    ∃ up' i' e' c', climbLast f ⟨up, i, c⟩ = some ⟨up', i', c'⟩ ∧ At f up' i' e' ∧ c' < e'.depth ∧
      (i' + 1 ≠ (sibs f up').length ∨ up' = []) := by
  induction up generalizing i e c with
  | nil => exact ⟨[], i, e, c, climbLast_stop w h (Or.inr rfl), h, hc, Or.inr rfl⟩
  | cons j up ih =>
    by_cases hs : i + 1 = (sibs f (j :: up)).length
    · obtain ⟨p, hp, -⟩ := h.parent
      rw [climbLast_up w h hp hs]
      exact ih hp (by have := w.depth _ _ _ hp; omega)
    · exact ⟨_, i, e, c, climbLast_stop w h (Or.inl hs), h, hc, Or.inl hs⟩

theorem nextOnLevel_eq {up : List Nat} {i c : Nat} {e : Entry V} (h : At f up i e) (hc : c < e.depth) :
    moveToNextOnLevel f ⟨up, i, c⟩ =
      (contL f (e.level + c) ⟨up, i, c⟩).map fun r => r.getD ⟨up, i + 1, c⟩ := by
  obtain ⟨up', i', e', c', h1, h2, h3, h4⟩ := climbLast_ends w h hc
  simp only [moveToNextOnLevel, contL, levelOf, h.deref, Option.map_some, Option.bind_eq_bind, Option.bind_some, h1,
    h2.deref, w.isLast h2]
  by_cases hs : i' + 1 = (sibs f up').length
  · have hup : up' = [] := by rcases h4 with h4 | h4; exact absurd hs h4; exact h4
    subst hup
    have hf : f ≠ [] := by rintro rfl; simp [sibs] at hs
    obtain ⟨up2, i2, e2, L⟩ := lastOf w e' _ _ h2
    have hn : nextPreOrderUp f ⟨up, i, c⟩ = some ⟨up2, i2 + 1, 0⟩ := by
      simp [nextPreOrderUp, h1, h2.deref, w.isLast h2, hs, L.descend c' h3]
    have hp : past f ⟨up2, i2 + 1, 0⟩ = true := by simp [past, L.last hs]
    simp [hs, hn, moveDown_past hp, hp]
  · have hn : nextPreOrderUp f ⟨up, i, c⟩ = some ⟨up', i' + 1, 0⟩ := by
      simp [nextPreOrderUp, h1, h2.deref, w.isLast h2, hs]
    simp only [hs, decide_false, hn, Option.bind_some]
    cases moveDownToLevelBegin f (e.level + c) ⟨up', i' + 1, 0⟩ with
    | none => rfl
    | some b =>
      simp
      split <;> simp

/-- Where the tree at a position ends does not depend on the counter. -/
theorem nextUp_counter {up : List Nat} {i c : Nat} {e : Entry V} {z : Iter} (h : At f up i e)
    (hz : nextPreOrderUp f ⟨up, i, e.depth - 1⟩ = some z) (hc : c < e.depth) :
    nextPreOrderUp f ⟨up, i, c⟩ = some z ∨ (past f z = true ∧ ∃ z', nextPreOrderUp f ⟨up, i, c⟩ = some z' ∧ past f z' = true) := by
  by_cases hs : i + 1 = (sibs f up).length
  · cases up with
    | nil =>
      right
      have hstop : ∀ c, climbLast f ⟨[], i, c⟩ = some ⟨[], i, c⟩ := fun c => climbLast_stop w h (Or.inr rfl)
      obtain ⟨up2, i2, e2, L⟩ := lastOf w e _ _ h
      have hp : past f ⟨up2, i2 + 1, 0⟩ = true := by simp [past, L.last hs]
      have hn : ∀ c < e.depth, nextPreOrderUp f ⟨[], i, c⟩ = some ⟨up2, i2 + 1, 0⟩ := by
        intro c hc
        simp [nextPreOrderUp, hstop, h.deref, w.isLast h, hs, L.descend c hc]
      have hd := w.depth _ _ _ h
      rw [hn _ (by omega)] at hz
      cases hz
      exact ⟨hp, _, hn c hc, hp⟩
    | cons j up =>
      left
      obtain ⟨p, hp, -⟩ := h.parent
      rw [nextUp_up w h hp hs] at hz ⊢
      exact hz
  · left
    have := h.lt
    rw [nextUp_sibling w h (by omega)] at hz ⊢
    exact hz

theorem contL_eq {level : Nat} {up : List Nat} {i c : Nat} {e : Entry V} {z b : Iter} (h : At f up i e)
    (hz : nextPreOrderUp f ⟨up, i, e.depth - 1⟩ = some z) (hb : moveDownToLevelBegin f level z = some b)
    (hc : c < e.depth) : contL f level ⟨up, i, c⟩ = some (if past f b then none else some b) := by
  rcases nextUp_counter w h hz hc with h1 | ⟨h1, z', h2, h3⟩
  · simp [contL, h1, hb]
  · rw [moveDown_past h1] at hb
    cases hb
    simp [contL, h2, moveDown_past h3, h3, h1]

end

/-- The successive positions of a level; `z` is what follows. -/
def WalkO (next : Iter → Option (Option Iter)) : List Iter → Option Iter → Prop
  | [], _ => True
  | a :: l, z => next a = some (l.head?.or z) ∧ WalkO next l z

theorem WalkO.append {next : Iter → Option (Option Iter)} {l l' : List Iter} {z : Option Iter} (h : WalkO next l (l'.head?.or z))
    (h' : WalkO next l' z) : WalkO next (l ++ l') z := by
  induction l with
  | nil => simpa
  | cons a l ih =>
    obtain ⟨h1, h2⟩ := h
    refine ⟨?_, ih h2⟩
    rw [h1]; cases l <;> simp

section
variable {f : List (Entry V)} (w : Wf f)
include w

theorem walk_posLevel {level : Nat} {up : List Nat} {i : Nat} {es : List (Entry V)} (t : Tail f up i es) : ∀ (z b : Iter),
    (∀ e ∈ es, e.level ≤ level) →
    (∀ e, At f up ((sibs f up).length - 1) e →
      nextPreOrderUp f ⟨up, (sibs f up).length - 1, e.depth - 1⟩ = some z) →
    moveDownToLevelBegin f level z = some b →
    WalkO (contL f level) (posLevel level up i es) (if past f b then none else some b) := by
  induction t using forest_ind with
  | nil => intro z b _ _ _; simp [posLevel, WalkO]
  | cons up i e es hAt t t' ih1 ih2 =>
    intro z b hl hz hb
    have hle := hl e (by simp)
    have hd := w.depth _ _ _ hAt
    have hex := exit_next w hAt t' hz
    have hl' : ∀ e' ∈ es, e'.level ≤ level := fun e' he' => hl e' (by simp [he'])
    have hmd := moveDown_eq w t' z hl' hz
    have hlast := ih2 z b hl' hz hb
    -- the first position of the level after this tree
    obtain ⟨b', hb', hb''⟩ : ∃ b', moveDownToLevelBegin f level ((prePos up (i + 1) es).headD z) = some b' ∧
        (if past f b' then none else some b') = (posLevel level up (i + 1) es).head?.or (if past f b then none else some b) := by
      cases hpl : posLevel level up (i + 1) es with
      | nil => rw [hpl] at hmd; exact ⟨b, by rw [hmd]; exact hb, by simp⟩
      | cons p l =>
        rw [hpl] at hmd
        refine ⟨p, hmd, ?_⟩
        obtain ⟨e', he', -⟩ := posLevel_at t' p (by rw [hpl]; simp)
        rw [he'.past p.counter]
        rfl
    rw [posLevel_cons]
    by_cases hin : level < e.level + e.depth
    · rw [if_pos ⟨hle, hin⟩, posLevel_above w hAt.tail ?_, List.nil_append]
      · refine WalkO.append ⟨?_, trivial⟩ hlast
        rw [contL_eq w hAt hex hb' (by omega), hb'']
        rfl
      · intro c hc
        rw [w.child _ _ _ hAt c hc]; omega
    · rw [if_neg (by omega), List.nil_append]
      refine WalkO.append ?_ hlast
      rw [← hb'']
      exact ih1 _ b' (by intro c hc; rw [w.child _ _ _ hAt c hc]; omega) (exit_children w hAt hex) hb'

theorem level_walk (hne : f ≠ []) (level : Nat) : WalkO (contL f level) (posLevel level [] 0 f) none ∧
    ∃ z, past f z = true ∧ moveDownToLevelBegin f level ⟨[], 0, 0⟩ = some ((posLevel level [] 0 f).headD z) ∧
      0 < z.idx ∧ (∃ e, At f z.up (z.idx - 1) e) := by
  obtain ⟨r, up', i', e', hr, L, hl, h1, h2, h3⟩ := lastOf_forest w hne
  have hp : past f ⟨up', i' + 1, 0⟩ = true := by simp [past, h3]
  have hz : ∀ e, At f [] ((sibs f []).length - 1) e →
      nextPreOrderUp f ⟨[], (sibs f []).length - 1, e.depth - 1⟩ = some ⟨up', i' + 1, 0⟩ := by
    intro e he
    have : e = r := At.inj he hr
    subst this
    exact h1
  have hlv : ∀ e ∈ f, e.level ≤ level := by
    intro e he
    obtain ⟨k, hk⟩ := List.mem_iff_getElem?.1 he
    rw [w.root k e hk]; omega
  have hwk := walk_posLevel w (level := level) (Tail.start f []) _ _ hlv hz (moveDown_past hp)
  have hmd := moveDown_eq w (level := level) (Tail.start f []) _ hlv hz
  rw [hp] at hwk
  refine ⟨hwk, ⟨up', i' + 1, 0⟩, hp, ?_, by simp, ⟨e', L.at'⟩⟩
  obtain ⟨e, es, rfl⟩ := List.exists_cons_of_ne_nil hne
  rw [show sibs (e :: es) [] = e :: es from rfl, prePos_head w (show At (e :: es) [] 0 e from rfl)] at hmd
  rw [hmd]
  cases posLevel level [] 0 (e :: es) with
  | nil => exact moveDown_past hp
  | cons p l => rfl

end
end Verif.LevelTree
