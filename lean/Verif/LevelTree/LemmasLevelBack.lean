import Verif.LevelTree.LemmasLevel
set_option linter.all false
namespace Verif.LevelTree
variable {V : Type}

/-- The loop of `moveDownToLevelEnd`. -/
def mde (f : List (Entry V)) (level : Nat) (it : Iter) : Option Iter :=
  whileM (fun it =>
      if past f it then some true
      else do
        let l ← levelOf f it
        if l < level then hasPreviousPostOrder f it else some false)
    (moveToPreviousPostOrder f) it

theorem mde_stop {f : List (Entry V)} {level : Nat} {a : Iter} {e : Entry V} (h : deref f a = some e)
    (hl : level ≤ e.level + a.counter) : mde f level a = some a := by
  refine whileM_false ?_
  have : ¬ (e.level + a.counter < level) := by omega
  simp [past_false_of_deref h, levelOf, h, this]

theorem mde_first {f : List (Entry V)} {level : Nat} {a : Iter} {e : Entry V} (h : deref f a = some e)
    (hp : hasPreviousPostOrder f a = some false) : mde f level a = some a := by
  refine whileM_false ?_
  simp [past_false_of_deref h, levelOf, h, hp]

theorem mde_step {f : List (Entry V)} {level : Nat} {a b : Iter} {e : Entry V} (h : deref f a = some e)
    (hl : e.level + a.counter < level) (hp : hasPreviousPostOrder f a = some true)
    (hb : moveToPreviousPostOrder f a = some b) : mde f level a = mde f level b := by
  refine whileM_true ?_ hb
  simp [past_false_of_deref h, levelOf, h, hl, hp]

section
variable {f : List (Entry V)} (w : Wf f)
include w

theorem prevPost_node {up : List Nat} {i c : Nat} {e : Entry V} (h : At f up i e) (hl : e.children ≠ [] ∨ c + 1 < e.depth) :
    moveToPreviousPostOrder f ⟨up, i, c⟩ = moveToChild f (e.children.length - 1) ⟨up, i, c⟩ := by
  simp only [moveToPreviousPostOrder, hasPrevious_node w h hl, h.past, h.deref, Option.bind_eq_bind, Option.bind_some]
  rcases hl with hl | hl
  · simp [(hasChild_iff e).2 hl]
  · have : c < e.depth - 1 := by omega
    simp [canIncrease, this]

theorem mde_counter {level : Nat} {up : List Nat} {i : Nat} {e : Entry V} (h : At f up i e) (n : Nat) :
    ∀ c, c + n < e.depth → e.level + c + n ≤ level → mde f level ⟨up, i, c⟩ = mde f level ⟨up, i, c + n⟩ := by
  induction n with
  | zero => intro c _ _; rfl
  | succ n ih =>
    intro c h1 h2
    have := ih (c + 1) (by omega) (by omega)
    rw [show c + (n + 1) = c + 1 + n by omega, ← this]
    refine mde_step (h.deref c) (by simp; omega) (hasPrevious_node w h (Or.inr (by omega))) ?_
    rw [prevPost_node w h (Or.inr (by omega)), w.moveToChild_succ h (by omega)]

/-- A counter with which the search for the last entry on a level may arrive at an entry: a valid one, or
one left over from another entry but still above the level. -/
def Ok (level : Nat) (e : Entry V) (c : Nat) : Prop := e.level + c < level ∨ (c < e.depth ∧ e.level + c ≤ level)

/-- What the search does if there is nothing at `(up, i)` or below. -/
def GoesOn (f : List (Entry V)) (level : Nat) (up : List Nat) (i : Nat) (r : Option Iter) : Prop :=
  (∀ up' i', prevTree up i = some (up', i') → ∃ c' a, At f up' i' a ∧ a.level + c' < level ∧ a.level ≤ level ∧
    r = mde f level ⟨up', i', c'⟩) ∧
  (prevTree up i = none → ∃ x e, r = some x ∧ deref f x = some e ∧ e.level + x.counter < level)

omit w in
theorem posLevel_take_succ {level : Nat} {up : List Nat} {es : List (Entry V)} {k : Nat} {c : Entry V} (hk : es[k]? = some c) :
    posLevel level up 0 (es.take (k + 1)) = posLevel level up 0 (es.take k) ++ posLevel level up k [c] := by
  have hlt := (List.getElem?_eq_some_iff.1 hk).1
  rw [List.take_add_one, hk, posLevel_append]
  simp [Nat.min_eq_left (Nat.le_of_lt hlt)]

theorem mde_tree {level : Nat} (e : Entry V) : ∀ (up : List Nat) (i c : Nat), At f up i e → e.level ≤ level → Ok level e c →
    (∀ p, (posLevel level up i [e]).getLast? = some p → mde f level ⟨up, i, c⟩ = some p) ∧
    (posLevel level up i [e] = [] → GoesOn f level up i (mde f level ⟨up, i, c⟩)) := by
  induction e using Entry.ind with
  | h e ih =>
    intro up i c h hle hok
    have hd := w.depth _ _ _ h
    rw [posLevel_cons]
    simp only [posLevel, List.append_nil]
    by_cases hin : level < e.level + e.depth
    · rw [if_pos ⟨hle, hin⟩, posLevel_above w h.tail (by intro c' hc'; rw [w.child _ _ _ h c' hc']; omega)]
      refine ⟨?_, by simp⟩
      intro p hp
      simp at hp; subst hp
      have hcl : e.level + c ≤ level := by rcases hok with h | h <;> omega
      rw [mde_counter w h (level - e.level - c) c (by omega) (by omega), mde_stop (h.deref _) (by simp; omega)]
      congr 2; omega
    · rw [if_neg (by omega), List.nil_append]
      -- bring the counter to its last value
      obtain ⟨c1, hc1, hc2, hc3⟩ : ∃ c1, mde f level ⟨up, i, c⟩ = mde f level ⟨up, i, c1⟩ ∧ e.depth ≤ c1 + 1 ∧ e.level + c1 < level := by
        by_cases hcd : c < e.depth
        · refine ⟨e.depth - 1, ?_, by omega, by omega⟩
          rw [mde_counter w h (e.depth - 1 - c) c (by omega) (by omega)]
          congr 2; omega
        · exact ⟨c, rfl, by omega, by rcases hok with h | h <;> omega⟩
      rw [hc1]
      by_cases hl : e.children = []
      · rw [hl]
        refine ⟨by simp [posLevel], fun _ => ⟨?_, ?_⟩⟩
        · intro up' i' hp
          obtain ⟨c', h1, h2⟩ := prevPost_leaf w h hl hc2 hp
          obtain ⟨a, b, ha, hb⟩ := prevTree_at w h hp
          have hab := level_at w ha hb
          refine ⟨c', a, ha, ?_, ?_, ?_⟩
          · rcases h2 with ⟨_, rfl, rfl, rfl⟩ | ⟨_, b', hb', rfl, hlv⟩
            · have := level_at w ha h; omega
            · have := level_at w ha hb'
              have := w.depth _ _ _ hb'
              omega
          · rcases h2 with ⟨_, rfl, rfl, rfl⟩ | ⟨_, b', hb', rfl, hlv⟩
            · have := level_at w ha h; omega
            · have := level_at w ha hb'; omega
          · refine mde_step (h.deref c1) hc3 ?_ h1
            rw [hasPrevious_leaf w h hl hc2, hp]; rfl
        · intro hp
          refine ⟨⟨up, i, c1⟩, e, ?_, h.deref _, hc3⟩
          refine mde_first (h.deref c1) ?_
          rw [hasPrevious_leaf w h hl hc2, hp]; rfl
      · have hpos : 0 < e.children.length := List.length_pos_iff.2 hl
        have hstep : mde f level ⟨up, i, c1⟩ = mde f level ⟨i :: up, e.children.length - 1, 0⟩ := by
          refine mde_step (h.deref c1) hc3 (hasPrevious_node w h (Or.inl hl)) ?_
          rw [prevPost_node w h (Or.inl hl)]
          exact w.moveToChild_child h hc2 (List.getElem?_eq_getElem (by omega))
        rw [hstep]
        have key : ∀ k < e.children.length, ∀ c2, (∀ ck, e.children[k]? = some ck → Ok level ck c2) →
            (∀ p, (posLevel level (i :: up) 0 (e.children.take (k + 1))).getLast? = some p →
              mde f level ⟨i :: up, k, c2⟩ = some p) ∧
            (posLevel level (i :: up) 0 (e.children.take (k + 1)) = [] →
              GoesOn f level up i (mde f level ⟨i :: up, k, c2⟩)) := by
          intro k
          induction k with
          | zero =>
            intro hk c2 hok2
            have hck : e.children[0]? = some e.children[0] := List.getElem?_eq_getElem hk
            generalize e.children[0] = ck at hck
            have hAt := h.child hck
            have hcm := List.mem_of_getElem? hck
            have hlv := w.child _ _ _ h ck hcm
            obtain ⟨h1, h2⟩ := ih ck hcm (i :: up) 0 c2 hAt (by omega) (hok2 ck hck)
            rw [posLevel_take_succ hck]
            simp only [List.take_zero, posLevel, List.nil_append] at h1 h2 ⊢
            refine ⟨h1, fun hn => ?_⟩
            have := h2 hn
            simpa [GoesOn, prevTree] using this
          | succ k ihk =>
            intro hk c2 hok2
            have hck : e.children[k + 1]? = some e.children[k + 1] := List.getElem?_eq_getElem hk
            generalize e.children[k + 1] = ck at hck
            have hAt := h.child hck
            have hcm := List.mem_of_getElem? hck
            have hlv := w.child _ _ _ h ck hcm
            obtain ⟨h1, h2⟩ := ih ck hcm (i :: up) (k + 1) c2 hAt (by omega) (hok2 ck hck)
            rw [posLevel_take_succ hck]
            by_cases hn : posLevel level (i :: up) (k + 1) [ck] = []
            · rw [hn, List.append_nil]
              obtain ⟨c', a, ha, hlt, hle', heq⟩ := (h2 hn).1 (i :: up) k (by simp [prevTree])
              rw [heq]
              refine ihk (by omega) c' ?_
              intro ck' hck'
              cases ha.inj (h.child hck')
              exact Or.inl hlt
            · refine ⟨?_, fun h0 => absurd (List.append_eq_nil_iff.1 h0).2 hn⟩
              intro p hp
              refine h1 p ?_
              rw [List.getLast?_append] at hp
              cases hg : (posLevel level (i :: up) (k + 1) [ck]).getLast? with
              | none => exact absurd (List.getLast?_eq_none_iff.1 hg) hn
              | some q => rw [hg] at hp; simpa using hp
        have := key (e.children.length - 1) (by omega) 0 (by
          intro ck hck
          have hlv := w.child _ _ _ h ck (List.mem_of_getElem? hck)
          have := w.depth _ _ _ (h.child hck)
          exact Or.inr ⟨by omega, by omega⟩)
        rw [show e.children.length - 1 + 1 = e.children.length by omega, List.take_length] at this
        exact this

/-- The positions on a level before the tree at `(up, i)`. -/
def before (f : List (Entry V)) (level : Nat) : List Nat → Nat → List Iter
  | [], i => posLevel level [] 0 (f.take i)
  | j :: up, i => before f level up j ++ posLevel level (j :: up) 0 ((sibs f (j :: up)).take i)

omit w in
theorem before_zero (f : List (Entry V)) (level : Nat) (up : List Nat) (j : Nat) : before f level (j :: up) 0 = before f level up j := by
  simp [before, posLevel]

omit w in
theorem before_succ {level : Nat} {up : List Nat} {i : Nat} {e : Entry V} (h : At f up i e) :
    before f level up (i + 1) = before f level up i ++ posLevel level up i [e] := by
  cases up with
  | nil => exact posLevel_take_succ h
  | cons j up =>
    simp only [before]
    rw [posLevel_take_succ h, List.append_assoc]

omit w in
theorem before_prevTree (level : Nat) {up : List Nat} {i : Nat} {up' : List Nat} {i' : Nat}
    (hp : prevTree up i = some (up', i')) : before f level up i = before f level up' (i' + 1) := by
  induction up generalizing i with
  | nil =>
    cases i with
    | zero => simp [prevTree] at hp
    | succ i => simp [prevTree] at hp; obtain ⟨rfl, rfl⟩ := hp; rfl
  | cons j up ih =>
    cases i with
    | zero => rw [before_zero]; exact ih (by simpa [prevTree] using hp)
    | succ i => simp [prevTree] at hp; obtain ⟨rfl, rfl⟩ := hp; rfl

omit w in
theorem before_none (level : Nat) {up : List Nat} {i : Nat} (hp : prevTree up i = none) : before f level up i = [] := by
  induction up generalizing i with
  | nil =>
    cases i with
    | zero => simp [before, posLevel]
    | succ i => simp [prevTree] at hp
  | cons j up ih =>
    cases i with
    | zero => rw [before_zero]; exact ih (by simpa [prevTree] using hp)
    | succ i => simp [prevTree] at hp

omit w in
theorem prevTree_lt {up : List Nat} {i : Nat} {up' : List Nat} {i' : Nat}
    (hp : prevTree up i = some (up', i')) : up'.length < up.length ∨ (up' = up ∧ i = i' + 1) := by
  induction up generalizing i with
  | nil =>
    cases i with
    | zero => simp [prevTree] at hp
    | succ i => simp [prevTree] at hp; obtain ⟨rfl, rfl⟩ := hp; simp
  | cons j up ih =>
    cases i with
    | zero =>
      rcases ih (i := j) (by simpa [prevTree] using hp) with h | ⟨rfl, -⟩
      · left; simp; omega
      · left; simp
    | succ i => simp [prevTree] at hp; obtain ⟨rfl, rfl⟩ := hp; simp

/-- The search finds the last entry on the level up to and including the tree it starts in. -/
theorem mde_eq {level : Nat} (n : Nat) : ∀ (up : List Nat), up.length ≤ n → ∀ (i c : Nat) (e : Entry V),
    At f up i e → e.level ≤ level → Ok level e c →
    (∀ p, (before f level up (i + 1)).getLast? = some p → mde f level ⟨up, i, c⟩ = some p) ∧
    (before f level up (i + 1) = [] → ∃ x a, mde f level ⟨up, i, c⟩ = some x ∧ deref f x = some a ∧ a.level + x.counter < level) := by
  induction n with
  | zero =>
    intro up hup i
    have : up = [] := by simpa using hup
    subst this
    induction i with
    | zero =>
      intro c e h hle hok
      obtain ⟨h1, h2⟩ := mde_tree w e [] 0 c h hle hok
      rw [before_succ h, before_none level (by simp [prevTree]), List.nil_append]
      exact ⟨h1, fun hn => (h2 hn).2 (by simp [prevTree])⟩
    | succ i ih =>
      intro c e h hle hok
      obtain ⟨h1, h2⟩ := mde_tree w e [] (i + 1) c h hle hok
      rw [before_succ h]
      by_cases hn : posLevel level [] (i + 1) [e] = []
      · rw [hn, List.append_nil]
        obtain ⟨c', a, ha, hlt, hle', heq⟩ := (h2 hn).1 [] i (by simp [prevTree])
        rw [heq]
        exact ih c' a ha hle' (Or.inl hlt)
      · refine ⟨?_, fun h0 => absurd (List.append_eq_nil_iff.1 h0).2 hn⟩
        intro p hp
        refine h1 p ?_
        rw [List.getLast?_append] at hp
        cases hg : (posLevel level [] (i + 1) [e]).getLast? with
        | none => exact absurd (List.getLast?_eq_none_iff.1 hg) hn
        | some q => rw [hg] at hp; simpa using hp
  | succ n ihn =>
    intro up hup i
    induction i using Nat.strongRecOn with
    | _ i ih =>
      intro c e h hle hok
      obtain ⟨h1, h2⟩ := mde_tree w e up i c h hle hok
      rw [before_succ h]
      by_cases hn : posLevel level up i [e] = []
      · rw [hn, List.append_nil]
        cases hp : prevTree up i with
        | none =>
          rw [before_none level hp]
          exact ⟨by simp, fun _ => (h2 hn).2 hp⟩
        | some q =>
          obtain ⟨up', i'⟩ := q
          obtain ⟨c', a, ha, hlt, hle', heq⟩ := (h2 hn).1 up' i' hp
          rw [heq, before_prevTree level hp]
          rcases prevTree_lt hp with hlen | ⟨rfl, rfl⟩
          · exact ihn up' (by omega) i' c' a ha hle' (Or.inl hlt)
          · exact ih i' (by omega) c' a ha hle' (Or.inl hlt)
      · refine ⟨?_, fun h0 => absurd (List.append_eq_nil_iff.1 h0).2 hn⟩
        intro p hp
        refine h1 p ?_
        rw [List.getLast?_append] at hp
        cases hg : (posLevel level up i [e]).getLast? with
        | none => exact absurd (List.getLast?_eq_none_iff.1 hg) hn
        | some q => rw [hg] at hp; simpa using hp

/-- Positions before a tree are on the level. -/
theorem before_at {level : Nat} {up : List Nat} {i : Nat} : ∀ a ∈ before f level up i,
    ∃ e, At f a.up a.idx e ∧ e.level + a.counter = level ∧ a.counter < e.depth := by
  have hpre : ∀ (up : List Nat) (i : Nat), ∀ a ∈ posLevel level up 0 ((sibs f up).take i),
      ∃ e, At f a.up a.idx e ∧ e.level + a.counter = level ∧ a.counter < e.depth := by
    intro up i a ha
    refine posLevel_at (level := level) (Tail.start f up) a ?_
    rw [← List.take_append_drop i (sibs f up), posLevel_append]
    exact List.mem_append_left _ ha
  induction up generalizing i with
  | nil => exact hpre [] i
  | cons j up ih =>
    intro a ha
    rw [before, List.mem_append] at ha
    rcases ha with ha | ha
    · exact ih a ha
    · exact hpre _ _ a ha

theorem moveDownEnd_some {level : Nat} {up : List Nat} {i c : Nat} {e : Entry V} (h : At f up i e) (hle : e.level ≤ level)
    (hok : Ok level e c) {p : Iter} (hp : (before f level up (i + 1)).getLast? = some p) :
    moveDownToLevelEnd f level ⟨up, i, c⟩ = some (p, true) := by
  have h1 := (mde_eq w up.length up (Nat.le_refl _) i c e h hle hok).1 p hp
  obtain ⟨a, ha, hl, -⟩ := before_at w p (List.mem_of_getLast? hp)
  have ha' : deref f p = some a := ha
  change (mde f level ⟨up, i, c⟩).bind _ = _
  simp [h1, levelOf, ha', hl]

theorem moveDownEnd_none {level : Nat} {up : List Nat} {i c : Nat} {e : Entry V} (h : At f up i e) (hle : e.level ≤ level)
    (hok : Ok level e c) (hp : before f level up (i + 1) = []) :
    ∃ x, moveDownToLevelEnd f level ⟨up, i, c⟩ = some (x, false) := by
  obtain ⟨x, a, h1, h2, h3⟩ := (mde_eq w up.length up (Nat.le_refl _) i c e h hle hok).2 hp
  refine ⟨x, ?_⟩
  change (mde f level ⟨up, i, c⟩).bind _ = _
  simp [h1, levelOf, h2]
  omega

/-- One step back on a level. -/
theorem prevOnLevel_eq {up : List Nat} {i c : Nat} {e : Entry V} (h : At f up i e) {p : Iter}
    (hp : (before f (e.level + c) up i).getLast? = some p) : moveToPreviousOnLevel f ⟨up, i, c⟩ = some p := by
  cases hpt : prevTree up i with
  | none => rw [before_none _ hpt] at hp; simp at hp
  | some q =>
    obtain ⟨up', i'⟩ := q
    obtain ⟨c', h1, h2⟩ := climbFirst_eq w h hpt c
    obtain ⟨a, b, ha, hb⟩ := prevTree_at w h hpt
    have hlv : a.level ≤ e.level := by
      rcases h2 with ⟨_, rfl, rfl, rfl⟩ | ⟨_, b', hb', rfl, hlv⟩
      · have := level_at w ha h; omega
      · have := level_at w ha hb'; omega
    have hd := w.depth _ _ _ ha
    rw [before_prevTree _ hpt] at hp
    have := moveDownEnd_some w (level := e.level + c) ha (by omega) (c := 0) (Or.inr ⟨by omega, by omega⟩) hp
    simp [moveToPreviousOnLevel, h.past, levelOf, h.deref, h1, dec, this]

end

/-- `prev` leads from every position of `l` to the one before it; `l0` are the positions before `l`. -/
def BackFrom (prev : Iter → Option Iter) (l0 : List Iter) : List Iter → Prop
  | [] => True
  | a :: l => (∀ q, l0.getLast? = some q → prev a = some q) ∧ BackFrom prev (l0 ++ [a]) l

theorem BackFrom.append {prev : Iter → Option Iter} {l0 l l' : List Iter} (h : BackFrom prev l0 l)
    (h' : BackFrom prev (l0 ++ l) l') : BackFrom prev l0 (l ++ l') := by
  induction l generalizing l0 with
  | nil => simpa using h'
  | cons a l ih => exact ⟨h.1, ih h.2 (by simpa using h')⟩

theorem BackFrom.walkBack {prev : Iter → Option Iter} {z : Iter} : ∀ {l l0 : List Iter}, BackFrom prev l0 l →
    (∀ q, (l0 ++ l).getLast? = some q → prev z = some q) → WalkBack prev l z
  | [], _, _, _ => trivial
  | [a], l0, h, hz => ⟨hz a (by simp), trivial⟩
  | a :: b :: l, l0, h, hz => ⟨h.2.1 a (by simp), BackFrom.walkBack h.2 (by simpa using hz)⟩

section
variable {f : List (Entry V)} (w : Wf f)
include w

theorem back_posLevel {level : Nat} {up : List Nat} {i : Nat} {es : List (Entry V)} (t : Tail f up i es) :
    BackFrom (moveToPreviousOnLevel f) (before f level up i) (posLevel level up i es) := by
  induction t using forest_ind with
  | nil => simp [posLevel, BackFrom]
  | cons up i e es hAt t t' ih1 ih2 =>
    have hb : before f level up (i + 1) = before f level up i ++
        ((if e.level ≤ level ∧ level < e.level + e.depth then [⟨up, i, level - e.level⟩] else []) ++
          posLevel level (i :: up) 0 e.children) := by
      rw [before_succ hAt, posLevel_cons]; simp [posLevel]
    rw [posLevel_cons, ← List.append_assoc]
    refine BackFrom.append ?_ (by rw [← hb]; exact ih2)
    split
    · rename_i hin
      rw [posLevel_above w hAt.tail (by intro c hc; rw [w.child _ _ _ hAt c hc]; omega), List.append_nil]
      refine ⟨?_, trivial⟩
      intro q hq
      have hl : e.level + (level - e.level) = level := by omega
      refine prevOnLevel_eq w hAt ?_
      rw [hl]; exact hq
    · rw [List.nil_append]
      rw [before_zero] at ih1
      exact ih1

theorem before_all (level : Nat) : before f level [] f.length = posLevel level [] 0 f := by
  simp [before]

/-- Every position can go up to its root. -/
theorem moveUp_zero {up : List Nat} {i c : Nat} {e : Entry V} (h : At f up i e) :
    ∃ k, moveUpToLevel f 0 ⟨up, i, c⟩ = some ⟨[], k, 0⟩ := by
  have hcount : ∀ (up : List Nat) (i : Nat) (e : Entry V), At f up i e → 0 < e.level ∨ True → ∀ c,
      moveUpToLevel f 0 ⟨up, i, c⟩ = moveUpToLevel f 0 ⟨up, i, 0⟩ := by
    intro up i e h _ c
    induction c with
    | zero => rfl
    | succ c ih =>
      rw [← ih]
      refine whileM_true ?_ (moveToParent_succ w h)
      have : 0 < e.level + (c + 1) := by omega
      simp [levelOf, h.deref, this]
  induction up generalizing i e c with
  | nil =>
    rw [hcount _ _ _ h (Or.inr trivial)]
    refine ⟨i, whileM_false ?_⟩
    simp [levelOf, h.deref, w.root _ _ h]
  | cons j up ih =>
    rw [hcount _ _ _ h (Or.inr trivial)]
    obtain ⟨p, hp, -⟩ := h.parent
    obtain ⟨k, hk⟩ := ih (c := p.depth - 1) hp
    refine ⟨k, ?_⟩
    rw [← hk]
    refine whileM_true ?_ (w.moveToParent_zero h hp)
    have := w.level_pos h
    simp [levelOf, h.deref, this]

/-- `moveToLastOnLevel` from a position or one past the end. -/
theorem moveToLast_eq (hne : f ≠ []) {level : Nat} {it : Iter} (hit : ∃ c e, beforeEnd f it = some c ∧ deref f c = some e)
    {p : Iter} (hp : (posLevel level [] 0 f).getLast? = some p) : moveToLastOnLevel f level it = some p := by
  have hpos : 0 < f.length := List.length_pos_iff.2 hne
  obtain ⟨r, hr⟩ : ∃ r, At f [] (f.length - 1) r := at_of_lt (by simp [sibs]; omega)
  have hr' : f[f.length - 1]? = some r := hr
  obtain ⟨c, e, hc, he⟩ := hit
  obtain ⟨k, hk⟩ := moveUp_zero w (up := c.up) (i := c.idx) (c := c.counter) he
  have hd := w.depth _ _ _ hr
  have := moveDownEnd_some w (level := level) hr (by rw [w.root _ _ hr]; omega) (c := 0) (p := p)
    (Or.inr ⟨by omega, by rw [w.root _ _ hr]; omega⟩) (by rw [show f.length - 1 + 1 = f.length by omega, before_all w]; exact hp)
  have hk' : moveUpToLevel f 0 c = some ⟨[], k, 0⟩ := hk
  simp [moveToLastOnLevel, hc, hk', sibs, hr', w.sib _ _ _ hr, this]

theorem begin_level (hne : f ≠ []) (level : Nat) : ∃ z, past f z = true ∧
    begin .singleLevel level f = some ((posLevel level [] 0 f).headD z) := by
  obtain ⟨hw, z, hz, hmd, -⟩ := level_walk w hne level
  refine ⟨z, hz, ?_⟩
  obtain ⟨e, es, rfl⟩ := List.exists_cons_of_ne_nil hne
  have h : At (e :: es) [] 0 e := rfl
  simp [begin, rootIterator, w.root _ _ h, w.sib _ _ _ h]
  rw [hmd]; simp

theorem moveDown_valid (hne : f ≠ []) (level : Nat) {r : Entry V} (hr : At f [] (f.length - 1) r) :
    ∃ it c e, moveDownToLevelBegin f level ⟨[], f.length - 1, 0⟩ = some it ∧ beforeEnd f it = some c ∧ deref f c = some e := by
  have hpos : 0 < f.length := List.length_pos_iff.2 hne
  obtain ⟨r', up', i', e', hr', L, hl, h1, h2, h3⟩ := lastOf_forest w hne
  cases hr.inj hr'
  have hp : past f ⟨up', i' + 1, 0⟩ = true := by simp [past, h3]
  have t : Tail f [] (f.length - 1) [r] := by
    refine ⟨by simp [sibs], ?_⟩
    have := List.drop_eq_getElem_cons (show f.length - 1 < f.length by omega)
    have h4 : f[f.length - 1]? = some r := hr
    rw [List.getElem?_eq_getElem (by omega)] at h4
    simp only [sibs]
    rw [this, Option.some.inj h4, show f.length - 1 + 1 = f.length by omega]
    simp
  have hmd := moveDown_eq w (level := level) t ⟨up', i' + 1, 0⟩ (by simp [w.root _ _ hr]) (by
    intro e he
    have : e = r := At.inj he hr
    subst this
    exact h1)
  rw [prePos_head w hr] at hmd
  cases hpl : posLevel level [] (f.length - 1) [r] with
  | nil =>
    rw [hpl] at hmd
    simp only [moveDown_past hp] at hmd
    exact ⟨_, ⟨up', i', 0⟩, e', hmd, by simp [beforeEnd, hp, dec], L.at'.deref _⟩
  | cons p l =>
    rw [hpl] at hmd
    obtain ⟨e, he, -⟩ := posLevel_at t p (by rw [hpl]; simp)
    exact ⟨p, p, e, hmd, by simp [beforeEnd, he.past p.counter], he⟩

theorem finish_level (hne : f ≠ []) (level : Nat) {p : Iter} (hp : (posLevel level [] 0 f).getLast? = some p) :
    finish .singleLevel level f = some ⟨p.up, p.idx + 1, p.counter⟩ ∧
    (∀ a ∈ posLevel level [] 0 f, same f a ⟨p.up, p.idx + 1, p.counter⟩ = false) := by
  have hpos : 0 < f.length := List.length_pos_iff.2 hne
  obtain ⟨r, hr⟩ : ∃ r, At f [] (f.length - 1) r := at_of_lt (by simp [sibs]; omega)
  have hr' : f[f.length - 1]? = some r := hr
  obtain ⟨it, c, e, h1, h2, h3⟩ := moveDown_valid w hne level hr
  have hlast := moveToLast_eq w hne ⟨c, e, h2, h3⟩ hp
  obtain ⟨hw, -⟩ := level_walk w hne level
  have hcont : contL f level p = some none := by
    have : ∀ l : List Iter, WalkO (contL f level) l none → l.getLast? = some p → contL f level p = some none := by
      intro l
      induction l with
      | nil => simp
      | cons a l ih =>
        intro hw hl
        cases l with
        | nil => simp at hl; subst hl; simpa using hw.1
        | cons b l => exact ih hw.2 (by simpa using hl)
    exact this _ hw hp
  obtain ⟨a, ha, hal, had⟩ := posLevel_at (level := level) (Tail.start f []) p (List.mem_of_getLast? hp)
  have hnext := nextOnLevel_eq w ha had
  rw [hal] at hnext
  have hnext' : moveToNextOnLevel f p = some ⟨p.up, p.idx + 1, p.counter⟩ := by
    have : contL f level ⟨p.up, p.idx, p.counter⟩ = some none := hcont
    rw [this] at hnext; exact hnext
  have hpast : past f p = false := ha.past p.counter
  have hf : f.isEmpty = false := by simpa using hne
  refine ⟨?_, ?_⟩
  · simp [finish, hf, rootIterator, hr', w.root _ _ hr, w.sib _ _ _ hr, h1, hlast, incr, hpast, hnext']
  · intro q hq
    obtain ⟨b, hb, hbl, hbd⟩ := posLevel_at (level := level) (Tail.start f []) q hq
    have hqp : past f q = false := hb.past q.counter
    cases hpp : past f ⟨p.up, p.idx + 1, p.counter⟩ with
    | true => exact same_past hqp hpp
    | false =>
      simp [same, hqp, hpp]
      intro hu hi
      -- then the entry after `p` would be on the level and found
      rw [hu, hi] at hb
      have hn : nextPreOrderUp f ⟨p.up, p.idx, p.counter⟩ = some ⟨p.up, p.idx + 1, 0⟩ := nextUp_sibling w ha hb.lt
      have hlv := level_at w ha hb
      have hmd := moveDown_counter w hb (level := level) (by omega) (level - b.level) 0 (by omega)
      have : contL f level ⟨p.up, p.idx, p.counter⟩ = some (some ⟨p.up, p.idx + 1, level - b.level⟩) := by
        simp [contL, hn, hmd, hb.past]
      have hc' : contL f level ⟨p.up, p.idx, p.counter⟩ = some none := hcont
      rw [hc'] at this
      simp at this

theorem incr_level_walk (hne : f ≠ []) (level : Nat) {p : Iter} (hp : (posLevel level [] 0 f).getLast? = some p) :
    Walk (incr .singleLevel f) (posLevel level [] 0 f) ⟨p.up, p.idx + 1, p.counter⟩ := by
  obtain ⟨hw, -⟩ := level_walk w hne level
  have key : ∀ l : List Iter, (∀ a ∈ l, a ∈ posLevel level [] 0 f) → WalkO (contL f level) l none → l.getLast? = some p →
      Walk (incr .singleLevel f) l ⟨p.up, p.idx + 1, p.counter⟩ := by
    intro l
    induction l with
    | nil => simp
    | cons a l ih =>
      intro hsub hw hl
      obtain ⟨b, hb, hbl, hbd⟩ := posLevel_at (level := level) (Tail.start f []) a (hsub a (by simp))
      have hpast : past f a = false := hb.past a.counter
      have hnext := nextOnLevel_eq w hb hbd
      rw [hbl] at hnext
      have hnext' : incr .singleLevel f a = (contL f level a).map fun r => r.getD ⟨a.up, a.idx + 1, a.counter⟩ := by
        simp [incr, hpast]; exact hnext
      cases l with
      | nil =>
        simp at hl; subst hl
        refine ⟨?_, trivial⟩
        rw [hnext', hw.1]
        simp
      | cons b l =>
        refine ⟨?_, ih (fun x hx => hsub x (by simp [hx])) hw.2 (by simpa using hl)⟩
        rw [hnext', hw.1]
        simp
  exact key _ (fun _ h => h) hw hp

theorem iterate_level (hne : f ≠ []) (level : Nat) (hl : onLevel level f ≠ []) :
    iterate .singleLevel level f = some (onLevel level f) ∧
    iterateReverse .singleLevel level f = some (onLevel level f).reverse := by
  have hS := shows_posLevel (level := level) (Tail.start f [])
  change Shows f (posLevel level [] 0 f) (onLevel level f) at hS
  have hpl : posLevel level [] 0 f ≠ [] := by
    intro h
    rw [h] at hS
    simp [Shows] at hS
    exact hl hS
  obtain ⟨p, hp⟩ : ∃ p, (posLevel level [] 0 f).getLast? = some p := by
    cases h : (posLevel level [] 0 f).getLast? with
    | none => exact absurd (List.getLast?_eq_none_iff.1 h) hpl
    | some p => exact ⟨p, rfl⟩
  obtain ⟨hfin, hdiff⟩ := finish_level w hne level hp
  obtain ⟨z, hz, hbeg⟩ := begin_level w hne level
  have hwalk := incr_level_walk w hne level hp
  obtain ⟨a, l, hal⟩ := List.exists_cons_of_ne_nil hpl
  have hbeg' : begin .singleLevel level f = some a := by rw [hbeg, hal]; rfl
  obtain ⟨e, he, hel, hed⟩ := posLevel_at (level := level) (Tail.start f []) a (by change a ∈ posLevel level [] 0 f; rw [hal]; simp)
  constructor
  · have := loop_eq (b := ⟨p.up, p.idx + 1, p.counter⟩) _ _ _ hwalk hS hdiff (same_self w _)
    rw [hal] at this
    simp only [iterate, hfin, hbeg', Option.bind_eq_bind, Option.bind_some]
    exact this
  · have hback : WalkBack (decr .singleLevel f) (posLevel level [] 0 f) ⟨p.up, p.idx + 1, p.counter⟩ := by
      have hb := back_posLevel w (level := level) (Tail.start f [])
      refine hb.walkBack ?_
      intro q hq
      have hq' : (posLevel level [] 0 f).getLast? = some q := by
        simpa [before, posLevel, sibs] using hq
      rw [hp] at hq'; cases hq'
      obtain ⟨b, hb, hbl, hbd⟩ := posLevel_at (level := level) (Tail.start f []) p (List.mem_of_getLast? hp)
      cases hpp : past f ⟨p.up, p.idx + 1, p.counter⟩ with
      | true => simp [moveToPreviousOnLevel, hpp, dec]
      | false =>
        have hlt : p.idx + 1 < (sibs f p.up).length := by
          have := hb.lt
          simp [past] at hpp; omega
        obtain ⟨b', hb'⟩ := at_of_lt hlt
        have hlv := level_at w hb hb'
        refine prevOnLevel_eq w hb' ?_
        rw [before_succ hb, hlv, hbl, posLevel_cons, if_pos ⟨by omega, by omega⟩,
          posLevel_above w hb.tail (by intro c hc; rw [w.child _ _ _ hb c hc]; omega)]
        simp only [posLevel, List.append_nil, List.getLast?_append, List.getLast?_singleton, Option.some_or]
        congr 1
        have : level - b.level = p.counter := by omega
        rw [this]
    have := reverseLoop_eq (a := a) _ _ _ _ rfl hback hS ?_ ?_ ?_
    · simp only [iterateReverse, hfin, hbeg', Option.bind_eq_bind, Option.bind_some]
      exact this
    · intro x hx
      rw [hal] at hx
      simp at hx
      have hk := (posLevel_keys (level := level) (Tail.start f [])).1
      change ((posLevel level [] 0 f).map _).Nodup at hk
      rw [hal, List.map_cons, List.nodup_cons] at hk
      obtain ⟨e', he', -⟩ := posLevel_at (level := level) (Tail.start f []) x (by change x ∈ posLevel level [] 0 f; rw [hal]; simp [hx])
      have hxp : past f x = false := he'.past x.counter
      have hap : past f a = false := he.past a.counter
      simp [same, hxp, hap]
      intro hu hi
      exact hk.1 (List.mem_map.2 ⟨x, hx, by rw [hu, hi]⟩)
    · intro _
      have := hdiff a (by rw [hal]; simp)
      rw [← this]
      simp only [same]
      cases h1 : past f a <;> cases h2 : past f ⟨p.up, p.idx + 1, p.counter⟩ <;> simp
      rw [Bool.eq_iff_iff]
      simp only [Bool.and_eq_true, beq_iff_eq]
      constructor <;> rintro ⟨x, y⟩ <;> exact ⟨x.symm, y.symm⟩
    · rw [hal]
      exact same_self w _

end
end Verif.LevelTree
