import Verif.LevelTree.LemmasOps
set_option linter.all false
namespace Verif.LevelTree
variable {V : Type}

mutual
/-- `e'` is `e` with some leaves stretched to the level. -/
def Entry.Str (level : Nat) : Entry V → Entry V → Prop
  | .mk d l dp s cs, .mk d' l' dp' s' cs' => d' = d ∧ l' = l ∧ s' = s ∧
      (dp' = dp ∨ (cs = [] ∧ l + dp - 1 < level ∧ dp' = level - l + 1)) ∧ Str level cs cs'
def Str (level : Nat) : List (Entry V) → List (Entry V) → Prop
  | [], [] => True
  | e :: es, e' :: es' => e.Str level e' ∧ Str level es es'
  | [], _ :: _ => False
  | _ :: _, [] => False
end

theorem Entry.str_iff (level : Nat) (e e' : Entry V) : e.Str level e' ↔ e'.data = e.data ∧ e'.level = e.level ∧ e'.sib = e.sib ∧
    (e'.depth = e.depth ∨ (e.children = [] ∧ e.level + e.depth - 1 < level ∧ e'.depth = level - e.level + 1)) ∧
    LevelTree.Str level e.children e'.children := by
  cases e; cases e'; rw [Entry.Str]; rfl

theorem str_cons (level : Nat) (e e' : Entry V) (es es' : List (Entry V)) : Str level (e :: es) (e' :: es') ↔ e.Str level e' ∧ Str level es es' := by
  rw [Str]

theorem str_cases {level : Nat} {P : List (Entry V) → List (Entry V) → Prop} (nil : P [] [])
    (cons : ∀ e e' es es', e.Str level e' → Str level es es' → P (e :: es) (e' :: es')) : ∀ es es', Str level es es' → P es es'
  | [], [], h => nil
  | e :: es, e' :: es', h => by rw [str_cons] at h; exact cons e e' es es' h.1 h.2
  | [], _ :: _, h => by rw [Str] at h; exact h.elim
  | _ :: _, [], h => by rw [Str] at h; exact h.elim

mutual
theorem Entry.Str.refl (level : Nat) : ∀ e : Entry V, e.Str level e
  | .mk _ _ _ _ cs => by rw [Entry.Str]; exact ⟨rfl, rfl, rfl, Or.inl rfl, Str.refl level cs⟩
theorem Str.refl (level : Nat) : ∀ es : List (Entry V), LevelTree.Str level es es
  | [] => by rw [LevelTree.Str]; trivial
  | e :: es => by rw [LevelTree.Str]; exact ⟨Entry.Str.refl level e, Str.refl level es⟩
end

theorem str_nil {level : Nat} {es : List (Entry V)} : Str level es [] ↔ es = [] := by
  cases es with
  | nil => rw [Str]; simp
  | cons => rw [Str]; simp

theorem str_nil' {level : Nat} {es : List (Entry V)} : Str level [] es ↔ es = [] := by
  cases es with
  | nil => rw [Str]; simp
  | cons => rw [Str]; simp

theorem str_empty {level : Nat} {es es' : List (Entry V)} (h : Str level es es') : es = [] ↔ es' = [] := by
  constructor
  · rintro rfl; exact str_nil'.1 h
  · rintro rfl; exact str_nil.1 h

theorem Entry.Str.trans {level : Nat} (e : Entry V) : ∀ e' e'', e.Str level e' → e'.Str level e'' → e.Str level e'' := by
  induction e using Entry.ind with
  | h e ih =>
    intro e' e'' h h'
    rw [Entry.str_iff] at h h' ⊢
    obtain ⟨a1, a2, a3, a4, a5⟩ := h
    obtain ⟨b1, b2, b3, b4, b5⟩ := h'
    have hemp := str_empty a5
    refine ⟨by rw [b1, a1], by rw [b2, a2], by rw [b3, a3], ?_, ?_⟩
    · rcases a4 with a4 | ⟨a4, a6, a7⟩ <;> rcases b4 with b4 | ⟨b4, b6, b7⟩
      · left; rw [b4, a4]
      · right; exact ⟨hemp.2 b4, by omega, by omega⟩
      · right; exact ⟨a4, a6, by omega⟩
      · omega
    · have : ∀ es es' es'' : List (Entry V), (∀ c ∈ es, ∀ c' c'', c.Str level c' → c'.Str level c'' → c.Str level c'') → LevelTree.Str level es es' →
          LevelTree.Str level es' es'' → LevelTree.Str level es es'' := by
        intro es
        induction es with
        | nil => intro es' es'' _ h h'; rw [str_nil'] at h; subst h; exact h'
        | cons c es ihs =>
          intro es' es'' hc h h'
          cases es' with
          | nil => rw [str_nil] at h; simp at h
          | cons c' es' =>
            cases es'' with
            | nil => rw [str_nil] at h'; simp at h'
            | cons c'' es'' =>
              rw [str_cons] at h h' ⊢
              exact ⟨hc c (by simp) _ _ h.1 h'.1, ihs _ _ (fun x hx => hc x (by simp [hx])) h.2 h'.2⟩
      exact this _ _ _ ih a5 b5

theorem str_all {level : Nat} : ∀ {es es' : List (Entry V)}, Str level es es' ↔ All₂ (Entry.Str level) es es'
  | [], [] => by rw [Str]; exact ⟨fun _ => All₂.nil, fun _ => trivial⟩
  | e :: es, e' :: es' => by
    rw [str_cons, str_all (es := es)]
    exact ⟨fun h => All₂.cons h.1 h.2, fun h => by cases h; exact ⟨‹_›, ‹_›⟩⟩
  | [], _ :: _ => by rw [Str]; exact ⟨fun h => h.elim, fun h => by cases h⟩
  | _ :: _, [] => by rw [Str]; exact ⟨fun h => h.elim, fun h => by cases h⟩

theorem Str.trans {level : Nat} {a b c : List (Entry V)} (h : Str level a b) (h' : Str level b c) : Str level a c := by
  rw [str_all] at *
  induction h generalizing c with
  | nil => exact h'
  | cons h1 h2 ih =>
    cases h'
    exact All₂.cons (Entry.Str.trans _ _ _ h1 ‹_›) (ih ‹_›)

theorem str_sibs {level : Nat} {f f' : List (Entry V)} (h : Str level f f') : ∀ up, Str level (sibs f up) (sibs f' up)
  | [] => h
  | j :: up => by
    have := str_all.1 (str_sibs h up)
    simp only [sibs]
    cases hj : (sibs f up)[j]? with
    | none =>
      cases hj' : (sibs f' up)[j]? with
      | none => rw [Str]; trivial
      | some p' =>
        obtain ⟨p, hp, -⟩ := forall₂_get this j p' hj'
        rw [hj] at hp; simp at hp
    | some p =>
      obtain ⟨p', hp', hR⟩ := forall₂_get' this j p hj
      rw [hp']
      exact ((Entry.str_iff _ _ _).1 hR).2.2.2.2

theorem str_at {level : Nat} {f f' : List (Entry V)} (h : Str level f f') {up : List Nat} {i : Nat} {e' : Entry V} (he : At f' up i e') :
    ∃ e, At f up i e ∧ e.Str level e' := forall₂_get (str_all.1 (str_sibs h up)) i e' he

theorem str_at' {level : Nat} {f f' : List (Entry V)} (h : Str level f f') {up : List Nat} {i : Nat} {e : Entry V} (he : At f up i e) :
    ∃ e', At f' up i e' ∧ e.Str level e' := forall₂_get' (str_all.1 (str_sibs h up)) i e he

theorem str_postPos {level : Nat} (n : Nat) : ∀ {es es' : List (Entry V)} {up : List Nat} {i : Nat}, sizeOf es ≤ n → Str level es es' →
    postPos up i es = postPos up i es' := by
  induction n with
  | zero => intro es es' up i hn; cases es <;> simp at hn
  | succ n ih =>
    intro es es' up i hn h
    cases es with
    | nil => rw [str_nil'] at h; subst h; rfl
    | cons e es =>
      cases es' with
      | nil => rw [str_nil] at h; simp at h
      | cons e' es' =>
        rw [str_cons] at h
        have h1 := (Entry.str_iff _ _ _).1 h.1
        rw [postPos_cons, postPos_cons]
        have hs : sizeOf e.children < sizeOf e := by cases e; simp [Entry.children]; omega
        simp only [List.cons.sizeOf_spec] at hn
        rw [ih (by omega) h1.2.2.2.2, ih (by omega) h.2]
        congr 2
        have hemp := str_empty h1.2.2.2.2
        by_cases hc : e.children = []
        · simp [hc, hemp.1 hc]
        · have hc' : e'.children ≠ [] := fun h0 => hc (hemp.2 h0)
          rcases h1.2.2.2.1 with h2 | ⟨h2, -⟩
          · simp [hc, hc', h2]
          · exact absurd h2 hc

theorem str_modifyAt {level : Nat} {f : List (Entry V)} {g : Entry V → Entry V} {up : List Nat} {i : Nat}
    (h : ∀ e, At f up i e → e.Str level (g e)) : Str level f (modifyAt f g up i) := by
  rw [str_all]
  refine modifyAt_rel (Entry.Str level) (Entry.Str.refl level) ?_ h
  intro i g p hp
  rw [Entry.str_iff]
  refine ⟨lift_data _ _ _, lift_level _ _ _, lift_sib _ _ _, Or.inl (lift_depth _ _ _), ?_⟩
  rw [lift_children, str_all]
  generalize p.children = cs at *
  induction cs generalizing i with
  | nil => simp; exact All₂.nil
  | cons c cs ih =>
    cases i with
    | zero => exact All₂.cons (hp c rfl) (str_all.1 (Str.refl level cs))
    | succ i => exact All₂.cons (Entry.Str.refl level c) (ih i fun c' hc' => hp c' (by simpa using hc'))

/-- Stretching leaves keeps the forest well formed. -/
theorem good_str {n level : Nat} (m : Nat) : ∀ {es es' : List (Entry V)} {l k : Nat}, sizeOf es ≤ m → Str level es es' → Good n l k es →
    Good (max (level + 1) n) l k es' := by
  induction m with
  | zero => intro es es' l k hn; cases es <;> simp at hn
  | succ m ih =>
    intro es es' l k hn h hg
    cases es with
    | nil => rw [str_nil'] at h; subst h; rw [Good]; trivial
    | cons e es =>
      cases es' with
      | nil => rw [str_nil] at h; simp at h
      | cons e' es' =>
        rw [str_cons] at h
        rw [good_cons, Entry.good_iff] at hg ⊢
        obtain ⟨a1, a2, a3, a4, a5⟩ := (Entry.str_iff _ _ _).1 h.1
        have hs : sizeOf e.children < sizeOf e := by cases e; simp [Entry.children]; omega
        simp only [List.cons.sizeOf_spec] at hn
        refine ⟨⟨by rw [a2]; exact hg.1.1, by rw [a3]; exact hg.1.2.1, ?_, ?_, ?_⟩, ih (by omega) h.2 hg.2⟩
        · have := hg.1.2.2.1; rcases a4 with a4 | ⟨-, -, a4⟩ <;> omega
        · have := hg.1.2.2.2.1; have := hg.1.1; have := hg.1.2.2.1; rcases a4 with a4 | ⟨-, -, a4⟩ <;> omega
        · rcases a4 with a4 | ⟨a4, -, a6⟩
          · rw [a4]; exact ih (by omega) a5 hg.1.2.2.2.2
          · rw [a4] at a5
            rw [str_nil'.1 a5, Good]; trivial

/-- The leaf of an entry reaches the level. -/
def Filled (level : Nat) (e : Entry V) : Prop := e.children = [] → level ≤ e.level + e.depth - 1

theorem Filled.str {level : Nat} {e e' : Entry V} (h : e.Str level e') (hf : Filled level e) : Filled level e' := by
  obtain ⟨a1, a2, a3, a4, a5⟩ := (Entry.str_iff _ _ _).1 h
  intro hc
  have := hf ((str_empty a5).2 hc)
  rcases a4 with a4 | ⟨-, h1, -⟩
  · omega
  · omega

theorem fillEntry_eq {level : Nat} {f : List (Entry V)} {a : Iter} {e : Entry V} (he : deref f a = some e) (hd : 1 ≤ e.depth) :
    ∃ f', fillEntry level f a = some f' ∧ Str level f f' ∧ ∀ e', At f' a.up a.idx e' → Filled level e' := by
  have hAt : At f a.up a.idx e := he
  by_cases hc : e.children = [] ∧ e.level + e.depth - 1 < level
  · have hc' : e.hasChild = false := (hasChild_false e).2 hc.1
    refine ⟨modifyAt f (fun e => e.setDepth (level - e.level + 1)) a.up a.idx, by simp [fillEntry, he, hc', hc.2], ?_, ?_⟩
    · refine str_modifyAt fun e' he' => ?_
      cases hAt.inj he'
      rw [Entry.str_iff]
      cases e
      exact ⟨rfl, rfl, rfl, Or.inr ⟨hc.1, hc.2, rfl⟩, Str.refl _ _⟩
    · intro e' he'
      have := at_modifyAt (g := fun e : Entry V => e.setDepth (level - e.level + 1)) hAt
      cases this.inj he'
      intro _
      cases e
      simp only [Entry.setDepth, Entry.level, Entry.depth] at *
      omega
  · refine ⟨f, ?_, Str.refl _ _, ?_⟩
    · simp only [fillEntry, he, Option.bind_eq_bind, Option.bind_some]
      rw [if_neg]
      simp only [Bool.and_eq_true, Bool.not_eq_true', decide_eq_true_eq, hasChild_false]
      exact hc
    · intro e' he'
      cases hAt.inj he'
      intro h0
      have : ¬ (e.level + e.depth - 1 < level) := fun h1 => hc ⟨h0, h1⟩
      omega

theorem fillLoop_eq {level n : Nat} {f0 : List (Entry V)} (hg : Good n 0 0 f0) (hne : f0 ≠ []) : ∀ (l : List Iter) (f : List (Entry V)) (pre : List Iter),
    Str level f0 f → postPos [] 0 f0 = pre ++ l → (∀ a ∈ pre, ∀ e, At f a.up a.idx e → Filled level e) →
    ∃ f', fillLoop level f (l.headD ⟨[], f.length, 0⟩) = some f' ∧ Str level f0 f' ∧
      ∀ a ∈ postPos [] 0 f0, ∀ e, At f' a.up a.idx e → Filled level e := by
  intro l
  induction l with
  | nil =>
    intro f pre hs hp hfil
    have w := (good_wf (good_str _ (Nat.le_refl _) hs hg)).1
    have hne' : f ≠ [] := fun h => hne ((str_empty hs).2 h)
    refine ⟨f, ?_, hs, by rw [hp, List.append_nil]; exact hfil⟩
    rw [fillLoop, (finish_post w hne' 0).1]
    simp [same_self w]
  | cons a l ih =>
    intro f pre hs hp hfil
    have w := (good_wf (good_str _ (Nat.le_refl _) hs hg)).1
    have hne' : f ≠ [] := fun h => hne ((str_empty hs).2 h)
    have hpos : postPos [] 0 f = pre ++ a :: l := by rw [← hp]; exact (str_postPos _ (Nat.le_refl _) hs).symm
    have hS := shows_postPos (Tail.start f [])
    obtain ⟨e, he⟩ := hS.mem (a := a) (by change a ∈ postPos [] 0 f; rw [hpos]; simp)
    have hAt : At f a.up a.idx e := he
    obtain ⟨f', h1, h2, h3⟩ := fillEntry_eq (level := level) he (w.depth _ _ _ hAt)
    have hs' := hs.trans h2
    have w' := (good_wf (good_str _ (Nat.le_refl _) hs' hg)).1
    have hne'' : f' ≠ [] := fun h => hne' ((str_empty h2).2 h)
    have hpos' : postPos [] 0 f' = pre ++ a :: l := by rw [← hp]; exact (str_postPos _ (Nat.le_refl _) hs').symm
    have hwalk := post_walk w' hne''
    rw [hpos'] at hwalk
    have hnext : moveToNextPostOrder f' a = some (l.headD ⟨[], f'.length, 0⟩) := by
      have : ∀ (p : List Iter) (y : Iter), Walk (moveToNextPostOrder f') (p ++ a :: l) y → moveToNextPostOrder f' a = some (l.headD y) := by
        intro p
        induction p with
        | nil => intro y h; exact h.1
        | cons b p ihp => intro y h; exact ihp y h.2
      exact this _ _ hwalk
    obtain ⟨f2, h4, h5, h6⟩ := ih f' (pre ++ [a]) hs' (by rw [hp]; simp) (by
      intro b hb e' he'
      rw [List.mem_append] at hb
      rcases hb with hb | hb
      · obtain ⟨e0, he0, hstr⟩ := str_at h2 he'
        exact (hfil b hb e0 he0).str hstr
      · simp at hb; subst hb; exact h3 e' he')
    refine ⟨f2, ?_, h5, h6⟩
    have hpast : past f ⟨[], f.length, 0⟩ = true := by simp [past, sibs]
    have hsm := same_past (past_false_of_deref he) hpast
    rw [List.headD_cons, fillLoop, (finish_post w hne' 0).1]
    simp only [hsm, Bool.false_eq_true, if_false, h1, incr_post hnext]
    exact h4

theorem postPos_mem {f : List (Entry V)} (w : Wf f) {up : List Nat} {i : Nat} {e : Entry V} (h : At f up i e) :
    ∃ c, (⟨up, i, c⟩ : Iter) ∈ postPos [] 0 f := by
  have hsub : ∀ up : List Nat, ∀ a ∈ postPos up 0 (sibs f up), a ∈ postPos [] 0 f := by
    intro up
    induction up with
    | nil => intro a h; exact h
    | cons j up ih =>
      intro a h
      refine ih a ?_
      cases hj : (sibs f up)[j]? with
      | none => simp [sibs, hj, postPos] at h
      | some p =>
        have hAt : At f up j p := hj
        rw [hAt.sibs] at h
        have happ : ∀ (x y : List (Entry V)) (k : Nat), postPos up k (x ++ y) = postPos up k x ++ postPos up (k + x.length) y := by
          intro x y
          induction x with
          | nil => intro k; simp [postPos]
          | cons z x ihx => intro k; rw [List.cons_append, postPos_cons, postPos_cons, ihx]; simp [Nat.add_assoc, Nat.add_comm 1]
        have hlt := hAt.lt
        have hs : sibs f up = (sibs f up).take j ++ p :: (sibs f up).drop (j + 1) := by
          have := List.drop_eq_getElem_cons hlt
          rw [List.getElem?_eq_getElem hlt] at hj
          rw [Option.some.inj hj] at this
          rw [← this, List.take_append_drop]
        rw [hs, happ, postPos_cons]
        simp only [List.length_take, Nat.zero_add, Nat.min_eq_left (Nat.le_of_lt hlt), List.mem_append]
        exact Or.inr (Or.inl h)
  have happ : ∀ (x y : List (Entry V)) (k : Nat), postPos up k (x ++ y) = postPos up k x ++ postPos up (k + x.length) y := by
    intro x y
    induction x with
    | nil => intro k; simp [postPos]
    | cons z x ihx => intro k; rw [List.cons_append, postPos_cons, postPos_cons, ihx]; simp [Nat.add_assoc, Nat.add_comm 1]
  have hlt := h.lt
  have hj : (sibs f up)[i]? = some e := h
  have hs : sibs f up = (sibs f up).take i ++ e :: (sibs f up).drop (i + 1) := by
    have := List.drop_eq_getElem_cons hlt
    rw [List.getElem?_eq_getElem hlt] at hj
    rw [Option.some.inj hj] at this
    rw [← this, List.take_append_drop]
  refine ⟨(if e.children.isEmpty then 1 else e.depth) - 1, hsub up _ ?_⟩
  rw [hs, happ, postPos_cons]
  have hd := w.depth _ _ _ h
  obtain ⟨n, hn⟩ : ∃ n, (if e.children.isEmpty then 1 else e.depth) = n + 1 := ⟨(if e.children.isEmpty then 1 else e.depth) - 1, by split <;> omega⟩
  rw [hn]
  simp only [List.length_take, Nat.zero_add, Nat.min_eq_left (Nat.le_of_lt hlt), List.mem_append, countersDown]
  refine Or.inr (Or.inr (Or.inl ?_))
  simp

mutual
theorem Entry.fill_eq {level : Nat} : ∀ {e e' : Entry V}, e.Str level e' → (e'.children = [] → level ≤ e'.level + e'.depth - 1) →
    (∀ up i a, At e'.children up i a → Filled level a) → e' = e.fill level
  | .mk d l dp s cs, .mk d' l' dp' s' cs', h, h1, h2 => by
    rw [Entry.Str] at h
    obtain ⟨rfl, rfl, rfl, h3, h4⟩ := h
    have := fill_eq h4 h2
    rw [Entry.fill, ← this]
    congr 1
    have hemp := str_empty h4
    simp only [Entry.level, Entry.depth, Entry.children] at h1
    by_cases hc : cs = []
    · have := h1 (hemp.1 hc)
      simp only [hc, List.isEmpty_nil, true_and]
      rcases h3 with h3 | ⟨-, h5, h6⟩
      · rw [if_neg (by omega)]; exact h3
      · rw [if_pos h5]; exact h6
    · rcases h3 with h3 | ⟨h3, -⟩
      · simp [hc, h3]
      · exact absurd h3 hc
theorem fill_eq {level : Nat} : ∀ {es es' : List (Entry V)}, LevelTree.Str level es es' → (∀ up i a, At es' up i a → Filled level a) → es' = fill level es
  | [], es', h, h1 => by rw [str_nil'] at h; rw [h, fill]
  | e :: es, [], h, h1 => by rw [str_nil] at h; simp at h
  | e :: es, e' :: es', h, h1 => by
    rw [str_cons] at h
    rw [fill, ← fill_eq h.2 ?_, ← Entry.fill_eq h.1 (h1 [] 0 e' rfl) ?_]
    · intro up i a ha
      refine h1 (up ++ [0]) i a ?_
      have : ∀ up : List Nat, sibs (e' :: es') (up ++ [0]) = sibs e'.children up := by
        intro up
        induction up with
        | nil => rfl
        | cons j up ih => simp [sibs, ih]
      unfold At
      rw [this]; exact ha
    · intro up i a ha
      -- shift the outermost position
      have hs : ∀ up : List Nat, up ≠ [] → sibs (e' :: es') (up.dropLast ++ [up.getLast?.getD 0 + 1]) = sibs es' up := by
        intro up
        induction up with
        | nil => simp
        | cons j up ih =>
          intro _
          cases up with
          | nil => simp [sibs]
          | cons k up =>
            have := ih (by simp)
            rw [List.dropLast_cons_cons, List.getLast?_cons_cons, List.cons_append, sibs, this]
            rfl
      cases up with
      | nil => exact h1 [] (i + 1) a (by simpa [At, sibs] using ha)
      | cons j up =>
        refine h1 ((j :: up).dropLast ++ [(j :: up).getLast?.getD 0 + 1]) i a ?_
        unfold At
        rw [hs (j :: up) (by simp)]
        exact ha
end

theorem fillToLevel_eq {t : Tree V} (level : Nat) (w : Wf t.entries) (hb : ∀ up i e, At t.entries up i e → e.level + e.depth ≤ t.maxLevel) :
    t.fillToLevel level = some { t with entries := fill level t.entries, maxLevel := max (level + 1) t.maxLevel } ∧
    Good (max (level + 1) t.maxLevel) 0 0 (fill level t.entries) := by
  by_cases hne : t.entries = []
  · refine ⟨?_, by rw [hne, fill, Good]; trivial⟩
    simp [Tree.fillToLevel, hne, begin]
    rw [fillLoop]
    simp [finish, same, past, sibs, fill]
  · have hg := wf_good w hb
    obtain ⟨f', h1, h2, h3⟩ := fillLoop_eq (level := level) hg hne (postPos [] 0 t.entries) t.entries [] (Str.refl _ _) rfl (by simp)
    have hg' := good_str _ (Nat.le_refl _) h2 hg
    have hf : f' = fill level t.entries := by
      refine fill_eq h2 ?_
      intro up i a ha
      obtain ⟨c, hc⟩ := postPos_mem (good_wf hg').1 ha
      rw [← str_postPos _ (Nat.le_refl _) h2] at hc
      exact h3 _ hc a ha
    rw [← hf]
    refine ⟨?_, hg'⟩
    simp [Tree.fillToLevel, begin_post w hne 0 ⟨[], t.entries.length, 0⟩]
    rw [← List.headD_eq_head?_getD, h1]
    simp

theorem fill_levels {t : Tree V} (level : Nat) (w : Wf t.entries) (hl : levels t.entries t.maxLevel) (hne : t.entries ≠ []) :
    Wf (fill level t.entries) ∧ levels (fill level t.entries) (max (level + 1) t.maxLevel) := by
  have hg := (fillToLevel_eq level w hl.1).2
  obtain ⟨w', hb'⟩ := good_wf hg
  have hstr : ∃ f', Str level t.entries f' ∧ f' = fill level t.entries ∧ ∀ up i a, At f' up i a → Filled level a := by
    obtain ⟨f', h1, h2, h3⟩ := fillLoop_eq (level := level) (wf_good w hl.1) hne (postPos [] 0 t.entries) t.entries [] (Str.refl _ _) rfl (by simp)
    have hg' := good_str _ (Nat.le_refl _) h2 (wf_good w hl.1)
    have hfil : ∀ up i a, At f' up i a → Filled level a := by
      intro up i a ha
      obtain ⟨c, hc⟩ := postPos_mem (good_wf hg').1 ha
      rw [← str_postPos _ (Nat.le_refl _) h2] at hc
      exact h3 _ hc a ha
    exact ⟨f', h2, fill_eq h2 hfil, hfil⟩
  obtain ⟨f', h2, hf, hfil⟩ := hstr
  rw [← hf] at hg w' hb' ⊢
  refine ⟨w', hb', Or.inr ?_⟩
  have hne' : f' ≠ [] := fun h => hne ((str_empty h2).2 h)
  by_cases hm : t.maxLevel ≤ level
  · obtain ⟨r, up, i, e, hr, L, -⟩ := lastOf_forest w' hne'
    have h4 := hfil _ _ _ L.at' L.leaf
    have h5 := hb' _ _ _ L.at'
    have h6 := w'.depth _ _ _ L.at'
    exact ⟨up, i, e, L.at', by omega⟩
  · rcases hl.2 with h0 | ⟨up, i, e, he, h1⟩
    · omega
    · obtain ⟨e', he', hs⟩ := str_at' h2 he
      obtain ⟨a1, a2, a3, a4, a5⟩ := (Entry.str_iff _ _ _).1 hs
      refine ⟨up, i, e', he', ?_⟩
      rcases a4 with a4 | ⟨-, a4, -⟩
      · omega
      · omega

end Verif.LevelTree
