import Verif.LevelTree.LemmasAll
set_option linter.all false
namespace Verif.LevelTree
variable {V : Type}

mutual
/-- An entry at position `s` of a vector on level `l` is well formed and ends at level `n` or before. -/
def Entry.Good (n l s : Nat) : Entry V → Prop
  | .mk _ lv dp sb cs => lv = l ∧ sb = s ∧ 1 ≤ dp ∧ l + dp ≤ n ∧ Good n (l + dp) 0 cs
def Good (n l k : Nat) : List (Entry V) → Prop
  | [] => True
  | e :: es => e.Good n l k ∧ Good n l (k + 1) es
end

theorem Entry.good_iff (n l s : Nat) (e : Entry V) : e.Good n l s ↔
    e.level = l ∧ e.sib = s ∧ 1 ≤ e.depth ∧ l + e.depth ≤ n ∧ LevelTree.Good n (l + e.depth) 0 e.children := by
  cases e; rw [Entry.Good]; rfl

theorem good_cons (n l k : Nat) (e : Entry V) (es : List (Entry V)) : Good n l k (e :: es) ↔ e.Good n l k ∧ Good n l (k + 1) es := by
  rw [Good]

theorem good_get {n l : Nat} : ∀ {k : Nat} {es : List (Entry V)} {i : Nat} {e : Entry V}, Good n l k es → es[i]? = some e → e.Good n l (k + i)
  | k, e :: es, 0, e', h, h' => by
    rw [good_cons] at h
    simp at h'; subst h'; exact h.1
  | k, e :: es, i + 1, e', h, h' => by
    rw [good_cons] at h
    have := good_get h.2 (i := i) (by simpa using h')
    rwa [show k + 1 + i = k + (i + 1) by omega] at this
  | k, [], i, e', h, h' => by simp at h'

theorem good_of_get {n l : Nat} : ∀ {k : Nat} {es : List (Entry V)}, (∀ (i : Nat) (e : Entry V), es[i]? = some e → e.Good n l (k + i)) → Good n l k es
  | k, [], h => by rw [Good]; trivial
  | k, e :: es, h => by
    rw [good_cons]
    refine ⟨h 0 e rfl, good_of_get fun i e' h' => ?_⟩
    have := h (i + 1) e' (by simpa using h')
    rwa [show k + (i + 1) = k + 1 + i by omega] at this

theorem good_at {n : Nat} {f : List (Entry V)} (h : Good n 0 0 f) : ∀ (up : List Nat), ∃ l, (up = [] → l = 0) ∧ ∀ i e, At f up i e → e.Good n l i
  | [] => ⟨0, fun _ => rfl, fun i e he => by have := good_get h he; simpa using this⟩
  | j :: up => by
    obtain ⟨l, -, hl⟩ := good_at h up
    cases hj : (sibs f up)[j]? with
    | none => exact ⟨0, by simp, fun i e he => by simp [At, sibs, hj] at he⟩
    | some p =>
      have hp : At f up j p := hj
      have hg := hl j p hp
      rw [Entry.good_iff] at hg
      refine ⟨l + p.depth, by simp, fun i e he => ?_⟩
      unfold At at he
      rw [hp.sibs] at he
      have := good_get hg.2.2.2.2 he
      simpa using this

theorem good_wf {n : Nat} {f : List (Entry V)} (h : Good n 0 0 f) : Wf f ∧ ∀ up i e, At f up i e → e.level + e.depth ≤ n := by
  refine ⟨⟨?_, ?_, ?_, ?_⟩, ?_⟩
  · intro up i e he
    obtain ⟨l, -, hl⟩ := good_at h up
    exact ((Entry.good_iff _ _ _ _).1 (hl i e he)).2.1
  · intro up i e he
    obtain ⟨l, -, hl⟩ := good_at h up
    exact ((Entry.good_iff _ _ _ _).1 (hl i e he)).2.2.1
  · intro i e he
    obtain ⟨l, h0, hl⟩ := good_at h []
    rw [((Entry.good_iff _ _ _ _).1 (hl i e he)).1, h0 rfl]
  · intro up i e he c hc
    obtain ⟨l, -, hl⟩ := good_at h up
    have hg := (Entry.good_iff _ _ _ _).1 (hl i e he)
    obtain ⟨k, hk⟩ := List.mem_iff_getElem?.1 hc
    have := (Entry.good_iff _ _ _ _).1 (good_get hg.2.2.2.2 hk)
    rw [this.1, hg.1]
  · intro up i e he
    obtain ⟨l, -, hl⟩ := good_at h up
    have hg := (Entry.good_iff _ _ _ _).1 (hl i e he)
    omega

theorem wf_good {n : Nat} {f : List (Entry V)} (w : Wf f) (hb : ∀ up i e, At f up i e → e.level + e.depth ≤ n) : Good n 0 0 f := by
  have : ∀ (up : List Nat) (i : Nat) (es : List (Entry V)), Tail f up i es → ∀ l, (∀ e ∈ es, e.level = l) → Good n l i es := by
    intro up i es t
    induction t using forest_ind with
    | nil => intro l _; rw [Good]; trivial
    | cons up i e es hAt t t' ih1 ih2 =>
      intro l hl
      rw [good_cons, Entry.good_iff]
      have := hl e (by simp)
      subst this
      exact ⟨⟨rfl, w.sib _ _ _ hAt, w.depth _ _ _ hAt, hb _ _ _ hAt, ih1 _ (w.child _ _ _ hAt)⟩, ih2 _ fun e' he' => hl e' (by simp [he'])⟩
  refine this [] 0 f (Tail.start f []) 0 ?_
  intro e he
  obtain ⟨k, hk⟩ := List.mem_iff_getElem?.1 he
  exact w.root k e hk

mutual
theorem Entry.Good.mono {n n' : Nat} (hn : n ≤ n') : ∀ {e : Entry V} {l s : Nat}, e.Good n l s → e.Good n' l s
  | .mk _ _ _ _ cs, l, s, h => by
    rw [Entry.Good] at h ⊢
    exact ⟨h.1, h.2.1, h.2.2.1, by omega, Good.mono hn h.2.2.2.2⟩
theorem Good.mono {n n' : Nat} (hn : n ≤ n') : ∀ {es : List (Entry V)} {l k : Nat}, LevelTree.Good n l k es → LevelTree.Good n' l k es
  | [], l, k, h => by rw [LevelTree.Good]; trivial
  | e :: es, l, k, h => by
    rw [LevelTree.Good] at h ⊢
    exact ⟨Entry.Good.mono hn h.1, Good.mono hn h.2⟩
end

theorem good_append {n l : Nat} {k : Nat} {a b : List (Entry V)} (ha : Good n l k a) (hb : Good n l (k + a.length) b) : Good n l k (a ++ b) := by
  induction a generalizing k with
  | nil => simpa using hb
  | cons e a ih =>
    rw [good_cons] at ha
    rw [List.cons_append, good_cons]
    refine ⟨ha.1, ih ha.2 ?_⟩
    rw [List.length_cons] at hb
    rwa [show k + 1 + a.length = k + (a.length + 1) by omega]

/-! ### Changing one entry -/

inductive All₂ {α β : Type} (R : α → β → Prop) : List α → List β → Prop
  | nil : All₂ R [] []
  | cons {a : α} {b : β} {l : List α} {l' : List β} : R a b → All₂ R l l' → All₂ R (a :: l) (b :: l')

/-- Lift of a change of a child to its parent. -/
def lift (i : Nat) (g : Entry V → Entry V) : Entry V → Entry V
  | .mk d l dp s cs => .mk d l dp s (cs.modify i g)

theorem modifyAt_cons (f : List (Entry V)) (g : Entry V → Entry V) (j : Nat) (up : List Nat) (i : Nat) :
    modifyAt f g (j :: up) i = modifyAt f (lift i g) up j := rfl

theorem lift_data (i : Nat) (g : Entry V → Entry V) (e : Entry V) : (lift i g e).data = e.data := by cases e; rfl
theorem lift_level (i : Nat) (g : Entry V → Entry V) (e : Entry V) : (lift i g e).level = e.level := by cases e; rfl
theorem lift_depth (i : Nat) (g : Entry V → Entry V) (e : Entry V) : (lift i g e).depth = e.depth := by cases e; rfl
theorem lift_sib (i : Nat) (g : Entry V → Entry V) (e : Entry V) : (lift i g e).sib = e.sib := by cases e; rfl
theorem lift_children (i : Nat) (g : Entry V → Entry V) (e : Entry V) : (lift i g e).children = e.children.modify i g := by cases e; rfl

theorem sibs_modifyAt (f : List (Entry V)) : ∀ (g : Entry V → Entry V) (up : List Nat) (i : Nat),
    sibs (modifyAt f g up i) up = (sibs f up).modify i g
  | g, [], i => rfl
  | g, j :: up, i => by
    rw [modifyAt_cons, sibs, sibs_modifyAt f (lift i g) up j, sibs, List.getElem?_modify_eq]
    cases (sibs f up)[j]? with
    | none => simp
    | some p => simp [lift_children]

theorem at_modifyAt {f : List (Entry V)} {g : Entry V → Entry V} {up : List Nat} {i : Nat} {e : Entry V} (h : At f up i e) :
    At (modifyAt f g up i) up i (g e) := by
  unfold At at *
  rw [sibs_modifyAt, List.getElem?_modify_eq, h]; rfl

/-- A relation between an entry and its changed version that lifts to parents holds between the forests. -/
theorem modifyAt_rel (R : Entry V → Entry V → Prop) (refl : ∀ e, R e e)
    (hl : ∀ (i : Nat) (g : Entry V → Entry V) (p : Entry V), (∀ c, p.children[i]? = some c → R c (g c)) → R p (lift i g p))
    {f : List (Entry V)} : ∀ {up : List Nat} {g : Entry V → Entry V} {i : Nat}, (∀ e, At f up i e → R e (g e)) →
    All₂ R f (modifyAt f g up i)
  | [], g, i, h => by
    have : ∀ (es : List (Entry V)) (i : Nat), (∀ e, es[i]? = some e → R e (g e)) → All₂ R es (es.modify i g) := by
      intro es
      induction es with
      | nil => intro i _; simp; exact All₂.nil
      | cons e es ih =>
        intro i h
        cases i with
        | zero =>
          refine All₂.cons (h e rfl) ?_
          have : ∀ es : List (Entry V), All₂ R es es := by
            intro es; induction es with
            | nil => exact All₂.nil
            | cons e es ih => exact All₂.cons (refl e) ih
          exact this es
        | succ i => exact All₂.cons (refl e) (ih i fun e' he' => h e' (by simpa using he'))
    exact this f i h
  | j :: up, g, i, h => by
    rw [modifyAt_cons]
    exact modifyAt_rel R refl hl fun p hp => hl i g p fun c hc => h c (hp.child hc)

theorem forall₂_get {α β : Type} {R : α → β → Prop} : ∀ {a : List α} {b : List β}, All₂ R a b → ∀ (i : Nat) (y : β), b[i]? = some y →
    ∃ x, a[i]? = some x ∧ R x y
  | _, _, .nil, i, y, h => by simp at h
  | _, _, .cons (a := x) h1 h2, 0, y, h => by simp at h; subst h; exact ⟨x, rfl, h1⟩
  | _, _, .cons h1 h2, i + 1, y, h => by
    have := forall₂_get h2 i y (by simpa using h)
    simpa using this

theorem forall₂_get' {α β : Type} {R : α → β → Prop} : ∀ {a : List α} {b : List β}, All₂ R a b → ∀ (i : Nat) (x : α), a[i]? = some x →
    ∃ y, b[i]? = some y ∧ R x y
  | _, _, .nil, i, y, h => by simp at h
  | _, _, .cons (b := y) h1 h2, 0, x, h => by simp at h; subst h; exact ⟨y, rfl, h1⟩
  | _, _, .cons h1 h2, i + 1, x, h => by
    have := forall₂_get' h2 i x (by simpa using h)
    simpa using this

/-- A change that keeps an entry good keeps the forest good. -/
theorem good_modifyAt {n : Nat} {f : List (Entry V)} {g : Entry V → Entry V} {up : List Nat} {i : Nat} (hf : Good n 0 0 f)
    (h : ∀ e, At f up i e → ∀ l s, e.Good n l s → (g e).Good n l s) : Good n 0 0 (modifyAt f g up i) := by
  have := modifyAt_rel (fun e e' => ∀ l s, e.Good n l s → e'.Good n l s) (fun e l s h => h) (by
    intro i g p hp l s hg
    rw [Entry.good_iff] at hg ⊢
    simp only [lift_level, lift_sib, lift_depth, lift_children]
    refine ⟨hg.1, hg.2.1, hg.2.2.1, hg.2.2.2.1, good_of_get ?_⟩
    intro k c hc
    rw [List.getElem?_modify] at hc
    cases hk : p.children[k]? with
    | none => rw [hk] at hc; simp at hc
    | some c0 =>
      rw [hk] at hc
      have h0 := good_get hg.2.2.2.2 hk
      by_cases hik : i = k
      · subst hik
        simp at hc; subst hc
        exact hp c0 hk _ _ h0
      · simp [hik] at hc; subst hc; exact h0) h
  refine good_of_get fun k e he => ?_
  obtain ⟨e0, he0, hR⟩ := forall₂_get this k e he
  exact hR _ _ (good_get hf he0)

/-- A change that leaves an entry on a level, if there was one, does so for the forest. -/
theorem onLevel_modifyAt {level : Nat} {f : List (Entry V)} {g : Entry V → Entry V} {up : List Nat} {i : Nat}
    (h : ∀ e, At f up i e → e.onLevel level ≠ [] → (g e).onLevel level ≠ []) (hf : onLevel level f ≠ []) :
    onLevel level (modifyAt f g up i) ≠ [] := by
  have hcons : ∀ es : List (Entry V), onLevel level es ≠ [] ↔ ∃ (k : Nat) (e : Entry V), es[k]? = some e ∧ e.onLevel level ≠ [] := by
    intro es
    induction es with
    | nil => simp [onLevel]
    | cons e es ih =>
      rw [onLevel, Ne, List.append_eq_nil_iff, Classical.not_and_iff_not_or_not]
      constructor
      · rintro (h | h)
        · exact ⟨0, e, rfl, h⟩
        · obtain ⟨k, e', h1, h2⟩ := ih.1 h
          exact ⟨k + 1, e', by simpa using h1, h2⟩
      · rintro ⟨k, e', h1, h2⟩
        cases k with
        | zero => left; simp at h1; subst h1; exact h2
        | succ k => right; exact ih.2 ⟨k, e', by simpa using h1, h2⟩
  have hE : ∀ e : Entry V, e.onLevel level = (if e.level ≤ level ∧ level < e.level + e.depth then [e.data] else []) ++ onLevel level e.children := by
    intro e; cases e; rw [Entry.onLevel]; rfl
  have := modifyAt_rel (fun e e' => e.onLevel level ≠ [] → e'.onLevel level ≠ []) (fun e h => h) (by
    intro i g p hp h0
    rw [hE] at h0 ⊢
    simp only [lift_level, lift_depth, lift_data, lift_children]
    rw [Ne, List.append_eq_nil_iff, Classical.not_and_iff_not_or_not] at h0 ⊢
    rcases h0 with h0 | h0
    · left; exact h0
    · right
      obtain ⟨k, e, h1, h2⟩ := (hcons _).1 h0
      refine (hcons _).2 ?_
      by_cases hik : i = k
      · subst hik
        exact ⟨i, g e, by simp [h1], hp e h1 h2⟩
      · exact ⟨k, e, by simp [List.getElem?_modify, hik, h1], h2⟩) h
  obtain ⟨k, e, h1, h2⟩ := (hcons _).1 hf
  obtain ⟨e', h3, h4⟩ := forall₂_get' this k e h1
  exact (hcons _).2 ⟨k, e', h3, h4 h2⟩

/-! ### The exact number of levels -/

theorem levels_iff {f : List (Entry V)} {n : Nat} : (Wf f ∧ levels f n) ↔ (Good n 0 0 f ∧ (n = 0 ∨ onLevel (n - 1) f ≠ [])) := by
  constructor
  · rintro ⟨w, h1, h2⟩
    refine ⟨wf_good w h1, ?_⟩
    by_cases hn : n = 0
    · exact Or.inl hn
    · right
      rcases h2 with h2 | ⟨up, i, e, he, h3⟩
      · exact absurd h2 hn
      · exact (onLevel_ne_iff w _).2 ⟨up, i, e, he, by omega⟩
  · rintro ⟨hg, h⟩
    obtain ⟨w, hb⟩ := good_wf hg
    refine ⟨w, hb, ?_⟩
    rcases h with h | h
    · exact Or.inl h
    · obtain ⟨up, i, e, he, h3⟩ := (onLevel_ne_iff w _).1 h
      right
      exact ⟨up, i, e, he, by have := hb _ _ _ he; omega⟩

theorem levels_zero {f : List (Entry V)} (w : Wf f) (h : levels f 0) : f = [] := by
  cases f with
  | nil => rfl
  | cons e es =>
    have hAt : At (e :: es) [] 0 e := rfl
    have := h.1 _ _ _ hAt
    have := w.depth _ _ _ hAt
    omega

theorem addChild_eq (v : V) (e : Entry V) : (e.addChild v).level = e.level ∧ (e.addChild v).depth = e.depth ∧ (e.addChild v).sib = e.sib ∧
    (e.addChild v).data = e.data ∧ (e.addChild v).children = e.children ++ [.mk v (e.level + e.depth) 1 e.children.length []] := by
  cases e; exact ⟨rfl, rfl, rfl, rfl, rfl⟩

theorem good_addChild {n l s : Nat} {v : V} {e : Entry V} (hn : e.level + e.depth + 1 ≤ n) (h : e.Good n l s) : (e.addChild v).Good n l s := by
  rw [Entry.good_iff] at h ⊢
  obtain ⟨h1, h2, h3, -, h4⟩ := addChild_eq v e
  rw [h1, h2, h3, h4]
  refine ⟨h.1, h.2.1, h.2.2.1, h.2.2.2.1, good_append h.2.2.2.2 ?_⟩
  rw [good_cons, Entry.Good]
  refine ⟨⟨by rw [h.1], by omega, by omega, by rw [← h.1]; omega, ?_⟩, ?_⟩ <;> rw [Good] <;> trivial

theorem addChildren_nil (e : Entry V) : e.addChildren [] = e := rfl
theorem addChildren_cons (v : V) (vs : List V) (e : Entry V) : e.addChildren (v :: vs) = (e.addChild v).addChildren vs := rfl

theorem good_addChildren {n l s : Nat} {vs : List V} {e : Entry V} (hn : vs ≠ [] → e.level + e.depth + 1 ≤ n) (h : e.Good n l s) : (e.addChildren vs).Good n l s := by
  induction vs generalizing e with
  | nil => exact h
  | cons v vs ih =>
    rw [addChildren_cons]
    obtain ⟨h1, h2, -⟩ := addChild_eq v e
    exact ih (fun _ => by rw [h1, h2]; exact hn (by simp)) (good_addChild (hn (by simp)) h)

theorem addChildren_eq (vs : List V) (e : Entry V) : (e.addChildren vs).level = e.level ∧ (e.addChildren vs).depth = e.depth ∧
    (e.addChildren vs).children.take e.children.length = e.children ∧ (e.addChildren vs).children.length = e.children.length + vs.length ∧
    (vs ≠ [] → ∃ c, (e.addChildren vs).children.getLast? = some c ∧ c.level = e.level + e.depth ∧ c.depth = 1) := by
  induction vs generalizing e with
  | nil => simp [addChildren_nil]
  | cons v vs ih =>
    rw [addChildren_cons]
    obtain ⟨h1, h2, h3, h4, h5⟩ := addChild_eq v e
    obtain ⟨i1, i2, i3, i4, i5⟩ := ih (e.addChild v)
    rw [h1, h2] at *
    rw [h5] at i3 i4
    refine ⟨i1, i2, ?_, by rw [i4]; simp; omega, ?_⟩
    · have := congrArg (List.take e.children.length) i3
      rw [List.take_take] at this
      simpa using this
    · intro _
      cases vs with
      | nil => rw [addChildren_nil, h5]; exact ⟨.mk v (e.level + e.depth) 1 e.children.length [], by simp, rfl, rfl⟩
      | cons v' vs => exact i5 (by simp)

theorem onLevel_entry (level : Nat) (e : Entry V) : e.onLevel level ≠ [] ↔
    (e.level ≤ level ∧ level < e.level + e.depth) ∨ ∃ (k : Nat) (c : Entry V), e.children[k]? = some c ∧ c.onLevel level ≠ [] := by
  have hcons : ∀ es : List (Entry V), onLevel level es ≠ [] ↔ ∃ (k : Nat) (e : Entry V), es[k]? = some e ∧ e.onLevel level ≠ [] := by
    intro es
    induction es with
    | nil => simp [onLevel]
    | cons e es ih =>
      rw [onLevel, Ne, List.append_eq_nil_iff, Classical.not_and_iff_not_or_not]
      constructor
      · rintro (h | h)
        · exact ⟨0, e, rfl, h⟩
        · obtain ⟨k, e', h1, h2⟩ := ih.1 h
          exact ⟨k + 1, e', by simpa using h1, h2⟩
      · rintro ⟨k, e', h1, h2⟩
        cases k with
        | zero => left; simp at h1; subst h1; exact h2
        | succ k => right; exact ih.2 ⟨k, e', by simpa using h1, h2⟩
  have hE : e.onLevel level = (if e.level ≤ level ∧ level < e.level + e.depth then [e.data] else []) ++ onLevel level e.children := by
    cases e; rw [Entry.onLevel]; rfl
  rw [hE, Ne, List.append_eq_nil_iff, Classical.not_and_iff_not_or_not]
  refine or_congr ?_ (hcons _)
  split <;> simp_all

/-- Levels stay occupied when an entry gets new children. -/
theorem onLevel_addChildren {level : Nat} {vs : List V} {e : Entry V} (h : e.onLevel level ≠ []) : (e.addChildren vs).onLevel level ≠ [] := by
  obtain ⟨i1, i2, i3, i4, -⟩ := addChildren_eq vs e
  rw [onLevel_entry] at h ⊢
  rw [i1, i2]
  rcases h with h | ⟨k, c, h1, h2⟩
  · exact Or.inl h
  · refine Or.inr ⟨k, c, ?_, h2⟩
    have hlt := (List.getElem?_eq_some_iff.1 h1).1
    rw [← i3, List.getElem?_take] at h1
    simpa [hlt] using h1

/-- Adding children keeps the number of levels exact. -/
theorem levels_add {f : List (Entry V)} {n : Nat} {g : Entry V → Entry V} {up : List Nat} {i m : Nat} {e : Entry V} (he : At f up i e)
    (w : Wf f) (hl : levels f n)
    (hgood : ∀ l s, e.Good (max m n) l s → (g e).Good (max m n) l s) (hlev : ∀ k, e.onLevel k ≠ [] → (g e).onLevel k ≠ [])
    (hm : ∃ (k : Nat) (c : Entry V), (g e).children[k]? = some c ∧ c.level + c.depth = m ∧ 1 ≤ c.depth) :
    Wf (modifyAt f g up i) ∧ levels (modifyAt f g up i) (max m n) := by
  obtain ⟨hg, h1⟩ := levels_iff.1 ⟨w, hl⟩
  have hg' : Good (max m n) 0 0 (modifyAt f g up i) :=
    good_modifyAt (Good.mono (by omega) hg) fun e' he' => by cases he.inj he'; exact hgood
  refine levels_iff.2 ⟨hg', Or.inr ?_⟩
  obtain ⟨w', hb'⟩ := good_wf hg'
  by_cases hmn : n ≤ m
  · obtain ⟨k, c, hc, h2, h3⟩ := hm
    rw [onLevel_ne_iff w']
    exact ⟨_, _, c, (at_modifyAt he).child hc, by omega⟩
  · have hn : max m n = n := by omega
    rw [hn]
    rcases h1 with h1 | h1
    · omega
    · exact onLevel_modifyAt (fun e' he' => by cases he.inj he'; exact hlev _) h1

theorem getLast_idx {α : Type} {l : List α} {c : α} (h : l.getLast? = some c) : l[l.length - 1]? = some c := by
  rwa [List.getLast?_eq_getElem?] at h

theorem addChildren_levels {t t' : Tree V} {it : Iter} {vs : List V} (w : Wf t.entries) (hl : levels t.entries t.maxLevel)
    (h : t.addChildren it vs = some t') : Wf t'.entries ∧ levels t'.entries t'.maxLevel := by
  unfold Tree.addChildren at h
  cases he : deref t.entries it with
  | none => rw [he] at h; simp at h
  | some e =>
    have hAt : At t.entries it.up it.idx e := he
    have hg : At (modifyAt t.entries (fun e => e.addChildren vs) it.up it.idx) it.up it.idx (e.addChildren vs) := at_modifyAt (g := fun e => e.addChildren vs) hAt
    have hd : deref (modifyAt t.entries (fun e => e.addChildren vs) it.up it.idx) it = some (e.addChildren vs) := hg
    rw [he] at h
    simp only [Option.bind_eq_bind, Option.bind_some, hd] at h
    cases hc : (e.addChildren vs).children.getLast? with
    | none => rw [hc] at h; simp at h
    | some c =>
      rw [hc] at h
      simp only [Option.bind_some, Option.some.injEq] at h
      subst h
      obtain ⟨i1, i2, i3, i4, i5⟩ := addChildren_eq vs e
      have hb := fun l s (hgd : e.Good (max (c.depth + c.level) t.maxLevel) l s) =>
        good_addChildren (vs := vs) (n := max (c.depth + c.level) t.maxLevel) (e := e) (fun hv => by
          obtain ⟨c', h1, h2, h3⟩ := i5 hv
          rw [hc] at h1; cases h1
          omega) hgd
      have hcd : 1 ≤ c.depth := by
        by_cases hv : vs = []
        · subst hv
          have hc' : e.children.getLast? = some c := hc
          exact w.depth _ _ _ (hAt.child (getLast_idx hc'))
        · obtain ⟨c', h1, h2, h3⟩ := i5 hv
          rw [hc] at h1; cases h1; omega
      exact levels_add (g := fun e => e.addChildren vs) hAt w hl hb (fun k hk => onLevel_addChildren hk) ⟨_, c, getLast_idx hc, by omega, hcd⟩

theorem addChild_children (v : V) : (fun e : Entry V => e.addChild v) = fun e => e.addChildren [v] := rfl

theorem addChild_as {t : Tree V} {it : Iter} {v : V} : t.addChild it v = t.addChildren it [v] := rfl

theorem addChildrenAt_levels {t t' : Tree V} {it : Iter} {vs : List V} {level : Nat} (w : Wf t.entries) (hl : levels t.entries t.maxLevel)
    (hok : ∀ p, deref t.entries it = some p → p.level + p.depth = level ∨ (p.children = [] ∧ p.level + p.depth ≤ level))
    (h : t.addChildrenAt it vs level = some t') : Wf t'.entries ∧ levels t'.entries t'.maxLevel := by
  unfold Tree.addChildrenAt at h
  cases he : deref t.entries it with
  | none => rw [he] at h; simp at h
  | some e =>
    have hAt : At t.entries it.up it.idx e := he
    have hok := hok e he
    have hd0 := w.depth _ _ _ hAt
    have hlt : e.level < level := by omega
    have hg : At (modifyAt t.entries (fun e' => (e'.setDepth (level - e.level)).addChildren vs) it.up it.idx) it.up it.idx
      ((e.setDepth (level - e.level)).addChildren vs) := at_modifyAt (g := fun e' => (e'.setDepth (level - e.level)).addChildren vs) hAt
    have hd : deref (modifyAt t.entries (fun e' => (e'.setDepth (level - e.level)).addChildren vs) it.up it.idx) it =
      some ((e.setDepth (level - e.level)).addChildren vs) := hg
    rw [he] at h
    simp only [Option.bind_eq_bind, Option.bind_some, hd, hlt, if_true] at h
    obtain ⟨s1, s2, s3, s4⟩ : (e.setDepth (level - e.level)).level = e.level ∧ (e.setDepth (level - e.level)).depth = level - e.level ∧
      (e.setDepth (level - e.level)).children = e.children ∧ (e.setDepth (level - e.level)).sib = e.sib := by cases e; exact ⟨rfl, rfl, rfl, rfl⟩
    obtain ⟨i1, i2, i3, i4, i5⟩ := addChildren_eq vs (e.setDepth (level - e.level))
    cases hc : ((e.setDepth (level - e.level)).addChildren vs).children.getLast? with
    | none => rw [hc] at h; simp at h
    | some c =>
      rw [hc] at h
      simp only [Option.bind_some, Option.some.injEq] at h
      subst h
      have hcl : level < c.depth + c.level ∧ 1 ≤ c.depth := by
        by_cases hv : vs = []
        · subst hv
          have hc' : e.children.getLast? = some c := by rw [← s3]; exact hc
          have hcm := List.mem_of_getLast? hc'
          have h1 := w.depth _ _ _ (hAt.child (getLast_idx hc'))
          have h2 := w.child _ _ _ hAt c hcm
          rcases hok with h3 | ⟨h3, -⟩
          · omega
          · rw [h3] at hcm; simp at hcm
        · obtain ⟨c', h1, h2, h3⟩ := i5 hv
          rw [hc] at h1; cases h1; omega
      refine levels_add (g := fun e' => (e'.setDepth (level - e.level)).addChildren vs) hAt w hl ?_ ?_ ⟨_, c, getLast_idx hc, by omega, hcl.2⟩
      · intro l s hgd
        refine good_addChildren (fun _ => by omega) ?_
        rw [Entry.good_iff] at hgd ⊢
        rw [s1, s2, s3, s4]
        have h1 := hgd.1
        refine ⟨hgd.1, hgd.2.1, by omega, by omega, ?_⟩
        rcases hok with h3 | ⟨h3, -⟩
        · have : l + (level - e.level) = l + e.depth := by omega
          rw [this]; exact hgd.2.2.2.2
        · rw [h3, Good]; trivial
      · intro k hk
        refine onLevel_addChildren ?_
        rw [onLevel_entry] at hk ⊢
        rw [s1, s2, s3]
        rcases hk with hk | hk
        · left; omega
        · exact Or.inr hk

theorem addChildAt_as {t : Tree V} {it : Iter} {v : V} {level : Nat} : t.addChildAt it v level = t.addChildrenAt it [v] level := rfl

theorem addRoot_levels {t : Tree V} (v : V) (w : Wf t.entries) (hl : levels t.entries t.maxLevel) :
    Wf (t.addRootEntry v).entries ∧ levels (t.addRootEntry v).entries (t.addRootEntry v).maxLevel := by
  obtain ⟨hg, h1⟩ := levels_iff.1 ⟨w, hl⟩
  refine levels_iff.2 ⟨?_, Or.inr ?_⟩
  · refine good_append (Good.mono (by simp [Tree.addRootEntry]; omega) hg) ?_
    rw [good_cons, Entry.Good]
    refine ⟨⟨rfl, by omega, by omega, by simp [Tree.addRootEntry]; omega, ?_⟩, ?_⟩ <;> rw [Good] <;> trivial
  · have happ : ∀ (k : Nat) (a b : List (Entry V)), onLevel k (a ++ b) = onLevel k a ++ onLevel k b := by
      intro k a b
      induction a with
      | nil => simp [onLevel]
      | cons e a ih => rw [List.cons_append, onLevel, onLevel, ih, List.append_assoc]
    simp only [Tree.addRootEntry, happ, Ne, List.append_eq_nil_iff, Classical.not_and_iff_not_or_not]
    by_cases hn : t.maxLevel ≤ 1
    · right
      have : max 1 t.maxLevel - 1 = 0 := by omega
      simp [this, onLevel, Entry.onLevel]
    · left
      have : max 1 t.maxLevel - 1 = t.maxLevel - 1 := by omega
      rw [this]
      rcases h1 with h1 | h1
      · omega
      · exact h1

theorem shrink_eq {f : List (Entry V)} (w : Wf f) (hne : f ≠ []) (n : Nat) : Good n 0 0 f → ∃ k, shrink f n = some k ∧ k ≤ n ∧ levels f k := by
  obtain ⟨r, up', i', e', hr, L, hll, h3, h2, hz⟩ := first_eq w hne
  have hp : past f ⟨up', i' + 1, 0⟩ = true := by simp [past, h3]
  have hcond : ∀ l, (do
      let e ← f[0]?
      let it ← moveDownToLevelBegin f (l - 1) ⟨[], e.sib, 0⟩
      some (past f it) : Option Bool) = some (decide (onLevel (l - 1) f = [])) := by
    intro l
    obtain ⟨e0, es, rfl⟩ := List.exists_cons_of_ne_nil hne
    have h0 : At (e0 :: es) [] 0 e0 := rfl
    simp only [List.getElem?_cons_zero, Option.bind_eq_bind, Option.bind_some, w.sib _ _ _ h0, hz]
    cases hpl : posLevel (l - 1) [] 0 (e0 :: es) with
    | nil => simp [hp, onLevel_nil_iff, hpl]
    | cons p q =>
      obtain ⟨e, he, -⟩ := posLevel_at (level := l - 1) (Tail.start (e0 :: es) []) p (by change p ∈ posLevel (l - 1) [] 0 (e0 :: es); rw [hpl]; simp)
      have hpp : past (e0 :: es) p = false := he.past p.counter
      have : onLevel (l - 1) (e0 :: es) ≠ [] := by rw [Ne, onLevel_nil_iff, hpl]; simp
      simp [hpp, this]
  induction n with
  | zero =>
    intro hg
    obtain ⟨e0, es, rfl⟩ := List.exists_cons_of_ne_nil hne
    have := (good_wf hg).2 [] 0 e0 rfl
    have := w.depth [] 0 e0 rfl
    omega
  | succ n ih =>
    intro hg
    by_cases h0 : onLevel n f = []
    · have hg' : Good n 0 0 f := by
        refine wf_good w ?_
        intro up i e he
        have h1 := (good_wf hg).2 _ _ _ he
        by_cases h4 : e.level + e.depth ≤ n
        · exact h4
        · exfalso
          exact (onLevel_ne_iff w n).2 ⟨up, i, e, he, by omega⟩ h0
      obtain ⟨k, h1, h4, h5⟩ := ih hg'
      refine ⟨k, ?_, by omega, h5⟩
      rw [← h1]
      unfold shrink
      refine whileM_true ?_ (by simp)
      rw [hcond]; simp [h0]
    · refine ⟨n + 1, ?_, Nat.le_refl _, (levels_iff.2 ⟨hg, Or.inr (by simpa using h0)⟩).2⟩
      unfold shrink
      refine whileM_false ?_
      rw [hcond]; simp [h0]

theorem erase_eq {t : Tree V} {it : Iter} {e : Entry V} (w : Wf t.entries) (hb : ∀ up i e, At t.entries up i e → e.level + e.depth ≤ t.maxLevel)
    (he : deref t.entries it = some e) : ∃ k, t.eraseChilds it =
      some { t with entries := modifyAt t.entries Entry.removeChildren it.up it.idx, maxLevel := k } ∧
      Wf (modifyAt t.entries Entry.removeChildren it.up it.idx) ∧ levels (modifyAt t.entries Entry.removeChildren it.up it.idx) k := by
  have hAt : At t.entries it.up it.idx e := he
  have hg := wf_good w hb
  have hg' : Good t.maxLevel 0 0 (modifyAt t.entries Entry.removeChildren it.up it.idx) := by
    refine good_modifyAt hg ?_
    intro e' he' l s hgd
    cases e'
    rw [Entry.Good] at hgd
    simp only [Entry.removeChildren]
    rw [Entry.Good]
    refine ⟨hgd.1, hgd.2.1, by omega, by omega, ?_⟩
    rw [Good]; trivial
  have hne : modifyAt t.entries Entry.removeChildren it.up it.idx ≠ [] := by
    intro h0
    have := at_modifyAt (g := Entry.removeChildren) hAt
    rw [h0] at this
    have hs : ∀ up : List Nat, sibs ([] : List (Entry V)) up = [] := by
      intro up
      induction up with
      | nil => rfl
      | cons j up ih => simp [sibs, ih]
    simp [At, hs] at this
  obtain ⟨k, h1, h2, h3⟩ := shrink_eq (good_wf hg').1 hne _ hg'
  exact ⟨k, by simp [Tree.eraseChilds, he, h1], (good_wf hg').1, h3⟩

end Verif.LevelTree
