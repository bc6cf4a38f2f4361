import Verif.Assembly.LemmasSum
set_option linter.all false
namespace Verif.Assembly
open GlobalIndexing
open Function (update)

/-- `y` is `x` with the unknowns of the objects in `S` added. -/
structure Ext (m : Mesh) (rows : Bool) (rank : Nat) (st : Obj → Nat → Nat) (x y : Side) (S : Obj → Nat → Prop) : Prop where
  owned : ∀ u k, k ∈ y.owned u ↔ k ∈ x.owned u ∨ ∃ o, S o u ∧ m.count o u ≠ 0 ∧ ownsObj m rank o = true ∧
    k = toLex (st o u, m.count o u)
  nonOwned : ∀ u k, k ∈ y.nonOwned u ↔ k ∈ x.nonOwned u ∨ (rows = false ∧ ∃ o, S o u ∧ m.count o u ≠ 0 ∧
    ownsObj m rank o = false ∧ k = toLex (st o u, m.count o u))
  only : ∀ u, y.onlyElement u = false ↔ x.onlyElement u = false ∨ ∃ o, S o u ∧ m.count o u ≠ 0 ∧ o.kind ≠ .element

section
variable {m : Mesh} {rows : Bool} {rank : Nat} {st : Obj → Nat → Nat}

theorem Ext.refl (x : Side) : Ext m rows rank st x x (fun _ _ => False) := by
  constructor <;> simp

theorem Ext.trans {x y z : Side} {S T} (h1 : Ext m rows rank st x y S) (h2 : Ext m rows rank st y z T) :
    Ext m rows rank st x z (fun o u => S o u ∨ T o u) := by
  constructor
  · intro u k
    rw [h2.owned, h1.owned]
    constructor
    · rintro ((h | ⟨o, h, r⟩) | ⟨o, h, r⟩)
      · exact .inl h
      · exact .inr ⟨o, .inl h, r⟩
      · exact .inr ⟨o, .inr h, r⟩
    · rintro (h | ⟨o, h | h, r⟩)
      · exact .inl (.inl h)
      · exact .inl (.inr ⟨o, h, r⟩)
      · exact .inr ⟨o, h, r⟩
  · intro u k
    rw [h2.nonOwned, h1.nonOwned]
    constructor
    · rintro ((h | ⟨hr, o, h, r⟩) | ⟨hr, o, h, r⟩)
      · exact .inl h
      · exact .inr ⟨hr, o, .inl h, r⟩
      · exact .inr ⟨hr, o, .inr h, r⟩
    · rintro (h | ⟨hr, o, h | h, r⟩)
      · exact .inl (.inl h)
      · exact .inl (.inr ⟨hr, o, h, r⟩)
      · exact .inr ⟨hr, o, h, r⟩
  · intro u
    rw [h2.only, h1.only]
    constructor
    · rintro ((h | ⟨o, h, r⟩) | ⟨o, h, r⟩)
      · exact .inl h
      · exact .inr ⟨o, .inl h, r⟩
      · exact .inr ⟨o, .inr h, r⟩
    · rintro (h | ⟨o, h | h, r⟩)
      · exact .inl (.inl h)
      · exact .inl (.inr ⟨o, h, r⟩)
      · exact .inr ⟨o, h, r⟩

theorem Ext.congr {x y : Side} {S T : Obj → Nat → Prop} (h : Ext m rows rank st x y S) (hST : ∀ o u, S o u ↔ T o u) :
    Ext m rows rank st x y T := by
  have : S = T := by ext o u; exact hST o u
  rwa [← this]

variable {s : State}

/-- The index of the object is known where it is needed. -/
def Known (m : Mesh) (s : State) (rows : Bool) (rank : Nat) (st : Obj → Nat → Nat) (o : Obj) (u : Nat) : Prop :=
  m.count o u ≠ 0 → (rows = true → ownsObj m rank o = true) →
    (if rows then (s.getProcessorLocalIndex o u).map Int.toNat else s.getGlobalIndex o u) = some (st o u)

theorem addUnknown_eq (m : Mesh) (s : State) (rows : Bool) (rank : Nat) (o : Obj) (x : Side) (u : Nat) (hc : m.count o u ≠ 0) :
    addUnknown m s rows rank o x u =
    if rows && !ownsObj m rank o then
      some (if o.kind ≠ .element then { x with onlyElement := update x.onlyElement u false } else x)
    else (if rows then (s.getProcessorLocalIndex o u).map Int.toNat else s.getGlobalIndex o u).bind fun start =>
      if ownsObj m rank o then
        some { (if o.kind ≠ .element then { x with onlyElement := update x.onlyElement u false } else x) with
          owned := update (if o.kind ≠ .element then { x with onlyElement := update x.onlyElement u false } else x).owned u
            (insert (toLex (start, m.count o u)) ((if o.kind ≠ .element then { x with onlyElement := update x.onlyElement u false } else x).owned u)) }
      else some { (if o.kind ≠ .element then { x with onlyElement := update x.onlyElement u false } else x) with
        nonOwned := update (if o.kind ≠ .element then { x with onlyElement := update x.onlyElement u false } else x).nonOwned u
          (insert (toLex (start, m.count o u)) ((if o.kind ≠ .element then { x with onlyElement := update x.onlyElement u false } else x).nonOwned u)) } := by
  unfold addUnknown
  rw [if_neg hc]
  cases rows <;> rfl

theorem addUnknown_ext (o : Obj) (x : Side) (u : Nat) (hk : Known m s rows rank st o u) :
    ∃ y, addUnknown m s rows rank o x u = some y ∧ Ext m rows rank st x y (fun o' u' => o' = o ∧ u' = u) := by
  by_cases hc : m.count o u = 0
  · refine ⟨x, by simp [addUnknown, hc], ?_⟩
    constructor <;> intros <;> constructor
    all_goals first | exact Or.inl | skip
    · rintro (h | ⟨o', ⟨rfl, rfl⟩, h, _⟩); exacts [h, absurd hc h]
    · rintro (h | ⟨_, o', ⟨rfl, rfl⟩, h, _⟩); exacts [h, absurd hc h]
    · rintro (h | ⟨o', ⟨rfl, rfl⟩, h, _⟩); exacts [h, absurd hc h]
  rw [addUnknown_eq _ _ _ _ _ _ _ hc]
  set x' : Side := if o.kind ≠ .element then { x with onlyElement := update x.onlyElement u false } else x with hx'
  have e1 : x'.owned = x.owned := by rw [hx']; split_ifs <;> rfl
  have e2 : x'.nonOwned = x.nonOwned := by rw [hx']; split_ifs <;> rfl
  have e3 : ∀ u', x'.onlyElement u' = false ↔ x.onlyElement u' = false ∨ ∃ o', (o' = o ∧ u' = u) ∧ m.count o' u' ≠ 0 ∧ o'.kind ≠ .element := by
    intro u'
    rw [hx']
    by_cases hki : o.kind = .element
    · simp only [hki, ne_eq, not_true_eq_false, if_false]
      constructor
      · exact .inl
      · rintro (h | ⟨o', ⟨rfl, rfl⟩, _, h⟩); exacts [h, absurd hki h]
    · rw [if_pos hki]
      by_cases hu : u' = u
      · subst hu; simp only [Function.update_self, true_iff]; exact .inr ⟨o, ⟨rfl, trivial⟩, hc, hki⟩
      · simp only [Function.update_of_ne hu]
        constructor
        · exact .inl
        · rintro (h | ⟨o', ⟨rfl, rfl⟩, _, h⟩); exacts [h, absurd rfl hu]
  clear_value x'
  cases ho : ownsObj m rank o with
  | true =>
    have := hk hc (fun _ => ho)
    simp only [Bool.not_true, Bool.and_false, Bool.false_eq_true, if_false, this, Option.bind_some, if_true]
    refine ⟨_, rfl, ?_, ?_, ?_⟩
    · intro u' k
      by_cases hu : u' = u
      · subst hu
        simp only [Function.update_self, Finset.mem_insert, e1]
        constructor
        · rintro (rfl | h); exacts [.inr ⟨o, ⟨rfl, trivial⟩, hc, ho, rfl⟩, .inl h]
        · rintro (h | ⟨o', ⟨rfl, _⟩, _, _, rfl⟩); exacts [.inr h, .inl rfl]
      · simp only [Function.update_of_ne hu, e1]
        constructor
        · exact .inl
        · rintro (h | ⟨o', ⟨_, h⟩, _⟩); exacts [h, absurd h hu]
    · intro u' k
      simp only [e2]
      constructor
      · exact .inl
      · rintro (h | ⟨_, o', ⟨rfl, _⟩, _, h, _⟩); exacts [h, absurd h (by simp [ho])]
    · exact e3
  | false =>
    cases hr : rows with
    | true =>
      simp only [Bool.not_false, Bool.and_true, if_true]
      refine ⟨_, rfl, ?_, ?_, e3⟩
      · intro u' k
        rw [e1]
        constructor
        · exact .inl
        · rintro (h | ⟨o', ⟨rfl, _⟩, _, h, _⟩); exacts [h, absurd h (by simp [ho])]
      · intro u' k
        rw [e2]; simp
    | false =>
      have := hk hc (by simp [hr])
      rw [hr] at this
      simp only [Bool.false_eq_true, if_false] at this
      simp only [Bool.false_and, Bool.false_eq_true, if_false, this, Option.bind_some]
      refine ⟨_, rfl, ?_, ?_, e3⟩
      · intro u' k
        simp only [e1]
        constructor
        · exact .inl
        · rintro (h | ⟨o', ⟨rfl, _⟩, _, h, _⟩); exacts [h, absurd h (by simp [ho])]
      · intro u' k
        by_cases hu : u' = u
        · subst hu
          simp only [Function.update_self, Finset.mem_insert, e2]
          constructor
          · rintro (rfl | h); exacts [.inr ⟨trivial, o, ⟨rfl, trivial⟩, hc, ho, rfl⟩, .inl h]
          · rintro (h | ⟨_, o', ⟨rfl, _⟩, _, _, rfl⟩); exacts [.inr h, .inl rfl]
        · simp only [Function.update_of_ne hu, e2]
          constructor
          · exact .inl
          · rintro (h | ⟨_, o', ⟨_, h⟩, _⟩); exacts [h, absurd h hu]

theorem foldlM_ext {β : Type} (f : Side → β → Option Side) (S : β → Obj → Nat → Prop) (l : List β)
    (h : ∀ b ∈ l, ∀ x, ∃ y, f x b = some y ∧ Ext m rows rank st x y (S b)) (x : Side) :
    ∃ y, l.foldlM f x = some y ∧ Ext m rows rank st x y (fun o u => ∃ b ∈ l, S b o u) := by
  induction l generalizing x with
  | nil => exact ⟨x, rfl, (Ext.refl x).congr (by simp)⟩
  | cons b l ih =>
    obtain ⟨y, hy, e1⟩ := h b List.mem_cons_self x
    obtain ⟨z, hz, e2⟩ := ih (fun b hb => h b (List.mem_cons_of_mem _ hb)) y
    refine ⟨z, by rw [List.foldlM_cons, hy]; exact hz, (e1.trans e2).congr ?_⟩
    intro o u; simp

theorem addLocal_ext (o : Obj) (hk : ∀ u ∈ s.included, Known m s rows rank st o u) (x : Side) :
    ∃ y, addLocal m s rows rank x o = some y ∧ Ext m rows rank st x y (fun o' u => o' = o ∧ u ∈ s.included) := by
  obtain ⟨y, hy, e⟩ := foldlM_ext (addUnknown m s rows rank o) (fun u o' u' => o' = o ∧ u' = u) s.included
    (fun u hu x => addUnknown_ext o x u (hk u hu)) x
  exact ⟨y, hy, e.congr (by intro o' u'; aesop)⟩

theorem addElement_ext (e : Nat) (hk : ∀ o ∈ objects m e, ∀ u ∈ s.included, Known m s rows rank st o u) (x : Side) :
    ∃ y, addElement m s rows rank x e = some y ∧ Ext m rows rank st x y (fun o u => o ∈ objects m e ∧ u ∈ s.included) := by
  obtain ⟨y, hy, e⟩ := foldlM_ext (addLocal m s rows rank) (fun o o' u' => o' = o ∧ u' ∈ s.included) (objects m e)
    (fun o ho x => addLocal_ext o (hk o ho) x) x
  exact ⟨y, hy, e.congr (by intro o' u'; aesop)⟩

theorem addFace_ext {P : Parts} (f : Nat)
    (hk : ∀ e ∈ P.around rank f, ∀ o ∈ objects m e, ∀ u ∈ s.included, Known m s rows rank st o u) (x : Side) :
    ∃ y, addFace m P s rows rank x f = some y ∧
      Ext m rows rank st x y (fun o u => (∃ e ∈ P.around rank f, o ∈ objects m e) ∧ u ∈ s.included) := by
  obtain ⟨y, hy, e⟩ := foldlM_ext (addElement m s rows rank) (fun e o' u' => o' ∈ objects m e ∧ u' ∈ s.included)
    (P.around rank f) (fun e he x => addElement_ext e (hk e he) x) x
  exact ⟨y, hy, e.congr (by intro o' u'; aesop)⟩

end

/-! ### The maps -/

structure Coupling (x y : Est) (Q : (Nat × Nat) → (Nat × Nat) → Prop) : Prop where
  row : y.row = x.row
  col : y.col = x.col
  val : ∀ k c, c ∈ y.owned.val k ↔ c ∈ x.owned.val k ∨ ∃ a b, Q a b ∧ k ∈ x.row.owned a.1 ∧ c ∈ x.col.owned b.1
  keys : ∀ k, k ∈ y.owned.keys ↔ k ∈ x.owned.keys ∨ ∃ a b, Q a b ∧ k ∈ x.row.owned a.1
  nval : ∀ k c, c ∈ y.nonOwned.val k ↔ c ∈ x.nonOwned.val k ∨ ∃ a b, Q a b ∧ k ∈ x.row.owned a.1 ∧ c ∈ x.col.nonOwned b.1
  nkeys : ∀ k, k ∈ y.nonOwned.keys ↔ k ∈ x.nonOwned.keys ∨ ∃ a b, Q a b ∧ k ∈ x.row.owned a.1

theorem IMap.mem_add_val (a : IMap) (rows cols : Finset Interval) (k c : Interval) :
    c ∈ (a.add rows cols).val k ↔ c ∈ a.val k ∨ (k ∈ rows ∧ c ∈ cols) := by
  simp only [IMap.add]; split_ifs with h <;> simp [h]

theorem IMap.mem_add_keys (a : IMap) (rows cols : Finset Interval) (k : Interval) :
    k ∈ (a.add rows cols).keys ↔ k ∈ a.keys ∨ k ∈ rows := by simp [IMap.add]

theorem couple_list (coupled : Nat → Nat → Bool) (L : List ((Nat × Nat) × (Nat × Nat))) (x : Est) :
    Coupling x (L.foldl (fun (x : Est) (r : (Nat × Nat) × (Nat × Nat)) => if coupled r.1.2 r.2.2 then
      { x with owned := x.owned.add (x.row.owned r.1.1) (x.col.owned r.2.1)
               nonOwned := x.nonOwned.add (x.row.owned r.1.1) (x.col.nonOwned r.2.1) } else x) x)
      (fun a b => (a, b) ∈ L ∧ coupled a.2 b.2 = true) := by
  induction L generalizing x with
  | nil => constructor <;> simp
  | cons r L ih =>
    rw [List.foldl_cons]
    by_cases h : coupled r.1.2 r.2.2 = true
    · simp only [h, if_true]
      obtain ⟨h1, h2, h3, h4, h5, h6⟩ := ih { x with owned := x.owned.add (x.row.owned r.1.1) (x.col.owned r.2.1), nonOwned := x.nonOwned.add (x.row.owned r.1.1) (x.col.nonOwned r.2.1) }
      refine ⟨h1, h2, fun k c => ?_, fun k => ?_, fun k c => ?_, fun k => ?_⟩
      · rw [h3, IMap.mem_add_val]
        constructor
        · rintro ((h' | ⟨h', h''⟩) | ⟨a, b, ⟨hm, hc⟩, h'⟩)
          · exact .inl h'
          · exact .inr ⟨r.1, r.2, ⟨List.mem_cons_self, h⟩, h', h''⟩
          · exact .inr ⟨a, b, ⟨List.mem_cons_of_mem _ hm, hc⟩, h'⟩
        · rintro (h' | ⟨a, b, ⟨hm, hc⟩, h'⟩)
          · exact .inl (.inl h')
          · rcases List.mem_cons.1 hm with rfl | hm
            · exact .inl (.inr h')
            · exact .inr ⟨a, b, ⟨hm, hc⟩, h'⟩
      · rw [h4, IMap.mem_add_keys]
        constructor
        · rintro ((h' | h') | ⟨a, b, ⟨hm, hc⟩, h'⟩)
          · exact .inl h'
          · exact .inr ⟨r.1, r.2, ⟨List.mem_cons_self, h⟩, h'⟩
          · exact .inr ⟨a, b, ⟨List.mem_cons_of_mem _ hm, hc⟩, h'⟩
        · rintro (h' | ⟨a, b, ⟨hm, hc⟩, h'⟩)
          · exact .inl (.inl h')
          · rcases List.mem_cons.1 hm with rfl | hm
            · exact .inl (.inr h')
            · exact .inr ⟨a, b, ⟨hm, hc⟩, h'⟩
      · rw [h5, IMap.mem_add_val]
        constructor
        · rintro ((h' | ⟨h', h''⟩) | ⟨a, b, ⟨hm, hc⟩, h'⟩)
          · exact .inl h'
          · exact .inr ⟨r.1, r.2, ⟨List.mem_cons_self, h⟩, h', h''⟩
          · exact .inr ⟨a, b, ⟨List.mem_cons_of_mem _ hm, hc⟩, h'⟩
        · rintro (h' | ⟨a, b, ⟨hm, hc⟩, h'⟩)
          · exact .inl (.inl h')
          · rcases List.mem_cons.1 hm with rfl | hm
            · exact .inl (.inr h')
            · exact .inr ⟨a, b, ⟨hm, hc⟩, h'⟩
      · rw [h6, IMap.mem_add_keys]
        constructor
        · rintro ((h' | h') | ⟨a, b, ⟨hm, hc⟩, h'⟩)
          · exact .inl h'
          · exact .inr ⟨r.1, r.2, ⟨List.mem_cons_self, h⟩, h'⟩
          · exact .inr ⟨a, b, ⟨List.mem_cons_of_mem _ hm, hc⟩, h'⟩
        · rintro (h' | ⟨a, b, ⟨hm, hc⟩, h'⟩)
          · exact .inl (.inl h')
          · rcases List.mem_cons.1 hm with rfl | hm
            · exact .inl (.inr h')
            · exact .inr ⟨a, b, ⟨hm, hc⟩, h'⟩
    · rw [if_neg h]
      have hQ : (fun a b => (a, b) ∈ r :: L ∧ coupled a.2 b.2 = true) = (fun a b => (a, b) ∈ L ∧ coupled a.2 b.2 = true) := by
        ext a b
        constructor
        · rintro ⟨hm, hc⟩
          rcases List.mem_cons.1 hm with rfl | hm
          · exact absurd hc h
          · exact ⟨hm, hc⟩
        · rintro ⟨hm, hc⟩; exact ⟨List.mem_cons_of_mem _ hm, hc⟩
      rw [hQ]
      exact ih x

theorem couple_spec (x : Est) (R C : State) (coupled : Nat → Nat → Bool) :
    Coupling x (x.couple R C coupled) (fun a b => R.included[a.2]? = some a.1 ∧ C.included[b.2]? = some b.1 ∧ coupled a.2 b.2 = true) := by
  have h := couple_list coupled (R.included.zipIdx.flatMap fun ru => C.included.zipIdx.map fun cu => (ru, cu)) x
  rw [List.foldl_flatMap] at h
  simp only [List.foldl_map] at h
  have hQ : (fun a b : Nat × Nat => (a, b) ∈ (R.included.zipIdx.flatMap fun ru => C.included.zipIdx.map fun cu => (ru, cu)) ∧ coupled a.2 b.2 = true) =
      (fun a b => R.included[a.2]? = some a.1 ∧ C.included[b.2]? = some b.1 ∧ coupled a.2 b.2 = true) := by
    ext a b
    simp only [List.mem_flatMap, List.mem_map, Prod.mk.injEq, List.mem_zipIdx_iff_getElem?]
    constructor
    · rintro ⟨⟨a', ha, b', hb, rfl, rfl⟩, hc⟩; exact ⟨ha, hb, hc⟩
    · rintro ⟨ha, hb, hc⟩; exact ⟨⟨a, ha, b, hb, rfl, rfl⟩, hc⟩
  rw [hQ] at h
  exact h
end Verif.Assembly
