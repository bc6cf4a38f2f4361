import Verif.Assembly.LemmasSide
set_option linter.all false
namespace Verif.Assembly
open GlobalIndexing

/-! ### Writing the result -/

def inI (k : Interval) (i : Nat) : Prop := (ofLex k).1 ≤ i ∧ i < (ofLex k).1 + (ofLex k).2

theorem set_range (a b n : Nat) (v : List Nat) (h : a + b ≤ v.length) :
    ∃ w, (List.range' a b).foldlM (fun v i => if i < v.length then some (v.set i n) else none) v = some w ∧
      w.length = v.length ∧ ∀ i, w[i]? = if a ≤ i ∧ i < a + b then some n else v[i]? := by
  induction b generalizing a v with
  | zero => exact ⟨v, rfl, rfl, fun i => by rw [if_neg]; omega⟩
  | succ b ih =>
    obtain ⟨w, hw, hl, hi⟩ := ih (a + 1) (v.set a n) (by simp; omega)
    refine ⟨w, ?_, by simpa using hl, fun i => ?_⟩
    · rw [List.range'_succ, List.foldlM_cons, if_pos (by omega)]
      exact hw
    · rw [hi]
      by_cases h1 : i = a
      · subst h1
        rw [if_neg (by omega), if_pos (by omega), List.getElem?_set_self (by omega)]
      · rw [List.getElem?_set_ne (Ne.symm h1)]
        congr 1
        simp only [eq_iff_iff]; omega

theorem writeRows_spec (v : List Nat) (k : Interval) (n : Nat) (h : (ofLex k).1 + (ofLex k).2 ≤ v.length) :
    ∃ w, writeRows v k n = some w ∧ w.length = v.length ∧ (∀ i, inI k i → w[i]? = some n) ∧
      ∀ i, ¬ inI k i → w[i]? = v[i]? := by
  obtain ⟨w, h1, h2, h3⟩ := set_range _ _ n v h
  refine ⟨w, h1, h2, fun i hi => ?_, fun i hi => ?_⟩
  · unfold inI at hi; rw [h3, if_pos hi]
  · unfold inI at hi; rw [h3, if_neg hi]

theorem write_list (f : Interval → Nat) (ks : List Interval) (v : List Nat)
    (h : ∀ k ∈ ks, (ofLex k).1 + (ofLex k).2 ≤ v.length) (hd : ks.Pairwise fun k k' => ∀ i, inI k i → ¬ inI k' i) :
    ∃ w, ks.foldlM (fun v k => writeRows v k (f k)) v = some w ∧ w.length = v.length ∧
      (∀ k ∈ ks, ∀ i, inI k i → w[i]? = some (f k)) ∧ ∀ i, (∀ k ∈ ks, ¬ inI k i) → w[i]? = v[i]? := by
  induction ks generalizing v with
  | nil => exact ⟨v, rfl, rfl, by simp, fun i _ => rfl⟩
  | cons k ks ih =>
    rw [List.pairwise_cons] at hd
    obtain ⟨v', h1, h2, h3, h4⟩ := writeRows_spec v k (f k) (h k List.mem_cons_self)
    obtain ⟨w, g1, g2, g3, g4⟩ := ih v' (fun k' hk' => by rw [h2]; exact h k' (List.mem_cons_of_mem _ hk')) hd.2
    refine ⟨w, by rw [List.foldlM_cons, h1]; exact g1, g2.trans h2, ?_, ?_⟩
    · intro k' hk' i hi
      rcases List.mem_cons.1 hk' with rfl | hk'
      · rw [g4 i fun k'' hk'' hi' => hd.1 k'' hk'' i hi hi', h3 i hi]
      · exact g3 k' hk' i hi
    · intro i hi
      rw [g4 i fun k'' hk'' => hi k'' (List.mem_cons_of_mem _ hk''), h4 i (hi k List.mem_cons_self)]

theorem write_spec (a : IMap) (n : Nat) (h : ∀ k ∈ a.keys, (ofLex k).1 + (ofLex k).2 ≤ n)
    (hd : ∀ k ∈ a.keys, ∀ k' ∈ a.keys, ∀ i, inI k i → inI k' i → k = k') (hv : ∀ k c, c ∈ a.val k → k ∈ a.keys) :
    ∃ w, a.write (List.replicate n 0) = some w ∧ w.length = n ∧
      ∀ k i, i < n → inI k i → (k ∈ a.keys ∨ ∀ k' ∈ a.keys, ¬ inI k' i) → w[i]? = some (∑ c ∈ a.val k, (ofLex c).2) := by
  have hnd : (a.keys.sort (· ≤ ·)).Nodup := Finset.sort_nodup _ _
  obtain ⟨w, h1, h2, h3, h4⟩ := write_list (fun k => ∑ c ∈ a.val k, (ofLex c).2) (a.keys.sort (· ≤ ·)) (List.replicate n 0)
    (fun k hk => by rw [List.length_replicate]; exact h k (by simpa using hk))
    (hnd.pairwise_of_forall_ne fun k hk k' hk' hne i hi hi' =>
      hne (hd k (by simpa using hk) k' (by simpa using hk') i hi hi'))
  refine ⟨w, h1, by simpa using h2, fun k i hin hi hk => ?_⟩
  by_cases hkk : k ∈ a.keys
  · exact h3 k (by simpa using hkk) i hi
  · have hk' := hk.resolve_left hkk
    rw [h4 i fun k' hk'' => hk' k' (by simpa using hk'')]
    have : a.val k = ∅ := Finset.eq_empty_of_forall_notMem fun c hc => hkk (hv k c hc)
    rw [this]
    simp [hin]

/-! ### The loops -/

section
variable {m : Mesh} {p : Nat} {R C : State} {stR stC : Obj → Nat → Nat}

/-- What the loops have collected: `W` says which unknowns of which objects were coupled, `T` which were seen. -/
structure Inv (m : Mesh) (p : Nat) (stR stC : Obj → Nat → Nat) (W : Obj → Nat → Obj → Nat → Prop) (T : Obj → Nat → Prop)
    (x : Est) : Prop where
  val : ∀ k c, c ∈ x.owned.val k ↔ ∃ o u o' u', W o u o' u' ∧ m.count o u ≠ 0 ∧ ownsObj m p o = true ∧
    m.count o' u' ≠ 0 ∧ ownsObj m p o' = true ∧ k = toLex (stR o u, m.count o u) ∧ c = toLex (stC o' u', m.count o' u')
  nval : ∀ k c, c ∈ x.nonOwned.val k ↔ ∃ o u o' u', W o u o' u' ∧ m.count o u ≠ 0 ∧ ownsObj m p o = true ∧
    m.count o' u' ≠ 0 ∧ ownsObj m p o' = false ∧ k = toLex (stR o u, m.count o u) ∧ c = toLex (stC o' u', m.count o' u')
  keys : ∀ k ∈ x.owned.keys, ∃ o u, T o u ∧ m.count o u ≠ 0 ∧ ownsObj m p o = true ∧ k = toLex (stR o u, m.count o u)
  nkeys : ∀ k ∈ x.nonOwned.keys, ∃ o u, T o u ∧ m.count o u ≠ 0 ∧ ownsObj m p o = true ∧ k = toLex (stR o u, m.count o u)
  hval : ∀ k c, c ∈ x.owned.val k → k ∈ x.owned.keys
  hnval : ∀ k c, c ∈ x.nonOwned.val k → k ∈ x.nonOwned.keys
  only : ∀ u, x.row.onlyElement u = false ↔ ∃ o, T o u ∧ m.count o u ≠ 0 ∧ o.kind ≠ .element

theorem Inv.start : Inv m p stR stC (fun _ _ _ _ => False) (fun _ _ => False) {} := by
  constructor <;> simp

theorem Inv.congr {W W' : Obj → Nat → Obj → Nat → Prop} {T T' : Obj → Nat → Prop} {x : Est} (h : Inv m p stR stC W T x)
    (h1 : ∀ o u o' u', W o u o' u' ↔ W' o u o' u') (h2 : ∀ o u, T o u ↔ T' o u) : Inv m p stR stC W' T' x := by
  have e1 : W = W' := by ext; exact h1 _ _ _ _
  have e2 : T = T' := by ext; exact h2 _ _
  rwa [← e1, ← e2]

theorem Inv.step {W T} {x : Est} (h : Inv m p stR stC W T x) (S : Obj → Prop) (coupled : Nat → Nat → Bool) {row col : Side}
    (hr : Ext m true p stR x.row.clear row (fun o u => S o ∧ u ∈ R.included))
    (hc : Ext m false p stC x.col.clear col (fun o u => S o ∧ u ∈ C.included)) :
    Inv m p stR stC (fun o u o' u' => W o u o' u' ∨ (S o ∧ S o' ∧ ∃ i j, R.included[i]? = some u ∧ C.included[j]? = some u' ∧ coupled i j = true))
      (fun o u => T o u ∨ (S o ∧ u ∈ R.included)) (Est.couple { x with row := row, col := col } R C coupled) := by
  have hcp := couple_spec { x with row := row, col := col } R C coupled
  obtain ⟨c1, c2, c3, c4, c5, c6⟩ := hcp
  simp only at c3 c4 c5 c6 c1 c2
  have hro : ∀ u k, k ∈ row.owned u ↔ ∃ o, (S o ∧ u ∈ R.included) ∧ m.count o u ≠ 0 ∧ ownsObj m p o = true ∧ k = toLex (stR o u, m.count o u) := by
    intro u k; rw [hr.owned]; simp [Side.clear]
  have hco : ∀ u k, k ∈ col.owned u ↔ ∃ o, (S o ∧ u ∈ C.included) ∧ m.count o u ≠ 0 ∧ ownsObj m p o = true ∧ k = toLex (stC o u, m.count o u) := by
    intro u k; rw [hc.owned]; simp [Side.clear]
  have hcn : ∀ u k, k ∈ col.nonOwned u ↔ ∃ o, (S o ∧ u ∈ C.included) ∧ m.count o u ≠ 0 ∧ ownsObj m p o = false ∧ k = toLex (stC o u, m.count o u) := by
    intro u k; rw [hc.nonOwned]; simp [Side.clear]
  refine ⟨fun k c => ?_, fun k c => ?_, fun k hk => ?_, fun k hk => ?_, fun k c hk => ?_, fun k c hk => ?_, fun u => ?_⟩
  · rw [c3, h.val]
    constructor
    · rintro (⟨o, u, o', u', hw, r⟩ | ⟨a, b, ⟨ha, hb, hab⟩, hk, hkc⟩)
      · exact ⟨o, u, o', u', .inl hw, r⟩
      · obtain ⟨o, ⟨hS, _⟩, r1, r2, r3⟩ := (hro _ _).1 hk
        obtain ⟨o', ⟨hS', _⟩, r1', r2', r3'⟩ := (hco _ _).1 hkc
        exact ⟨o, a.1, o', b.1, .inr ⟨hS, hS', a.2, b.2, ha, hb, hab⟩, r1, r2, r1', r2', r3, r3'⟩
    · rintro ⟨o, u, o', u', hw | ⟨hS, hS', i, j, hi, hj, hij⟩, r1, r2, r1', r2', r3, r3'⟩
      · exact .inl ⟨o, u, o', u', hw, r1, r2, r1', r2', r3, r3'⟩
      · exact .inr ⟨(u, i), (u', j), ⟨hi, hj, hij⟩, (hro _ _).2 ⟨o, ⟨hS, List.mem_of_getElem? hi⟩, r1, r2, r3⟩,
          (hco _ _).2 ⟨o', ⟨hS', List.mem_of_getElem? hj⟩, r1', r2', r3'⟩⟩
  · rw [c5, h.nval]
    constructor
    · rintro (⟨o, u, o', u', hw, r⟩ | ⟨a, b, ⟨ha, hb, hab⟩, hk, hkc⟩)
      · exact ⟨o, u, o', u', .inl hw, r⟩
      · obtain ⟨o, ⟨hS, _⟩, r1, r2, r3⟩ := (hro _ _).1 hk
        obtain ⟨o', ⟨hS', _⟩, r1', r2', r3'⟩ := (hcn _ _).1 hkc
        exact ⟨o, a.1, o', b.1, .inr ⟨hS, hS', a.2, b.2, ha, hb, hab⟩, r1, r2, r1', r2', r3, r3'⟩
    · rintro ⟨o, u, o', u', hw | ⟨hS, hS', i, j, hi, hj, hij⟩, r1, r2, r1', r2', r3, r3'⟩
      · exact .inl ⟨o, u, o', u', hw, r1, r2, r1', r2', r3, r3'⟩
      · exact .inr ⟨(u, i), (u', j), ⟨hi, hj, hij⟩, (hro _ _).2 ⟨o, ⟨hS, List.mem_of_getElem? hi⟩, r1, r2, r3⟩,
          (hcn _ _).2 ⟨o', ⟨hS', List.mem_of_getElem? hj⟩, r1', r2', r3'⟩⟩
  · rcases (c4 k).1 hk with hk | ⟨a, b, ⟨ha, hb, hab⟩, hk⟩
    · obtain ⟨o, u, hT, r⟩ := h.keys k hk; exact ⟨o, u, .inl hT, r⟩
    · obtain ⟨o, hS, r⟩ := (hro _ _).1 hk; exact ⟨o, a.1, .inr hS, r⟩
  · rcases (c6 k).1 hk with hk | ⟨a, b, ⟨ha, hb, hab⟩, hk⟩
    · obtain ⟨o, u, hT, r⟩ := h.nkeys k hk; exact ⟨o, u, .inl hT, r⟩
    · obtain ⟨o, hS, r⟩ := (hro _ _).1 hk; exact ⟨o, a.1, .inr hS, r⟩
  · rw [c4]
    rcases (c3 k c).1 hk with hk | ⟨a, b, hab, hk, _⟩
    · exact .inl (h.hval k c hk)
    · exact .inr ⟨a, b, hab, hk⟩
  · rw [c6]
    rcases (c5 k c).1 hk with hk | ⟨a, b, hab, hk, _⟩
    · exact .inl (h.hnval k c hk)
    · exact .inr ⟨a, b, hab, hk⟩
  · rw [c1, hr.only, show x.row.clear.onlyElement = x.row.onlyElement from rfl, h.only]
    constructor
    · rintro (⟨o, hT, r⟩ | ⟨o, hT, r⟩)
      · exact ⟨o, .inl hT, r⟩
      · exact ⟨o, .inr hT, r⟩
    · rintro ⟨o, hT | hT, r⟩
      · exact .inl ⟨o, hT, r⟩
      · exact .inr ⟨o, hT, r⟩

/-- The loop over objects that each give a set of geometrical objects. -/
theorem loop_inv {β : Type} (step : Est → β → Option Est) (S : β → Obj → Prop) (coupled : Nat → Nat → Bool) (l : List β)
    (hstep : ∀ b ∈ l, ∀ x : Est, ∃ row col, step x b = some (Est.couple { x with row := row, col := col } R C coupled) ∧
      Ext m true p stR x.row.clear row (fun o u => S b o ∧ u ∈ R.included) ∧
      Ext m false p stC x.col.clear col (fun o u => S b o ∧ u ∈ C.included)) {W T} {x : Est} (h : Inv m p stR stC W T x) :
    ∃ y, l.foldlM step x = some y ∧
      Inv m p stR stC (fun o u o' u' => W o u o' u' ∨ ∃ b ∈ l, S b o ∧ S b o' ∧ ∃ i j, R.included[i]? = some u ∧ C.included[j]? = some u' ∧ coupled i j = true)
        (fun o u => T o u ∨ ∃ b ∈ l, S b o ∧ u ∈ R.included) y := by
  induction l generalizing x W T with
  | nil => exact ⟨x, rfl, h.congr (by simp) (by simp)⟩
  | cons b l ih =>
    obtain ⟨row, col, h1, h2, h3⟩ := hstep b List.mem_cons_self x
    obtain ⟨y, hy, hi⟩ := ih (fun b hb => hstep b (List.mem_cons_of_mem _ hb)) (h.step (S b) coupled h2 h3)
    refine ⟨y, by rw [List.foldlM_cons, h1]; exact hy, hi.congr ?_ ?_⟩
    · intro o u o' u'; simp only [List.mem_cons, exists_eq_or_imp, or_assoc]
    · intro o u; simp only [List.mem_cons, exists_eq_or_imp, or_assoc]

end

/-! ### The meaning of the intervals -/

section
variable {m : Mesh} (hm : m.Valid) (hg : m.Ghosts)
include hm hg

/-- The processor can tell whether it owns an object. -/
theorem ownsObj_iff {p e : Nat} (hp : p < m.ranks) (he : m.Has p e) {o : Obj} (ho : o ∈ objects m e) :
    ownsObj m p o = true ↔ m.Owns p o := by
  obtain ⟨q, hq, heq⟩ := has_owner hm hg hp he
  have key : ∀ k x, x ∈ m.sub k e → (m.ownedBy p k x = true ↔ ∃ e' ∈ m.owned p, x ∈ m.sub k e' ∧ m.first k x = e') := by
    intro k x hx
    have h1 := hg.adj_of_sub q hq e heq k x hx
    obtain ⟨e', l, hel⟩ := List.exists_cons_of_ne_nil (List.ne_nil_of_mem h1)
    obtain ⟨a1, a2, a3⟩ := hg.sub_of_adj q hq e heq k x hx e' (by rw [hel]; exact List.mem_cons_self)
    have hf : m.first k x = e' := by simp [Mesh.first, hel]
    simp only [Mesh.ownedBy, hf, decide_eq_true_eq]
    constructor
    · rintro rfl; exact ⟨e', a2, a3, rfl⟩
    · rintro ⟨e'', b1, b2, rfl⟩; exact hm.owner_eq p hp _ b1
  simp only [objects, List.cons_append, List.mem_cons, List.mem_append, List.mem_map] at ho
  rcases ho with rfl | (⟨x, hx, rfl⟩ | ⟨x, hx, rfl⟩) | ho
  · simp only [ownsObj, Mesh.Owns, decide_eq_true_eq]
    exact ⟨fun h => has_own hm hg hp he h, fun h => hm.owner_eq p hp e h⟩
  · exact key .face x hx
  · exact key .edge x hx
  · split_ifs at ho with hdim
    · obtain ⟨x, hx, rfl⟩ := List.mem_map.1 ho
      have := key .node x hx
      simp only [ownsObj, Mesh.Owns, hdim, true_and]
      exact this
    · simp at ho

/-- A rank has all elements with an object that it owns. -/
theorem has_of_owns {p : Nat} (hp : p < m.ranks) {o : Obj} (h : m.Owns p o) {e : Nat} (he : e ∈ elements m)
    (ho : o ∈ objects m e) : m.Has p e := by
  obtain ⟨q, hq, heq⟩ := mem_elements.1 he
  have key : ∀ k x e', e' ∈ m.owned p → x ∈ m.sub k e' → x ∈ m.sub k e → m.Has p e := by
    intro k x e' h1 h2 h3
    by_cases hpq : q = p
    · subst hpq; exact .inl heq
    · exact .inr ⟨q, hq, hg.closed q hq p hp hpq e heq e' h1 k x h3 h2⟩
  simp only [objects, List.cons_append, List.mem_cons, List.mem_append, List.mem_map] at ho
  rcases ho with rfl | (⟨x, hx, rfl⟩ | ⟨x, hx, rfl⟩) | ho
  · exact .inl h
  · obtain ⟨e', h1, h2, _⟩ := h; exact key .face x e' h1 h2 hx
  · obtain ⟨e', h1, h2, _⟩ := h; exact key .edge x e' h1 h2 hx
  · split_ifs at ho with hdim
    · obtain ⟨x, hx, rfl⟩ := List.mem_map.1 ho
      obtain ⟨_, e', h1, h2, _⟩ := h; exact key .node x e' h1 h2 hx
    · simp at ho

theorem objects_of_owns {p : Nat} (hp : p < m.ranks) {o : Obj} (h : m.Owns p o) : ∃ e ∈ m.owned p, o ∈ objects m e := by
  rcases o with ⟨k, x⟩
  cases k
  · exact ⟨x, h, by simp [objects]⟩
  · obtain ⟨e, h1, h2, _⟩ := h; exact ⟨e, h1, by simp [objects, h2]⟩
  · obtain ⟨e, h1, h2, _⟩ := h; exact ⟨e, h1, by simp [objects, h2]⟩
  · obtain ⟨hd, e, h1, h2, _⟩ := h; exact ⟨e, h1, by simp [objects, h2, hd]⟩

theorem owns_unique {p q : Nat} (hp : p < m.ranks) (hq : q < m.ranks) {o : Obj} (h : m.Owns p o) (h' : m.Owns q o) : p = q := by
  rcases o with ⟨k, x⟩
  cases k
  · rw [← hm.owner_eq p hp x h, hm.owner_eq q hq x h']
  · obtain ⟨e, h1, _, h2⟩ := h; obtain ⟨e', h1', _, h2'⟩ := h'
    rw [← hm.owner_eq p hp e h1, ← hm.owner_eq q hq e' h1', ← h2, ← h2']
  · obtain ⟨e, h1, _, h2⟩ := h; obtain ⟨e', h1', _, h2'⟩ := h'
    rw [← hm.owner_eq p hp e h1, ← hm.owner_eq q hq e' h1', ← h2, ← h2']
  · obtain ⟨_, e, h1, _, h2⟩ := h; obtain ⟨_, e', h1', _, h2'⟩ := h'
    rw [← hm.owner_eq p hp e h1, ← hm.owner_eq q hq e' h1', ← h2, ← h2']

end
end Verif.Assembly
