import Verif.PreMesh.LemmasMerge

/-! Helper lemmas: removing unused entities. -/
set_option linter.all false
namespace Verif.PreMesh
open Verif.ElementShape

variable {P : Type}

theorem used_iff (ent : Entity) : used ent = true ↔ 0 < ent.inc.length := by
  unfold used; rw [decide_eq_true_iff]; exact List.length_pos_iff.symm

theorem filter_get {α : Type} (p : α → Bool) (l : List α) : ∀ (j : Nat) (x : α), (l.filter p)[j]? = some x ↔
    ∃ k : Nat, l[k]? = some x ∧ p x = true ∧ (l.take k).countP p = j := by
  induction l with
  | nil => simp
  | cons a l ih =>
    intro j x
    by_cases hp : p a = true
    · simp only [List.filter_cons, hp, if_true]
      cases j with
      | zero =>
        simp only [List.getElem?_cons_zero, Option.some.injEq]
        constructor
        · rintro rfl; exact ⟨0, by simp, hp, by simp⟩
        · rintro ⟨k, h1, h2, h3⟩
          cases k with
          | zero => simpa using h1
          | succ k => simp [List.take_succ_cons, List.countP_cons, hp] at h3
      | succ j =>
        simp only [List.getElem?_cons_succ]
        rw [ih]
        constructor
        · rintro ⟨k, h1, h2, h3⟩
          exact ⟨k + 1, by simpa using h1, h2, by simp [List.take_succ_cons, List.countP_cons, hp, h3]⟩
        · rintro ⟨k, h1, h2, h3⟩
          cases k with
          | zero => simp at h3
          | succ k => exact ⟨k, by simpa using h1, h2, by simpa [List.take_succ_cons, List.countP_cons, hp] using h3⟩
    · simp only [List.filter_cons, hp, if_false]
      simp only [Bool.false_eq_true, if_false]
      rw [ih]
      constructor
      · rintro ⟨k, h1, h2, h3⟩
        exact ⟨k + 1, by simpa using h1, h2, by simp [List.take_succ_cons, List.countP_cons, hp, h3]⟩
      · rintro ⟨k, h1, h2, h3⟩
        cases k with
        | zero => simp at h1; subst h1; exact absurd h2 hp
        | succ k => exact ⟨k, by simpa using h1, h2, by simpa [List.take_succ_cons, List.countP_cons, hp] using h3⟩

theorem count_mono {α : Type} (p : α → Bool) (l : List α) (a b : Nat) (h : a < b) (x : α) (hx : l[a]? = some x) (hp : p x = true) :
    (l.take a).countP p < (l.take b).countP p := by
  have h1 : (l.take (a + 1)).countP p = (l.take a).countP p + 1 := by
    rw [List.take_add_one, hx]; simp [List.countP_append, hp]
  have h2 : (l.take (a + 1)).countP p ≤ (l.take b).countP p :=
    (List.take_sublist_take_left (by omega)).countP_le
  omega

theorem rank_inj (m : Mesh P) (d a b : Nat) (ha : usedAt m d a = true) (hb : usedAt m d b = true)
    (h : rank m d a = rank m d b) : a = b := by
  unfold usedAt at ha hb
  rcases Nat.lt_trichotomy a b with h1 | h1 | h1
  · cases hx : (m.ents d)[a]? with
    | none => simp [hx] at ha
    | some x =>
      have := count_mono used (m.ents d) a b h1 x hx (by simpa [hx] using ha)
      unfold rank at h; omega
  · exact h1
  · cases hx : (m.ents d)[b]? with
    | none => simp [hx] at hb
    | some x =>
      have := count_mono used (m.ents d) b a h1 x hx (by simpa [hx] using hb)
      unfold rank at h; omega

theorem compact_keep (l : List Entity) : ∀ next : Nat,
    (compact next l).1 = (l.filter used).mapIdx fun k ent => { ent with id := next + k } := by
  induction l with
  | nil => intro next; simp [compact]
  | cons a l ih =>
    intro next
    unfold compact
    by_cases h : 0 < a.inc.length
    · have hu := (used_iff a).2 h
      simp only [h, if_true, List.filter_cons, hu, ih (next + 1), List.mapIdx_cons, Nat.add_zero]
      congr 1
      apply List.ext_getElem?
      intro k
      simp only [List.getElem?_mapIdx]
      congr 1; funext ent; congr 1; omega
    · have hu : used a = false := by rw [Bool.eq_false_iff]; intro hc; exact h ((used_iff a).1 hc)
      simp only [h, if_false, List.filter_cons, hu, ih next, Bool.false_eq_true]

theorem compact_ren (l : List Entity) : ∀ next k : Nat, (compact next l).2[k]? =
    (l[k]?).map fun ent => if used ent then some (next + (l.take k).countP used) else none := by
  induction l with
  | nil => intro next k; simp [compact]
  | cons a l ih =>
    intro next k
    unfold compact
    by_cases h : 0 < a.inc.length
    · have hu := (used_iff a).2 h
      simp only [h, if_true]
      cases k with
      | zero => simp [hu]
      | succ k =>
        simp only [List.getElem?_cons_succ, ih (next + 1), List.take_succ_cons, List.countP_cons, hu, if_true]
        congr 1; funext ent; congr 2; omega
    · have hu : used a = false := by rw [Bool.eq_false_iff]; intro hc; exact h ((used_iff a).1 hc)
      simp only [h, if_false]
      cases k with
      | zero => simp [hu]
      | succ k => simp [ih next, List.take_succ_cons, List.countP_cons, hu]

theorem none_mem_ren (l : List Entity) (next : Nat) : none ∈ (compact next l).2 ↔ ∃ ent ∈ l, used ent = false := by
  rw [List.mem_iff_getElem?]
  simp only [compact_ren]
  constructor
  · rintro ⟨k, hk⟩
    cases hl : l[k]? with
    | none => simp [hl] at hk
    | some ent =>
      refine ⟨ent, List.mem_of_getElem? hl, ?_⟩
      simp only [hl, Option.map_some, Option.some.injEq] at hk
      cases hu : used ent
      · rfl
      · simp [hu] at hk
  · rintro ⟨ent, h1, h2⟩
    obtain ⟨k, hk⟩ := List.mem_iff_getElem?.1 h1
    exact ⟨k, by simp [hk, h2]⟩

theorem mapM_some {α β : Type} (f : α → Option β) (g : α → β) (l : List α) (h : ∀ x ∈ l, f x = some (g x)) :
    l.mapM f = some (l.map g) := by
  induction l with
  | nil => rfl
  | cons a l ih =>
    rw [List.mapM_cons, h a (by simp), ih (fun x hx => h x (by simp [hx]))]
    rfl

/-- Every entity an element lists is connected to an element. -/
def UsedLists (m : Mesh P) (d : Nat) : Prop := ∀ el ∈ m.elems, ∀ k ∈ el.inc d, usedAt m d k = true

/-- All coordinates belong to an existing node. -/
def NodesExist (m : Mesh P) : Prop := ∀ co ∈ m.coords, ∃ n, co.node = some n ∧ n < (m.ents 0).length

/-- The mesh after one level. -/
def squeezedAt (d : Nat) (m : Mesh P) : Mesh P where
  elems := m.elems.map fun el => { el with inc := upd el.inc d ((el.inc d).map (rank m d)) }
  ents := upd m.ents d (((m.ents d).filter used).mapIdx (fun k ent => { ent with id := k }))
  coords :=
    if d = 0 ∧ ∃ ent ∈ m.ents 0, used ent = false then m.coords.map fun co =>
      { co with node := co.node.bind fun n => if usedAt m 0 n then some (rank m 0 n) else none }
    else m.coords
  zones := m.zones

theorem rank_full (m : Mesh P) (d : Nat) (h : ∀ ent ∈ m.ents d, used ent = true) (k : Nat) (hk : k ≤ (m.ents d).length) :
    rank m d k = k := by
  unfold rank
  rw [List.countP_eq_length.2 (fun x hx => h x (List.mem_of_mem_take hx))]
  simp [hk]

theorem ren_get (m : Mesh P) (d k : Nat) : (compact 0 (m.ents d)).2[k]? =
    if k < (m.ents d).length then some (if usedAt m d k then some (rank m d k) else none) else none := by
  rw [compact_ren]
  unfold usedAt rank
  by_cases hk : k < (m.ents d).length
  · rw [List.getElem?_eq_getElem hk]; simp [hk]
  · rw [List.getElem?_eq_none (by omega)]; simp [hk]

theorem removeUnusedLevel_spec (m : Mesh P) (d : Nat) (hu : UsedLists m d)
    (hn : d = 0 → (∃ ent ∈ m.ents 0, used ent = false) → NodesExist m) :
    removeUnusedLevel m d = some (squeezedAt d m) := by
  unfold removeUnusedLevel
  have hkeep : (compact 0 (m.ents d)).1 = ((m.ents d).filter used).mapIdx (fun k ent => { ent with id := k }) := by
    rw [compact_keep]; simp
  simp only [hkeep, none_mem_ren]
  have hlt : ∀ k, usedAt m d k = true → k < (m.ents d).length := by
    intro k hk
    unfold usedAt at hk
    by_contra hc
    rw [List.getElem?_eq_none (by omega)] at hk
    simp at hk
  by_cases hx : ∃ ent ∈ m.ents d, used ent = false
  · simp only [hx, if_true]
    have h1 : m.elems.mapM (fun e => renumberElem e d (compact 0 (m.ents d)).2) =
        some (m.elems.map fun el => { el with inc := upd el.inc d ((el.inc d).map (rank m d)) }) := by
      apply mapM_some
      intro el hel
      unfold renumberElem
      rw [mapM_some _ (rank m d) (el.inc d)]
      · rfl
      · intro k hk
        have hku := hu el hel k hk
        rw [ren_get, if_pos (hlt k hku), if_pos hku]; rfl
    rw [h1]
    simp only [Option.bind_eq_bind, Option.bind_some]
    by_cases h0 : d = 0
    · subst h0
      have hnodes := hn rfl hx
      have h2 : m.coords.mapM (fun c => renumberCoord c (compact 0 (m.ents 0)).2) =
          some (m.coords.map fun co =>
            { co with node := co.node.bind fun n => if usedAt m 0 n then some (rank m 0 n) else none }) := by
        apply mapM_some
        intro co hco
        obtain ⟨n, hn1, hn2⟩ := hnodes co hco
        unfold renumberCoord
        simp [hn1, ren_get, hn2]
      simp only [if_true, h2, Option.bind_some, squeezedAt, true_and]
      rw [if_pos hx]
    · simp only [h0, if_false, Option.bind_some, squeezedAt, false_and]
  · simp only [hx, if_false]
    have hall : ∀ ent ∈ m.ents d, used ent = true := by
      intro ent hent
      cases hb : used ent
      · exact absurd ⟨ent, hent, hb⟩ hx
      · rfl
    have h1 : m.elems.map (fun el => { el with inc := upd el.inc d ((el.inc d).map (rank m d)) }) = m.elems := by
      conv_rhs => rw [← List.map_id m.elems]
      apply List.map_congr_left
      intro el hel
      have h2 : (el.inc d).map (rank m d) = el.inc d := by
        conv_rhs => rw [← List.map_id (el.inc d)]
        apply List.map_congr_left
        intro k hk
        have := hlt k (hu el hel k hk)
        rw [rank_full m d hall k (by omega)]; rfl
      have h3 : upd el.inc d (el.inc d) = el.inc := by
        funext k; unfold upd; split
        · rename_i hx; rw [hx]
        · rfl
      rw [h2, h3]; rfl
    have h4 : ¬ (d = 0 ∧ ∃ ent ∈ m.ents 0, used ent = false) := by
      rintro ⟨h0, h5⟩; subst h0; exact hx h5
    unfold squeezedAt
    rw [h1, if_neg h4]

theorem removeUnusedBelow_spec (n : Nat) : ∀ m : Mesh P, (∀ d < n, UsedLists m d) →
    (0 < n → (∃ ent ∈ m.ents 0, used ent = false) → NodesExist m) → removeUnusedBelow m n = some (squeezed n m) := by
  induction n with
  | zero =>
    intro m _ _
    simp only [removeUnusedBelow, squeezed, Nat.not_lt_zero, if_false, false_and]
    congr 1
    cases m
    simp
  | succ n ih =>
    intro m hu hn
    simp only [removeUnusedBelow]
    rw [removeUnusedLevel_spec m n (hu n (by omega)) (fun _ => hn (by omega))]
    simp only [Option.bind_eq_bind, Option.bind_some]
    have hents : ∀ d, d ≠ n → (squeezedAt n m).ents d = m.ents d := fun d hd => upd_ne _ _ _ _ hd
    have hrank : ∀ d, d ≠ n → ∀ k, rank (squeezedAt n m) d k = rank m d k := by
      intro d hd k; unfold rank; rw [hents d hd]
    have hused : ∀ d, d ≠ n → ∀ k, usedAt (squeezedAt n m) d k = usedAt m d k := by
      intro d hd k; unfold usedAt; rw [hents d hd]
    rw [ih]
    · congr 1
      unfold squeezed
      congr 1
      · simp only [squeezedAt, List.map_map]
        apply List.map_congr_left
        intro el hel
        simp only [Function.comp]
        congr 1
        funext d
        by_cases h1 : d < n
        · have h2 : d ≠ n := by omega
          simp only [h1, if_true, upd_ne _ _ _ _ h2, show d < n + 1 by omega]
          apply List.map_congr_left
          intro k _; exact hrank d h2 k
        · by_cases h2 : d = n
          · subst h2; simp [upd_self]
          · have h3 : ¬ d < n + 1 := by omega
            simp [h1, h2, h3, upd_ne _ _ _ _ h2]
      · by_cases h0 : n = 0
        · subst h0
          simp [squeezedAt]
        · have h0' : 0 ≠ n := fun h => h0 h.symm
          have hpos : 0 < n := by omega
          simp only [hents 0 h0', hpos, true_and, Nat.succ_pos, hrank 0 h0', hused 0 h0']
          simp [squeezedAt, h0]
      · funext d
        by_cases h1 : d < n
        · have h2 : d ≠ n := by omega
          simp only [h1, if_true, hents d h2, show d < n + 1 by omega]
        · by_cases h2 : d = n
          · subst h2; simp [squeezedAt, upd_self]
          · have h3 : ¬ d < n + 1 := by omega
            simp [h1, h3, hents d h2]
    · intro d hd el hel k hk
      simp only [squeezedAt, List.mem_map] at hel
      obtain ⟨el0, h1, rfl⟩ := hel
      simp only [upd_ne _ _ _ _ (show d ≠ n by omega)] at hk
      rw [hused d (by omega)]
      exact hu d (by omega) el0 h1 k hk
    · intro hpos hx
      have h0 : 0 ≠ n := by omega
      rw [hents 0 h0] at hx
      have := hn (by omega) hx
      have h0' : ¬ n = 0 := by omega
      unfold NodesExist at this ⊢
      rw [hents 0 h0]
      simpa [squeezedAt, h0'] using this

theorem Consistent.usedLists {shapes : List Shape} {dim : Nat} {m : Mesh P} (h : Consistent shapes dim m) (d : Nat)
    (hd : d < dim) : UsedLists m d := by
  intro el hel k hk
  obtain ⟨e, he⟩ := List.mem_iff_getElem?.1 hel
  obtain ⟨i, hi⟩ := List.mem_iff_getElem?.1 hk
  obtain ⟨ent, h1, h2⟩ := (h.both d hd e i k).1 ⟨el, he, hi⟩
  unfold usedAt
  rw [h1]
  simp only [Option.any_some]
  rw [used_iff]; exact List.length_pos_of_mem h2

theorem squeezed_get (dim : Nat) (m : Mesh P) (d : Nat) (hd : d < dim) (k' : Nat) (ent' : Entity) :
    ((squeezed dim m).ents d)[k']? = some ent' ↔
      ∃ k ent, (m.ents d)[k]? = some ent ∧ used ent = true ∧ rank m d k = k' ∧ ent' = { ent with id := k' } := by
  simp only [squeezed, hd, if_true, List.getElem?_mapIdx]
  constructor
  · intro h
    cases hf : ((m.ents d).filter used)[k']? with
    | none => rw [hf] at h; simp at h
    | some ent =>
      rw [hf] at h
      obtain ⟨k, h1, h2, h3⟩ := (filter_get used _ _ _).1 hf
      exact ⟨k, ent, h1, h2, h3, by simpa using h.symm⟩
  · rintro ⟨k, ent, h1, h2, h3, rfl⟩
    rw [(filter_get used _ _ _).2 ⟨k, h1, h2, h3⟩]
    rfl

theorem squeezed_consistent (shapes : List Shape) (dim : Nat) (hdim : 0 < dim) (m : Mesh P) (h : Consistent shapes dim m) :
    Consistent shapes dim (squeezed dim m) := by
  have hget : ∀ e : Nat, (squeezed dim m).elems[e]? = (m.elems[e]?).map fun el =>
      { el with inc := fun d => if d < dim then (el.inc d).map (rank m d) else el.inc d } := by
    intro e; simp [squeezed]
  have hul := h.usedLists
  refine ⟨?_, ?_, ?_, ?_, ?_, ?_, ?_, ?_, ?_⟩
  · intro e el he
    rw [hget] at he
    cases h1 : m.elems[e]? with
    | none => rw [h1] at he; simp at he
    | some el0 => rw [h1] at he; simp at he; subst he; exact h.elemId e el0 h1
  · intro d k ent hk
    by_cases hd : d < dim
    · obtain ⟨_, _, _, _, _, rfl⟩ := (squeezed_get dim m d hd k ent).1 hk; rfl
    · simp only [squeezed, hd, if_false] at hk; exact h.entId d k ent hk
  · intro d hd e i k'
    constructor
    · rintro ⟨el, he, hi⟩
      rw [hget] at he
      cases h1 : m.elems[e]? with
      | none => rw [h1] at he; simp at he
      | some el0 =>
        rw [h1] at he; simp at he; subst he
        simp only [hd, if_true, List.getElem?_map] at hi
        cases h2 : (el0.inc d)[i]? with
        | none => rw [h2] at hi; simp at hi
        | some k =>
          rw [h2] at hi; simp at hi; subst hi
          obtain ⟨ent, h3, h4⟩ := (h.both d hd e i k).1 ⟨el0, h1, h2⟩
          refine ⟨{ ent with id := rank m d k }, ?_, h4⟩
          rw [squeezed_get dim m d hd]
          exact ⟨k, ent, h3, (used_iff ent).2 (List.length_pos_of_mem h4), rfl, rfl⟩
    · rintro ⟨ent', he, hi⟩
      obtain ⟨k, ent, h1, h2, h3, rfl⟩ := (squeezed_get dim m d hd k' ent').1 he
      obtain ⟨el, h4, h5⟩ := (h.both d hd e i k).2 ⟨ent, h1, hi⟩
      refine ⟨_, by rw [hget, h4]; rfl, ?_⟩
      simp only [hd, if_true, List.getElem?_map, h5, Option.map_some, h3]
  · intro d k ent hk
    by_cases hd : d < dim
    · obtain ⟨k0, ent0, h1, _, _, rfl⟩ := (squeezed_get dim m d hd k ent).1 hk
      exact h.once d k0 ent0 h1
    · simp only [squeezed, hd, if_false] at hk; exact h.once d k ent hk
  · intro el hel
    simp only [squeezed, List.mem_map] at hel
    obtain ⟨el0, h1, rfl⟩ := hel
    refine ⟨(h.full el0 h1).1, ?_⟩
    intro d hd
    simp only [hd, if_true, List.length_map]
    exact (h.full el0 h1).2 d hd
  · intro el hel
    simp only [squeezed, List.mem_map] at hel
    obtain ⟨el0, h1, rfl⟩ := hel
    obtain ⟨h2, h3⟩ := h.coords el0 h1
    refine ⟨by simp [hdim, h2], ?_⟩
    intro i c hi
    obtain ⟨co, h4, h5⟩ := h3 i c hi
    have hilt : i < (el0.inc 0).length := by rw [← h2]; exact (List.getElem?_eq_some_iff.1 hi).1
    have hnode : co.node = some (el0.inc 0)[i] := by rw [h5]; exact List.getElem?_eq_getElem hilt
    have hus := hul 0 hdim el0 h1 (el0.inc 0)[i] (List.getElem_mem _)
    simp only [squeezed, hdim, true_and, if_true, List.getElem?_map, List.getElem?_eq_getElem hilt, Option.map_some]
    split
    · refine ⟨_, by rw [List.getElem?_map, h4]; rfl, ?_⟩
      simp [hnode, hus]
    · rename_i hx
      refine ⟨co, h4, ?_⟩
      rw [hnode, rank_full m 0 _ _ _]
      · intro ent hent
        cases hb : used ent
        · exact absurd ⟨ent, hent, hb⟩ hx
        · rfl
      · have := hus
        unfold usedAt at this
        by_contra hc
        rw [List.getElem?_eq_none (by omega)] at this
        simp at this
  · simp only [squeezed, Nat.lt_irrefl, if_false, List.length_map]
    exact h.slices
  · intro el hel
    simp only [squeezed, List.mem_map] at hel
    obtain ⟨el0, h1, rfl⟩ := hel
    exact h.zones el0 h1
  · exact h.zoneNames

end Verif.PreMesh
