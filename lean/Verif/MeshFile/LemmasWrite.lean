import Verif.MeshFile.LemmasElem

/-! # Helper lemmas: what the writer writes -/
set_option linter.all false
namespace Verif.MeshFile
open Verif.PreMesh Verif.ElementShape

variable {R : Type} [LinearOrder R]

theorem mapM_range {α β : Type} {f : α → Option β} {l : List α} (g : Nat → β) (h : ∀ (i : Nat) x, l[i]? = some x → f x = some (g i)) :
    l.mapM f = some ((List.range l.length).map g) := by
  obtain ⟨r, hr⟩ : ∃ r, l.mapM f = some r := by
    apply Option.isSome_iff_exists.1
    apply mapM_isSome
    intro x hx
    obtain ⟨i, hi⟩ := List.getElem?_of_mem hx
    simp [h i x hi]
  rw [hr]
  congr 1
  obtain ⟨h1, h2⟩ := mapM_get hr
  apply List.ext_getElem?
  intro i
  by_cases hi : i < l.length
  · rw [(h2 i l[i] (List.getElem?_eq_getElem hi)).1, h i l[i] (List.getElem?_eq_getElem hi)]
    simp [hi]
  · rw [List.getElem?_eq_none (by omega), List.getElem?_eq_none (by simp; omega)]

variable {shapes : List Shape} {dim : Nat} {m : Mesh (List R)} {parts : List Nat} {count : Nat}

theorem linked_elem (h : Writable shapes dim m parts count) {d : Nat} (hd : d < dim) {k : Nat} {ent : Entity} (hk : (m.ents d)[k]? = some ent)
    {q : Nat × Nat} (hq : q ∈ ent.inc) : ∃ el, m.elems[q.1]? = some el ∧ (el.inc d)[q.2]? = some k :=
  (h.cons.both d hd q.1 q.2 k).2 ⟨ent, hk, hq⟩

theorem listed_node (h : Writable shapes dim m parts count) {d : Nat} (hd : d < dim) {e i k : Nat} {el : Elem} (he : m.elems[e]? = some el)
    (hi : (el.inc d)[i]? = some k) : ∃ ent, (m.ents d)[k]? = some ent ∧ (e, i) ∈ ent.inc :=
  (h.cons.both d hd e i k).1 ⟨el, he, hi⟩

theorem parts_get (h : Writable shapes dim m parts count) {e : Nat} {el : Elem} (he : m.elems[e]? = some el) :
    ∃ p, parts[e]? = some p ∧ p < count := by
  have h1 : e < m.elems.length := by
    by_contra hc; rw [List.getElem?_eq_none (by omega)] at he; simp at he
  have h2 : e < parts.length := by rw [h.partsLen]; exact h1
  exact ⟨parts[e], List.getElem?_eq_getElem h2, h.bound _ (List.getElem_mem h2)⟩

theorem ownersAt_eq (h : Writable shapes dim m parts count) {n : Nat} {ent : Entity} (hn : (m.ents 0)[n]? = some ent) :
    ownersAt m parts n = some (ent.inc.map fun q => parts.getD q.1 0) := by
  unfold ownersAt
  simp only [hn, Option.bind_eq_bind, Option.bind_some]
  apply mapM_some
  intro q hq
  obtain ⟨el, he, _⟩ := linked_elem h h.dimPos hn hq
  obtain ⟨p, hp, _⟩ := parts_get h he
  simp [List.getD_eq_getElem?_getD, hp]

theorem around_spec (h : Writable shapes dim m parts count) {e : Nat} {el : Elem} (he : m.elems[e]? = some el) :
    ∃ l, around m parts e = some l ∧ ∀ p, p ∈ l ↔ Present m parts p e := by
  have hg : ∀ n ∈ el.inc 0, ownersAt m parts n = some ((((m.ents 0)[n]?.map Entity.inc).getD []).map fun q => parts.getD q.1 0) := by
    intro n hn
    obtain ⟨i, hi⟩ := List.getElem?_of_mem hn
    obtain ⟨ent, hent, _⟩ := listed_node h h.dimPos he hi
    rw [ownersAt_eq h hent]
    simp [hent]
  refine ⟨((el.inc 0).map fun n => (((m.ents 0)[n]?.map Entity.inc).getD []).map fun q => parts.getD q.1 0).flatten, ?_, ?_⟩
  · unfold around
    simp only [he, Option.bind_eq_bind, Option.bind_some, mapM_some _ hg]
  · intro p
    simp only [List.mem_flatten, List.mem_map]
    constructor
    · rintro ⟨_, ⟨n, hn, rfl⟩, hp⟩
      obtain ⟨q, hq, hqp⟩ := List.mem_map.1 hp
      obtain ⟨i, hi⟩ := List.getElem?_of_mem hn
      obtain ⟨ent, hent, _⟩ := listed_node h h.dimPos he hi
      simp only [hent, Option.map_some, Option.getD_some] at hq
      obtain ⟨el', he', hk'⟩ := linked_elem h h.dimPos hent hq
      obtain ⟨p', hp', _⟩ := parts_get h he'
      refine ⟨q.1, ⟨el, el', n, he, he', hn, List.mem_of_getElem? hk'⟩, ?_⟩
      rw [hp', ← hqp]
      simp [List.getD_eq_getElem?_getD, hp']
    · rintro ⟨e', ⟨el1, el', n, he1, he', hn, hn'⟩, hp⟩
      rw [he] at he1
      cases he1
      refine ⟨_, ⟨n, hn, rfl⟩, ?_⟩
      obtain ⟨i, hi⟩ := List.getElem?_of_mem hn'
      obtain ⟨ent, hent, hmem⟩ := listed_node h h.dimPos he' hi
      simp only [hent, Option.map_some, Option.getD_some]
      exact List.mem_map.2 ⟨(e', i), hmem, by simp [List.getD_eq_getElem?_getD, hp]⟩

theorem present_self (h : Writable shapes dim m parts count) {e p : Nat} {el : Elem} (he : m.elems[e]? = some el) (hp : parts[e]? = some p) :
    Present m parts p e := by
  have := h.hasNodes el (List.mem_of_getElem? he)
  obtain ⟨n, hn⟩ := List.exists_mem_of_ne_nil _ this
  exact ⟨e, ⟨el, el, n, he, he, hn, hn⟩, hp⟩

theorem present_lt (h : Writable shapes dim m parts count) {e p : Nat} (hp : Present m parts p e) : p < count := by
  obtain ⟨e', _, hp⟩ := hp
  exact h.bound p (List.mem_of_getElem? hp)

theorem nodePartitions_spec (h : Writable shapes dim m parts count) {n : Nat} {ent : Entity} (hn : (m.ents 0)[n]? = some ent) :
    ∃ l, nodePartitions m parts ent = some l ∧ l.Nodup ∧ ∀ p, p ∈ l ↔ EntityPresent m parts p 0 n := by
  obtain ⟨ls, hls⟩ : ∃ ls, (ent.inc.mapM fun q => do
      let own ← parts[q.1]?
      let a ← around m parts q.1
      some (own :: a.filter (· ≠ own))) = some ls := by
    apply Option.isSome_iff_exists.1
    apply mapM_isSome
    intro q hq
    obtain ⟨el, he, _⟩ := linked_elem h h.dimPos hn hq
    obtain ⟨p, hp, _⟩ := parts_get h he
    obtain ⟨l, hl, _⟩ := around_spec h he
    simp [hp, hl]
  obtain ⟨h1, h2⟩ := mapM_get hls
  have hq' : ∀ (i : Nat) (q : Nat × Nat), ent.inc[i]? = some q → ∃ l, ls[i]? = some l ∧ ∀ p, p ∈ l ↔ Present m parts p q.1 := by
    intro i q hq
    obtain ⟨el, he, _⟩ := linked_elem h h.dimPos hn (List.mem_of_getElem? hq)
    obtain ⟨p, hp, _⟩ := parts_get h he
    obtain ⟨l, hl, hl'⟩ := around_spec h he
    have := (h2 i q hq).1
    simp only [hp, hl, Option.bind_eq_bind, Option.bind_some] at this
    refine ⟨_, this, ?_⟩
    intro p'
    rw [List.mem_cons, List.mem_filter, hl']
    by_cases hpp : p' = p
    · subst hpp
      simp [present_self h he hp]
    · simp [hpp]
  refine ⟨toSet ls.flatten, ?_, toSet_nodup _, ?_⟩
  · unfold nodePartitions
    simp only [Option.bind_eq_bind] at hls
    simp only [Option.bind_eq_bind]
    rw [hls]
    rfl
  · intro p
    rw [mem_toSet, List.mem_flatten]
    constructor
    · rintro ⟨l, hl, hp⟩
      obtain ⟨i, hi⟩ := List.getElem?_of_mem hl
      have hlt : i < ent.inc.length := by
        rw [← h1]; by_contra hc; rw [List.getElem?_eq_none (by omega)] at hi; simp at hi
      obtain ⟨l', hl', h'⟩ := hq' i _ (List.getElem?_eq_getElem hlt)
      rw [hl'] at hi
      cases hi
      exact ⟨ent, _, hn, List.getElem_mem hlt, (h' p).1 hp⟩
    · rintro ⟨ent', q, hent', hq, hp⟩
      rw [hn] at hent'
      cases hent'
      obtain ⟨i, hi⟩ := List.getElem?_of_mem hq
      obtain ⟨l', hl', h'⟩ := hq' i _ hi
      exact ⟨l', List.mem_of_getElem? hl', (h' p).2 hp⟩

theorem entityPartitions_spec (h : Writable shapes dim m parts count) {d : Nat} (hd : d < dim) {n : Nat} {ent : Entity} (hn : (m.ents d)[n]? = some ent) :
    ∃ l, entityPartitions m parts ent = some l ∧ l.Nodup ∧ ∀ p, p ∈ l ↔ EntityPresent m parts p d n := by
  obtain ⟨ls, hls⟩ : ∃ ls, (ent.inc.mapM fun q => around m parts q.1) = some ls := by
    apply Option.isSome_iff_exists.1
    apply mapM_isSome
    intro q hq
    obtain ⟨el, he, _⟩ := linked_elem h hd hn hq
    obtain ⟨l, hl, _⟩ := around_spec h he
    simp [hl]
  obtain ⟨h1, h2⟩ := mapM_get hls
  have hq' : ∀ (i : Nat) (q : Nat × Nat), ent.inc[i]? = some q → ∃ l, ls[i]? = some l ∧ ∀ p, p ∈ l ↔ Present m parts p q.1 := by
    intro i q hq
    obtain ⟨el, he, _⟩ := linked_elem h hd hn (List.mem_of_getElem? hq)
    obtain ⟨l, hl, hl'⟩ := around_spec h he
    exact ⟨l, by rw [(h2 i q hq).1, hl], hl'⟩
  refine ⟨toSet ls.flatten, ?_, toSet_nodup _, ?_⟩
  · unfold entityPartitions
    simp only [hls, Option.bind_eq_bind, Option.bind_some]
  · intro p
    rw [mem_toSet, List.mem_flatten]
    constructor
    · rintro ⟨l, hl, hp⟩
      obtain ⟨i, hi⟩ := List.getElem?_of_mem hl
      have hlt : i < ent.inc.length := by
        rw [← h1]; by_contra hc; rw [List.getElem?_eq_none (by omega)] at hi; simp at hi
      obtain ⟨l', hl', h'⟩ := hq' i _ (List.getElem?_eq_getElem hlt)
      rw [hl'] at hi
      cases hi
      exact ⟨ent, _, hn, List.getElem_mem hlt, (h' p).1 hp⟩
    · rintro ⟨ent', q, hent', hq, hp⟩
      rw [hn] at hent'
      cases hent'
      obtain ⟨i, hi⟩ := List.getElem?_of_mem hq
      obtain ⟨l', hl', h'⟩ := hq' i _ hi
      exact ⟨l', List.mem_of_getElem? hl', (h' p).2 hp⟩

theorem shadowPartitions_spec (h : Writable shapes dim m parts count) {e p : Nat} {el : Elem} (he : m.elems[e]? = some el) (hp : parts[e]? = some p) :
    ∃ l, shadowPartitions m parts e = some l ∧ l.Nodup ∧ ∀ q, q ∈ l ↔ q ≠ p ∧ Present m parts q e := by
  obtain ⟨l, hl, hl'⟩ := around_spec h he
  refine ⟨toSet (l.filter (· ≠ p)), by simp [shadowPartitions, hp, hl], toSet_nodup _, ?_⟩
  intro q
  rw [mem_toSet, List.mem_filter, hl']
  simp [and_comm]

theorem posAt_spec (h : Writable shapes dim m parts count) {n : Nat} {ent : Entity} (hn : (m.ents 0)[n]? = some ent) {q : Nat × Nat} (hq : q ∈ ent.inc) :
    ∃ el c co, m.elems[q.1]? = some el ∧ el.coords[q.2]? = some c ∧ m.coords[c]? = some co ∧ posAt m q = some co.pos ∧ co.pos.length = dim := by
  obtain ⟨el, he, hk⟩ := linked_elem h h.dimPos hn hq
  have h1 := h.cons.coords el (List.mem_of_getElem? he)
  have h2 : q.2 < el.coords.length := by
    rw [h1.1]; by_contra hc; rw [List.getElem?_eq_none (by omega)] at hk; simp at hk
  obtain ⟨co, hco, _⟩ := h1.2 q.2 _ (List.getElem?_eq_getElem h2)
  exact ⟨el, _, co, he, List.getElem?_eq_getElem h2, hco, by simp [posAt, he, List.getElem?_eq_getElem h2, hco], h.pos co (List.mem_of_getElem? hco)⟩

theorem nodeCoordinates_spec (h : Writable shapes dim m parts count) {n : Nat} {ent : Entity} (hn : (m.ents 0)[n]? = some ent) :
    ∃ cs, nodeCoordinates m ent = some cs ∧ cs.Nodup ∧ (∀ x ∈ cs, x.length = dim) ∧ ∀ q ∈ ent.inc, ∀ x, posAt m q = some x → x ∈ cs := by
  obtain ⟨ps, hps⟩ : ∃ ps, ent.inc.mapM (posAt m) = some ps := by
    apply Option.isSome_iff_exists.1
    apply mapM_isSome
    intro q hq
    obtain ⟨el, c, co, _, _, _, h', _⟩ := posAt_spec h hn hq
    simp [h']
  obtain ⟨h1, h2⟩ := mapM_get hps
  refine ⟨toSet ps, by simp [nodeCoordinates, hps], toSet_nodup_pos _, ?_, ?_⟩
  · intro x hx
    rw [mem_toSet] at hx
    obtain ⟨i, hi⟩ := List.getElem?_of_mem hx
    have hlt : i < ent.inc.length := by
      rw [← h1]; by_contra hc; rw [List.getElem?_eq_none (by omega)] at hi; simp at hi
    obtain ⟨el, c, co, _, _, _, h', h''⟩ := posAt_spec h hn (List.getElem_mem hlt)
    have := (h2 i _ (List.getElem?_eq_getElem hlt)).1
    rw [h', hi] at this
    cases this
    exact h''
  · intro q hq x hx
    rw [mem_toSet]
    obtain ⟨i, hi⟩ := List.getElem?_of_mem hq
    have := (h2 i _ hi).1
    rw [hx] at this
    exact List.mem_of_getElem? this

/-- The index that is written for local node `j` of an element. -/
theorem coordinateIndex_spec (h : Writable shapes dim m parts count) {e j n : Nat} {el : Elem} (he : m.elems[e]? = some el) (hj : (el.inc 0)[j]? = some n) :
    ∃ ent cs o, (m.ents 0)[n]? = some ent ∧ nodeCoordinates m ent = some cs ∧ coordinateIndex m n e = some o ∧ o < cs.length ∧ cs[o]? = posAt m (e, j) := by
  obtain ⟨ent, hent, hmem⟩ := listed_node h h.dimPos he hj
  obtain ⟨cs, hcs, hnd, _, hin⟩ := nodeCoordinates_spec h hent
  obtain ⟨el', c, co, _, _, _, hpos, _⟩ := posAt_spec h hent hmem
  have hfind : ent.inc.find? (fun q => decide (q.1 = e)) = some (e, j) := by
    cases hf : ent.inc.find? (fun q => decide (q.1 = e)) with
    | none =>
      have := List.find?_eq_none.1 hf (e, j) hmem
      simp at this
    | some q =>
      have h1 := List.find?_some hf
      have h2 := List.mem_of_find?_eq_some hf
      simp at h1
      obtain ⟨el2, he2, hj2⟩ := linked_elem h h.dimPos hent h2
      rw [h1, he] at he2
      cases he2
      have := (List.getElem?_inj (by by_contra hc; rw [List.getElem?_eq_none (by omega)] at hj2; simp at hj2) (h.distinct el (List.mem_of_getElem? he))).1 (hj2.trans hj.symm)
      rw [← this, ← h1]
  have hx := hin (e, j) hmem _ hpos
  refine ⟨ent, cs, cs.idxOf co.pos, hent, hcs, by simp [coordinateIndex, hent, hcs, hfind, hpos], List.idxOf_lt_length_of_mem hx, ?_⟩
  rw [hpos]
  rw [List.getElem?_eq_getElem (List.idxOf_lt_length_of_mem hx), List.getElem_idxOf]

end Verif.MeshFile
