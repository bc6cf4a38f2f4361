import Verif.PreMesh.LemmasRemove
import Verif.ElementShape.Props

/-! # Parts of elements with the same nodes become one entity: lemmas -/
set_option linter.all false
namespace Verif.PreMesh
open Verif.ElementShape

variable {P : Type}

theorem unique_mem (l : List Nat) (x : Nat) : x ∈ unique l ↔ x ∈ l := by
  induction l with
  | nil => simp [unique]
  | cons a l ih =>
    cases l with
    | nil => simp [unique]
    | cons b l =>
      rw [unique]
      split
      · rename_i h; subst h; rw [ih]; simp
      · rw [List.mem_cons, ih]; simp

theorem unique_strict (l : List Nat) (h : l.Pairwise (· ≤ ·)) : (unique l).Pairwise (· < ·) := by
  induction l with
  | nil => simp [unique]
  | cons a l ih =>
    cases l with
    | nil => simp [unique]
    | cons b l =>
      rw [List.pairwise_cons] at h
      rw [unique]
      split
      · exact ih h.2
      · rename_i hne
        rw [List.pairwise_cons]
        refine ⟨fun x hx => ?_, ih h.2⟩
        rw [unique_mem] at hx
        have h1 := h.1 b (by simp)
        have h2 := h.1 x hx
        rcases List.mem_cons.1 hx with h3 | h3
        · omega
        · have := (List.pairwise_cons.1 h.2).1 x h3; omega

theorem sort_perm (l : List Nat) : (sort l).Perm l := List.perm_insertionSort _ l

theorem ShapesOk.shape {shapes : List Shape} {dim : Nat} (h : ShapesOk shapes dim) (s : Shape) (hs : s ∈ shapes) :
    s.Ok ∧ s.dim = dim := by
  obtain ⟨h1, h2, h3, h4, h5⟩ := h.ok s hs
  exact ⟨⟨h1, h2, h3, fun d p hp => (h4 d p hp).1, fun d p hp => (h4 d p hp).2.1, fun d p hp => (h4 d p hp).2.2, h5⟩, h.dims s hs⟩

/-- What holds while element `e0` is being completed. -/
structure Mid (shapes : List Shape) (dim : Nat) (m : Mesh P) : Prop where
  good : Good dim m
  shape : ∀ el ∈ m.elems, el.shape ∈ shapes ∧ (el.inc 0).length = el.shape.count 0
  lens : ∀ el ∈ m.elems, ∀ d, d < dim → (el.inc d).length ≤ el.shape.count d
  nodup : ∀ el ∈ m.elems, (el.inc 0).Nodup

theorem mapM_get {α β : Type} (f : α → Option β) (l : List α) (h : ∀ x ∈ l, ∃ y, f x = some y) :
    ∃ r, l.mapM f = some r ∧ r.length = l.length ∧ (∀ (i : Nat) (x : α), l[i]? = some x → r[i]? = f x) ∧
      ∀ y, y ∈ r ↔ ∃ x ∈ l, f x = some y := by
  induction l with
  | nil => exact ⟨[], by simp⟩
  | cons a l ih =>
    obtain ⟨y, hy⟩ := h a (by simp)
    obtain ⟨r, h1, h2, h3, h4⟩ := ih (fun x hx => h x (by simp [hx]))
    refine ⟨y :: r, by simp [List.mapM_cons, hy, h1], by simp [h2], ?_, ?_⟩
    · intro i x hx
      cases i with
      | zero => simp at hx; subst hx; simp [hy]
      | succ i => simpa using h3 i x (by simpa using hx)
    · intro z
      simp [h4, hy, eq_comm]

theorem mapM_eq {α β : Type} (f g : α → Option β) (l : List α) (h : ∀ x ∈ l, f x = g x) : l.mapM f = l.mapM g := by
  induction l with
  | nil => rfl
  | cons a l ih => rw [List.mapM_cons, List.mapM_cons, h a (by simp), ih (fun x hx => h x (by simp [hx]))]

/-- The local index of a node in an element that does not repeat it. -/
theorem localIndex_node (shapes : List Shape) (dim : Nat) (hdim : 0 < dim) (m : Mesh P) (h : Mid shapes dim m) (n e loc : Nat)
    (ent : Entity) (hn : (m.ents 0)[n]? = some ent) (hp : (e, loc) ∈ ent.inc) : localIndexOf ent e = some loc := by
  unfold localIndexOf
  cases hf : ent.inc.find? (fun p => decide (p.1 = e)) with
  | none =>
    rw [List.find?_eq_none] at hf
    have := hf _ hp
    simp at this
  | some q =>
    obtain ⟨e', l'⟩ := q
    have h1 := List.find?_some hf
    simp only [decide_eq_true_eq] at h1
    subst h1
    have hm := List.mem_of_find?_eq_some hf
    obtain ⟨el, a1, a2⟩ := (h.good.both 0 hdim e' loc n).2 ⟨ent, hn, hp⟩
    obtain ⟨el2, b1, b2⟩ := (h.good.both 0 hdim e' l' n).2 ⟨ent, hn, hm⟩
    rw [a1] at b1; cases b1
    have hnd := h.nodup el (List.mem_of_getElem? a1)
    have := (List.getElem?_inj (List.getElem?_eq_some_iff.1 a2).1 hnd).1 (a2.trans b2.symm)
    subst this; rfl

/-- The entities of dimension `d` an element has at one of its nodes. -/
theorem elemIncidence_node (shapes : List Shape) (hsh : ShapesOk shapes dim) (m : Mesh P)
    (h : Mid shapes dim m) (d : Nat) (hd : 0 < d) (hdd : d < dim) (el : Elem) (hel : el ∈ m.elems) (loc : Nat)
    (hloc : loc < (el.inc 0).length) :
    ∃ r, elemIncidence el 0 d loc = some r ∧ ∀ k, k ∈ r ↔ el.shape.count d ≤ (el.inc d).length ∧
      ∃ (i : Nat) (p : List Nat), (el.inc d)[i]? = some k ∧ (el.shape.parts d)[i]? = some p ∧ loc ∈ p := by
  obtain ⟨hs1, hs2⟩ := h.shape el hel
  obtain ⟨hok, _⟩ := hsh.shape _ hs1
  unfold elemIncidence localIncidence
  by_cases hlen : (el.inc d).length < el.shape.count d
  · simp only [hlen, if_true]
    refine ⟨[], by simp, ?_⟩
    intro k
    constructor
    · intro h; simp at h
    · rintro ⟨h1, _⟩; omega
  · simp only [hlen, if_false]
    have hp0 : (el.shape.parts 0)[loc]? = some [loc] := by
      rw [hok.vertex, vertices, List.getElem?_map, List.getElem?_range (by omega)]; rfl
    obtain ⟨r, hr, hmem⟩ := adjacent_iff_nodes el.shape hok 0 d loc [loc] hp0 hd (by omega)
    rw [hr]
    simp only [Option.bind_eq_bind, Option.bind_some]
    have hin : ∀ l ∈ r, ∃ y, (el.inc d)[l]? = some y := by
      intro l hl
      obtain ⟨q, hq, _⟩ := (hmem l).1 hl
      have := (List.getElem?_eq_some_iff.1 hq).1
      have h3 : l < (el.inc d).length := by unfold Shape.count at hlen; omega
      exact ⟨_, List.getElem?_eq_getElem h3⟩
    obtain ⟨r2, h1, h2, h3, h4⟩ := mapM_get (fun l => (el.inc d)[l]?) r hin
    refine ⟨r2, h1, ?_⟩
    intro k
    rw [h4]
    constructor
    · rintro ⟨i, hi, hk⟩
      obtain ⟨q, hq, hqs⟩ := (hmem i).1 hi
      have hnd : ¬ d < 0 := by omega
      simp only [hnd, if_false, List.cons_subset, List.nil_subset, and_true] at hqs
      exact ⟨by omega, i, q, hk, hq, hqs⟩
    · rintro ⟨_, i, p, hk, hp, hl⟩
      refine ⟨i, (hmem i).2 ⟨p, hp, ?_⟩, hk⟩
      have hnd : ¬ d < 0 := by omega
      simp only [hnd, if_false, List.cons_subset, List.nil_subset, and_true]
      exact hl

theorem gather_spec (shapes : List Shape) (dim : Nat) (hdim : 0 < dim) (hsh : ShapesOk shapes dim) (m : Mesh P)
    (h : Mid shapes dim m) (d : Nat) (hd : 0 < d) (hdd : d < dim) (n : Nat) (ent : Entity) (hn : (m.ents 0)[n]? = some ent)
    (l : List (Nat × Nat)) (hl : ∀ p ∈ l, p ∈ ent.inc) :
    ∃ r, gather m 0 d ent l = some r ∧ ∀ k, k ∈ r ↔ ∃ e loc el, (e, loc) ∈ l ∧ m.elems[e]? = some el ∧
      el.shape.count d ≤ (el.inc d).length ∧
      ∃ (i : Nat) (p : List Nat), (el.inc d)[i]? = some k ∧ (el.shape.parts d)[i]? = some p ∧ loc ∈ p := by
  induction l with
  | nil => exact ⟨[], rfl, by simp⟩
  | cons q l ih =>
    obtain ⟨e, loc⟩ := q
    obtain ⟨r, h1, h2⟩ := ih (fun p hp => hl p (by simp [hp]))
    have hp := hl (e, loc) (by simp)
    obtain ⟨el, a1, a2⟩ := (h.good.both 0 hdim e loc n).2 ⟨ent, hn, hp⟩
    have hloc := (List.getElem?_eq_some_iff.1 a2).1
    obtain ⟨r2, h3, h4⟩ := elemIncidence_node shapes hsh m h d hd hdd el (List.mem_of_getElem? a1) loc hloc
    refine ⟨r2 ++ r, ?_, ?_⟩
    · simp [gather, a1, localIndex_node shapes dim hdim m h n e loc ent hn hp, h3, h1]
    · intro k
      rw [List.mem_append, h2, h4]
      constructor
      · rintro (⟨h5, h6⟩ | ⟨e', loc', el', h5, h6⟩)
        · exact ⟨e, loc, el, by simp, a1, h5, h6⟩
        · exact ⟨e', loc', el', by simp [h5], h6⟩
      · rintro ⟨e', loc', el', h5, h6, h7⟩
        rcases List.mem_cons.1 h5 with h8 | h8
        · cases h8
          rw [a1] at h6; cases h6
          exact Or.inl h7
        · exact Or.inr ⟨e', loc', el', h8, h6, h7⟩

/-- The nodes of a part that exists. -/
theorem partNodes_some (shapes : List Shape) (dim : Nat) (hsh : ShapesOk shapes dim) (m : Mesh P) (h : Mid shapes dim m)
    (el : Elem) (hel : el ∈ m.elems) (d i : Nat) (p : List Nat) (hp : (el.shape.parts d)[i]? = some p) :
    ∃ ns, partNodes el.shape (el.inc 0) d i = some ns ∧ ns.length = p.length ∧ (∀ j l : Nat, p[j]? = some l → ns[j]? = (el.inc 0)[l]?) ∧
      ∀ n, n ∈ ns ↔ ∃ l ∈ p, (el.inc 0)[l]? = some n := by
  obtain ⟨hs1, hs2⟩ := h.shape el hel
  obtain ⟨hok, _⟩ := hsh.shape _ hs1
  unfold partNodes
  simp only [hp, Option.bind_eq_bind, Option.bind_some]
  apply mapM_get
  intro l hl
  have := hok.bound d p (List.mem_of_getElem? hp) l hl
  exact ⟨_, List.getElem?_eq_getElem (by omega)⟩

/-- Entities of dimension `d` at a node: those of a part, of an element with all its parts, with this node. -/
theorem incidenceList_node (shapes : List Shape) (dim : Nat) (hdim : 0 < dim) (hsh : ShapesOk shapes dim) (m : Mesh P)
    (h : Mid shapes dim m) (d : Nat) (hd : 0 < d) (hdd : d < dim) (n : Nat) (ent : Entity) (hn : (m.ents 0)[n]? = some ent) :
    ∃ r, incidenceList dim m 0 d n = some r ∧ r.Nodup ∧ ∀ k, k ∈ r ↔ ∃ el ∈ m.elems,
      el.shape.count d ≤ (el.inc d).length ∧ ∃ (i : Nat) (ns : List Nat), (el.inc d)[i]? = some k ∧
        partNodes el.shape (el.inc 0) d i = some ns ∧ n ∈ ns := by
  obtain ⟨r, h1, h2⟩ := gather_spec shapes dim hdim hsh m h d hd hdd n ent hn ent.inc (fun _ h => h)
  have hne0 : d ≠ 0 := by omega
  have hned : d ≠ dim := by omega
  refine ⟨unique (sort r), by simp [incidenceList, hn, hne0, hned, h1], ?_, ?_⟩
  · have := unique_strict (sort r) (List.pairwise_insertionSort (· ≤ ·) r)
    exact this.imp (fun h => Nat.ne_of_lt h)
  · intro k
    rw [unique_mem, sort_mem, h2]
    constructor
    · rintro ⟨e, loc, el, h3, h4, h5, i, p, h6, h7, h8⟩
      have hel := List.mem_of_getElem? h4
      obtain ⟨ns, h9, _, _, h10⟩ := partNodes_some shapes dim hsh m h el hel d i p h7
      refine ⟨el, hel, h5, i, ns, h6, h9, (h10 n).2 ⟨loc, h8, ?_⟩⟩
      obtain ⟨el2, b1, b2⟩ := (h.good.both 0 hdim e loc n).2 ⟨ent, hn, h3⟩
      rw [h4] at b1; cases b1; exact b2
    · rintro ⟨el, hel, h5, i, ns, h6, h9, hmem⟩
      obtain ⟨e, he⟩ := List.mem_iff_getElem?.1 hel
      cases hp : (el.shape.parts d)[i]? with
      | none => simp [partNodes, hp] at h9
      | some p =>
        obtain ⟨ns', h9', _, _, h10⟩ := partNodes_some shapes dim hsh m h el hel d i p hp
        rw [h9] at h9'; cases h9'
        obtain ⟨loc, hl, hloc⟩ := (h10 n).1 hmem
        obtain ⟨ent', c1, c2⟩ := (h.good.both 0 hdim e loc n).1 ⟨el, he, hloc⟩
        rw [hn] at c1; cases c1
        exact ⟨e, loc, el, c2, he, h5, i, p, h6, hp, hl⟩

/-- The entities at all nodes of a list. -/
theorem intersect_spec (shapes : List Shape) (dim : Nat) (hdim : 0 < dim) (hsh : ShapesOk shapes dim) (m : Mesh P)
    (h : Mid shapes dim m) (d : Nat) (hd : 0 < d) (hdd : d < dim) (ns : List Nat)
    (hns : ∀ n ∈ ns, ∃ ent, (m.ents 0)[n]? = some ent) : ∀ cs : List Nat, cs.Nodup →
    ∃ r, intersect dim m d cs ns = some r ∧ r.Nodup ∧ ∀ k, k ∈ r ↔ k ∈ cs ∧ ∀ n ∈ ns, ∃ el ∈ m.elems,
      el.shape.count d ≤ (el.inc d).length ∧ ∃ (i : Nat) (ns' : List Nat), (el.inc d)[i]? = some k ∧
        partNodes el.shape (el.inc 0) d i = some ns' ∧ n ∈ ns' := by
  induction ns with
  | nil => intro cs hc; exact ⟨cs, rfl, hc, by simp⟩
  | cons n ns ih =>
    intro cs hc
    obtain ⟨ent, hn⟩ := hns n (by simp)
    obtain ⟨r1, h1, h2, h3⟩ := incidenceList_node shapes dim hdim hsh m h d hd hdd n ent hn
    obtain ⟨r, h4, h5, h6⟩ := ih (fun x hx => hns x (by simp [hx])) (cs.filter (· ∈ sort r1)) (hc.filter _)
    refine ⟨r, by simp [intersect, h1, h4], h5, ?_⟩
    intro k
    rw [h6]
    simp only [List.mem_filter, decide_eq_true_eq, sort_mem, h3, List.mem_cons, forall_eq_or_imp]
    tauto

theorem elementNode_spec (shapes : List Shape) (dim : Nat) (hdim : 0 < dim) (hsh : ShapesOk shapes dim) (m : Mesh P)
    (h : Mid shapes dim m) (e : Nat) (el : Elem) (he : m.elems[e]? = some el) (i n : Nat) (hi : (el.inc 0)[i]? = some n) :
    elementNode dim m e i = some n := by
  obtain ⟨hs1, hs2⟩ := h.shape el (List.mem_of_getElem? he)
  obtain ⟨hok, hsd⟩ := hsh.shape _ hs1
  have hadj : el.shape.adjacent dim 0 0 = some (List.range (el.shape.count 0)) := by
    rw [adjacent_nodes, ← hsd, hok.element]; rfl
  obtain ⟨ent, a1, a2⟩ := (h.good.both 0 hdim e i n).1 ⟨el, he, hi⟩
  obtain ⟨r, h1, h2, h3, _⟩ := mapM_get (fun l => (el.inc 0)[l]?) (List.range (el.shape.count 0)) (by
    intro l hl; rw [List.mem_range] at hl; exact ⟨_, List.getElem?_eq_getElem (by omega)⟩)
  have hlt : i < el.shape.count 0 := by rw [← hs2]; exact (List.getElem?_eq_some_iff.1 hi).1
  have hget : r[i]? = some n := by rw [h3 i i (by rw [List.getElem?_range hlt]), hi]
  have hnl : ¬ (el.inc 0).length < el.shape.count 0 := by omega
  simp [elementNode, he, elemIncidence, localIncidence, hnl, hadj, h1, hget, a1, h.good.entId 0 n ent a1]

/-- The candidates for a part: the entities that are at all its nodes. -/
theorem candidates_spec (shapes : List Shape) (dim : Nat) (hdim : 0 < dim) (hsh : ShapesOk shapes dim) (m : Mesh P)
    (h : Mid shapes dim m) (d : Nat) (hd : 0 < d) (hdd : d < dim) (e i : Nat) (el : Elem) (he : m.elems[e]? = some el)
    (hi : i < el.shape.count d) :
    ∃ r ns, candidates dim m d e i = some r ∧ partNodes el.shape (el.inc 0) d i = some ns ∧ ns ≠ [] ∧ r.Nodup ∧
      ∀ k, k ∈ r ↔ ∀ n ∈ ns, ∃ el' ∈ m.elems, el'.shape.count d ≤ (el'.inc d).length ∧
        ∃ (i' : Nat) (ns' : List Nat), (el'.inc d)[i']? = some k ∧
          partNodes el'.shape (el'.inc 0) d i' = some ns' ∧ n ∈ ns' := by
  have hel := List.mem_of_getElem? he
  obtain ⟨hs1, hs2⟩ := h.shape el hel
  obtain ⟨hok, hsd⟩ := hsh.shape _ hs1
  have hp : (el.shape.parts d)[i]? = some (el.shape.parts d)[i] := List.getElem?_eq_getElem hi
  generalize (el.shape.parts d)[i] = p at hp
  have hpm := List.mem_of_getElem? hp
  have hmapM : p.mapM (elementNode dim m e) = p.mapM (fun l => (el.inc 0)[l]?) := by
    apply mapM_eq
    intro l hl
    have := hok.bound d p hpm l hl
    have hg := List.getElem?_eq_getElem (show l < (el.inc 0).length by omega)
    rw [hg]; exact elementNode_spec shapes dim hdim hsh m h e el he l _ hg
  obtain ⟨ns, h1, h2, h3, h4⟩ := partNodes_some shapes dim hsh m h el hel d i p hp
  have hns : p.mapM (fun l => (el.inc 0)[l]?) = some ns := by
    have := h1; unfold partNodes at this; simpa [hp] using this
  have hne : ns ≠ [] := by
    have := hok.nonempty d p hpm
    intro hc; rw [hc] at h2; simp at h2; exact this (List.length_eq_zero_iff.1 h2.symm)
  have hex : ∀ n ∈ ns, ∃ ent, (m.ents 0)[n]? = some ent := by
    intro n hn
    obtain ⟨l, _, hl⟩ := (h4 n).1 hn
    obtain ⟨ent, a1, _⟩ := (h.good.both 0 hdim e l n).1 ⟨el, he, hl⟩
    exact ⟨ent, a1⟩
  cases ns with
  | nil => exact absurd rfl hne
  | cons n ns =>
    obtain ⟨ent, hn⟩ := hex n (by simp)
    obtain ⟨r1, g1, g2, g3⟩ := incidenceList_node shapes dim hdim hsh m h d hd hdd n ent hn
    obtain ⟨r, g4, g5, g6⟩ := intersect_spec shapes dim hdim hsh m h d hd hdd ns (fun x hx => hex x (by simp [hx])) (sort r1)
      ((sort_perm r1).nodup_iff.2 g2)
    refine ⟨r, n :: ns, ?_, h1, hne, g5, ?_⟩
    · simp [candidates, he, adjacent_nodes, hp, hmapM, hns, g1, g4]
    · intro k
      rw [g6, sort_mem, g3]
      simp

/-- Part `i` of dimension `d` of element `e` is entity `k` and has nodes `ns`. -/
def Has (m : Mesh P) (d e i k : Nat) (ns : List Nat) : Prop :=
  ∃ el, m.elems[e]? = some el ∧ (el.inc d)[i]? = some k ∧ partNodes el.shape (el.inc 0) d i = some ns

theorem shared_iff (dim : Nat) (m : Mesh P) : Shared dim m ↔ ∀ d, 0 < d → d < dim → ∀ (e e' i i' k k' : Nat) (ns ns' : List Nat),
    Has m d e i k ns → Has m d e' i' k' ns' → (k = k' ↔ ∀ n, n ∈ ns ↔ n ∈ ns') := by
  constructor
  · rintro h d h0 h1 e e' i i' k k' ns ns' ⟨el, a1, a2, a3⟩ ⟨el', b1, b2, b3⟩
    exact h d h0 h1 e e' el el' i i' k k' ns ns' a1 b1 a2 b2 a3 b3
  · intro h d h0 h1 e e' el el' i i' k k' ns ns' a1 b1 a2 b2 a3 b3
    exact h d h0 h1 e e' i i' k k' ns ns' ⟨el, a1, a2, a3⟩ ⟨el', b1, b2, b3⟩

/-- Nodes and shapes do not change when an entity of positive dimension is appended. -/
theorem elemNodes_set (m m' : Mesh P) (d e : Nat) (hd : 0 < d) (el : Elem) (l : List Nat) (he : m.elems[e]? = some el)
    (hm : m'.elems = m.elems.set e { el with inc := upd el.inc d l }) : elemNodes m' = elemNodes m := by
  unfold elemNodes
  rw [hm, List.map_set]
  have h0 : upd el.inc d l 0 = el.inc 0 := upd_ne _ _ _ _ (by omega)
  simp only [h0]
  obtain ⟨hlt, hx⟩ := List.getElem?_eq_some_iff.1 he
  apply List.ext_getElem?
  intro j
  rw [List.getElem?_set]
  split
  · rename_i hj; subst hj; simp [hlt, hx]
  · rfl

theorem has_grow (m m' : Mesh P) (d e gid : Nat) (hd : 0 < d) (el : Elem) (ns : List Nat) (he : m.elems[e]? = some el)
    (hns : partNodes el.shape (el.inc 0) d (el.inc d).length = some ns)
    (hm : m'.elems = m.elems.set e { el with inc := upd el.inc d (el.inc d ++ [gid]) }) (d' e' i' k' : Nat) (ns' : List Nat) :
    Has m' d' e' i' k' ns' ↔ Has m d' e' i' k' ns' ∨ (d' = d ∧ e' = e ∧ i' = (el.inc d).length ∧ k' = gid ∧ ns' = ns) := by
  have hlt : e < m.elems.length := (List.getElem?_eq_some_iff.1 he).1
  have h0 : ∀ x, upd el.inc d x 0 = el.inc 0 := fun x => upd_ne _ _ _ _ (by omega)
  unfold Has
  rw [hm]
  by_cases hee : e' = e
  · subst hee
    simp only [List.getElem?_set_self hlt, Option.some.injEq, exists_eq_left', he, true_and, h0]
    by_cases hdd : d' = d
    · subst hdd
      simp only [upd_self, true_and]
      rw [List.getElem?_append]
      split
      · rename_i h
        have : ¬ i' = (el.inc d').length := by omega
        simp [this]
      · rename_i h
        have hn : (el.inc d')[i']? = none := List.getElem?_eq_none (by omega)
        simp only [hn, reduceCtorEq, false_and, false_or]
        by_cases hi : i' = (el.inc d').length
        · subst hi
          simp only [Nat.sub_self, List.getElem?_cons_zero, Option.some.injEq, true_and, hns]
          constructor
          · rintro ⟨rfl, rfl⟩; exact ⟨rfl, rfl⟩
          · rintro ⟨rfl, rfl⟩; exact ⟨rfl, rfl⟩
        · have : 0 < i' - (el.inc d').length := by omega
          simp only [hi, false_and, iff_false, not_and]
          intro hc
          rw [List.getElem?_eq_none (by simp; omega)] at hc
          cases hc
    · simp [upd_ne _ _ _ _ hdd, hdd]
  · rw [List.getElem?_set_ne (fun h => hee h.symm)]
    simp [hee]

theorem share_grow (dim : Nat) (m m' : Mesh P) (d e gid : Nat) (hd : 0 < d) (el : Elem) (ns : List Nat) (he : m.elems[e]? = some el)
    (hns : partNodes el.shape (el.inc 0) d (el.inc d).length = some ns)
    (hm : m'.elems = m.elems.set e { el with inc := upd el.inc d (el.inc d ++ [gid]) }) (hs : Shared dim m)
    (hk : ∀ (e' i' k' : Nat) (ns' : List Nat), Has m d e' i' k' ns' → (k' = gid ↔ ∀ n, n ∈ ns' ↔ n ∈ ns)) : Shared dim m' := by
  rw [shared_iff] at hs ⊢
  intro d' h0 h1 e1 e2 i1 i2 k1 k2 n1 n2 ha hb
  rw [has_grow m m' d e gid hd el ns he hns hm] at ha hb
  rcases ha with ha | ⟨rfl, rfl, rfl, rfl, rfl⟩
  · rcases hb with hb | ⟨rfl, rfl, rfl, rfl, rfl⟩
    · exact hs d' h0 h1 e1 e2 i1 i2 k1 k2 n1 n2 ha hb
    · exact hk e1 i1 k1 n1 ha
  · rcases hb with hb | ⟨_, rfl, rfl, rfl, rfl⟩
    · have := hk e2 i2 k2 n2 hb
      constructor
      · intro h n; exact ((this.1 h.symm) n).symm
      · intro h; exact (this.2 (fun n => (h n).symm)).symm
    · simp

theorem mid_grow (shapes : List Shape) (dim : Nat) (m m' : Mesh P) (d e gid : Nat) (hd : 0 < d) (hdd : d < dim) (el : Elem)
    (he : m.elems[e]? = some el) (hi : (el.inc d).length < el.shape.count d)
    (hm : m'.elems = m.elems.set e { el with inc := upd el.inc d (el.inc d ++ [gid]) }) (h : Mid shapes dim m)
    (hg : Good dim m') : Mid shapes dim m' := by
  have hel := List.mem_of_getElem? he
  have h0 : ∀ x, upd el.inc d x 0 = el.inc 0 := fun x => upd_ne _ _ _ _ (by omega)
  have key : ∀ x ∈ m'.elems, x ∈ m.elems ∨ x = { el with inc := upd el.inc d (el.inc d ++ [gid]) } := by
    intro x hx; rw [hm] at hx; exact List.mem_or_eq_of_mem_set hx
  refine ⟨hg, ?_, ?_, ?_⟩
  · intro x hx
    rcases key x hx with h1 | rfl
    · exact h.shape x h1
    · simp only [h0]; exact h.shape el hel
  · intro x hx
    rcases key x hx with h1 | rfl
    · exact h.lens x h1
    · intro d' hd'
      by_cases hdd : d' = d
      · subst hdd; simp only [upd_self, List.length_append, List.length_singleton]; omega
      · simp only [upd_ne _ _ _ _ hdd]; exact h.lens el hel d' hd'
  · intro x hx
    rcases key x hx with h1 | rfl
    · exact h.nodup x h1
    · simp only [h0]; exact h.nodup el hel

theorem addEntity_eq (m : Mesh P) (d e gid : Nat) (el : Elem) (ent : Entity) (he : m.elems[e]? = some el)
    (hent : (m.ents d)[gid]? = some ent) : ∃ m', addEntity m d e gid = some m' ∧
      m'.elems = m.elems.set e { el with inc := upd el.inc d (el.inc d ++ [gid]) } := by
  simp [addEntity, he, linkEntity, hent]

/-- Every element but `e` has all its parts. -/
def Others (dim : Nat) (m : Mesh P) (e : Nat) : Prop :=
  ∀ (e' : Nat) (el' : Elem), e' ≠ e → m.elems[e']? = some el' → ∀ d, d < dim → el'.shape.count d ≤ (el'.inc d).length

theorem others_set (dim : Nat) (m m' : Mesh P) (e : Nat) (x : Elem) (hm : m'.elems = m.elems.set e x) (h : Others dim m e) :
    Others dim m' e := by
  intro e' el' hne hel'
  rw [hm, List.getElem?_set_ne (fun h => hne h.symm)] at hel'
  exact h e' el' hne hel'

/-- Parts of one element with the same nodes are the same part. -/
theorem same_part (shapes : List Shape) (dim : Nat) (hsh : ShapesOk shapes dim) (m : Mesh P) (h : Mid shapes dim m)
    (el : Elem) (hel : el ∈ m.elems) (d i j : Nat) (ns ns' : List Nat) (hi : partNodes el.shape (el.inc 0) d i = some ns)
    (hj : partNodes el.shape (el.inc 0) d j = some ns') (hs : ns ⊆ ns') : i = j := by
  cases hp : (el.shape.parts d)[i]? with
  | none => simp [partNodes, hp] at hi
  | some p =>
    cases hq : (el.shape.parts d)[j]? with
    | none => simp [partNodes, hq] at hj
    | some q =>
      obtain ⟨n1, a1, _, _, a2⟩ := partNodes_some shapes dim hsh m h el hel d i p hp
      obtain ⟨n2, b1, _, _, b2⟩ := partNodes_some shapes dim hsh m h el hel d j q hq
      rw [hi] at a1; cases a1
      rw [hj] at b1; cases b1
      obtain ⟨hs1, hs2⟩ := h.shape el hel
      obtain ⟨hok, _⟩ := hsh.shape _ hs1
      apply hsh.apart el.shape hs1 d i j p q hp hq
      intro l hl
      have hlt := hok.bound d p (List.mem_of_getElem? hp) l hl
      have hg := List.getElem?_eq_getElem (show l < (el.inc 0).length by omega)
      obtain ⟨l', c1, c2⟩ := (b2 _).1 (hs ((a2 _).2 ⟨l, hl, hg⟩))
      have := (List.getElem?_inj (by omega) (h.nodup el hel)).1 (hg.trans c2.symm)
      rw [this]; exact c1

theorem fixEntity_share (shapes : List Shape) (dim : Nat) (hdim : 0 < dim) (hsh : ShapesOk shapes dim) (m : Mesh P)
    (h : Mid shapes dim m) (hs : Shared dim m) (hc : Conforming dim (elemNodes m)) (d : Nat) (hd : 0 < d) (hdd : d < dim)
    (e : Nat) (el : Elem) (he : m.elems[e]? = some el) (ho : Others dim m e) (hi : (el.inc d).length < el.shape.count d) :
    ∃ m' gid, fixEntity dim m d e (el.inc d).length = some m' ∧
      m'.elems = m.elems.set e { el with inc := upd el.inc d (el.inc d ++ [gid]) } ∧ Mid shapes dim m' ∧ Shared dim m' := by
  obtain ⟨r, ns, h1, h2, h3, h4, h5⟩ := candidates_spec shapes dim hdim hsh m h d hd hdd e _ el he hi
  have hel := List.mem_of_getElem? he
  have hsh' := (shared_iff dim m).1 hs d hd hdd
  -- candidates are the entities with the same nodes
  have hcand : ∀ k, k ∈ r → ∃ e' i' ns', Has m d e' i' k ns' ∧ (∀ n, n ∈ ns' ↔ n ∈ ns) := by
    intro k hk
    have hall := (h5 k).1 hk
    obtain ⟨n0, tl, rfl⟩ := List.exists_cons_of_ne_nil h3
    obtain ⟨el', b1, b2, i', ns', b3, b4, b5⟩ := hall n0 (by simp)
    obtain ⟨e', be⟩ := List.mem_iff_getElem?.1 b1
    have hhas : Has m d e' i' k ns' := ⟨el', be, b3, b4⟩
    have hsub : (n0 :: tl) ⊆ ns' := by
      intro n hn
      obtain ⟨el2, c1, c2, i2, ns2, c3, c4, c5⟩ := hall n hn
      obtain ⟨e2, ce⟩ := List.mem_iff_getElem?.1 c1
      exact ((hsh' e2 e' i2 i' k k ns2 ns' ⟨el2, ce, c3, c4⟩ hhas).1 rfl n).1 c5
    have hsub2 := hc.2 d hd hdd (el.shape, el.inc 0) (List.mem_map.2 ⟨el, hel, rfl⟩) (el'.shape, el'.inc 0)
      (List.mem_map.2 ⟨el', b1, rfl⟩) _ _ _ _ h2 b4 hsub
    exact ⟨e', i', ns', hhas, fun n => ⟨fun hn => hsub2 hn, fun hn => hsub hn⟩⟩
  have hback : ∀ e' i' k' ns', Has m d e' i' k' ns' → (∀ n, n ∈ ns' ↔ n ∈ ns) → k' ∈ r := by
    rintro e' i' k' ns' ⟨el', a1, a2, a3⟩ hiff
    by_cases hee : e' = e
    · subst hee
      rw [he] at a1; cases a1
      have := same_part shapes dim hsh m h el hel d _ _ ns' ns a3 h2 (fun n hn => (hiff n).1 hn)
      rw [this, List.getElem?_eq_none (Nat.le_refl _)] at a2
      cases a2
    · rw [h5]
      intro n hn
      exact ⟨el', List.mem_of_getElem? a1, ho e' el' hee a1 d hdd, i', ns', a2, a3, (hiff n).2 hn⟩
  match hr : r with
  | [] =>
    subst hr
    obtain ⟨m', g1, g2⟩ := addEntity_eq (newEntity m d) d e (m.ents d).length el ⟨(m.ents d).length, []⟩ he (by rw [newEntity_get]; simp)
    have hg := addEntity_good dim _ m' d e _ hdd (newEntity_good dim m d h.good) g1
    refine ⟨m', (m.ents d).length, by simp [fixEntity, h1, g1], g2, mid_grow shapes dim m m' d e _ hd hdd el he hi g2 h hg, ?_⟩
    apply share_grow dim m m' d e _ hd el ns he h2 g2 hs
    intro e' i' k' ns' hh
    constructor
    · rintro rfl
      exfalso
      obtain ⟨el', a1, a2, a3⟩ := hh
      obtain ⟨ent, b1, _⟩ := (h.good.both d hdd e' i' _).1 ⟨el', a1, a2⟩
      have := (List.getElem?_eq_some_iff.1 b1).1
      omega
    · intro hiff
      exact absurd (hback e' i' k' ns' hh hiff) (by simp)
  | [c] =>
    subst hr
    obtain ⟨e0, i0, n0, c1, c2⟩ := hcand c (by simp)
    obtain ⟨el0, a1, a2, a3⟩ := c1
    obtain ⟨ent, b1, _⟩ := (h.good.both d hdd e0 i0 c).1 ⟨el0, a1, a2⟩
    obtain ⟨m', g1, g2⟩ := addEntity_eq m d e c el ent he b1
    have hg := addEntity_good dim _ m' d e _ hdd h.good g1
    refine ⟨m', c, by simp [fixEntity, h1, g1], g2, mid_grow shapes dim m m' d e _ hd hdd el he hi g2 h hg, ?_⟩
    apply share_grow dim m m' d e _ hd el ns he h2 g2 hs
    intro e' i' k' ns' hh
    constructor
    · rintro rfl n
      rw [(hsh' e' e0 i' i0 k' k' ns' n0 hh ⟨el0, a1, a2, a3⟩).1 rfl n, c2]
    · intro hiff
      have := hback e' i' k' ns' hh hiff
      simpa using this
  | a :: b :: l =>
    exfalso
    subst hr
    obtain ⟨e1, i1, n1, a1, a2⟩ := hcand a (by simp)
    obtain ⟨e2, i2, n2, b1, b2⟩ := hcand b (by simp)
    have : a = b := (hsh' e1 e2 i1 i2 a b n1 n2 a1 b1).2 (fun n => by rw [a2, b2])
    subst this
    simp at h4

theorem fixLevel_share (shapes : List Shape) (dim : Nat) (hdim : 0 < dim) (hsh : ShapesOk shapes dim) (d : Nat) (hd : 0 < d)
    (hdd : d < dim) (e : Nat) (n : Nat) : ∀ (m : Mesh P) (el : Elem), Mid shapes dim m → Shared dim m → Conforming dim (elemNodes m) →
    m.elems[e]? = some el → Others dim m e → (el.inc d).length + n = el.shape.count d →
    ∃ m' l, fixLevel dim m d e n (el.inc d).length = some m' ∧ m'.elems = m.elems.set e { el with inc := upd el.inc d l } ∧
      l.length = el.shape.count d ∧ Mid shapes dim m' ∧ Shared dim m' := by
  induction n with
  | zero =>
    intro m el h hs hc he ho hn
    refine ⟨m, el.inc d, rfl, ?_, by omega, h, hs⟩
    have hx : upd el.inc d (el.inc d) = el.inc := by
      funext k; unfold upd; split
      · rename_i hx; rw [hx]
      · rfl
    rw [hx]
    have := (List.getElem?_eq_some_iff.1 he).2
    show m.elems = m.elems.set e el
    rw [← this]; simp
  | succ n ih =>
    intro m el h hs hc he ho hn
    obtain ⟨m1, gid, h1, h2, h3, h4⟩ := fixEntity_share shapes dim hdim hsh m h hs hc d hd hdd e el he ho (by omega)
    have hlt : e < m.elems.length := (List.getElem?_eq_some_iff.1 he).1
    have he1 : m1.elems[e]? = some { el with inc := upd el.inc d (el.inc d ++ [gid]) } := by
      rw [h2, List.getElem?_set_self hlt]
    have hc1 : Conforming dim (elemNodes m1) := by rw [elemNodes_set m m1 d e hd el _ he h2]; exact hc
    obtain ⟨m', l, g1, g2, g3, g4, g5⟩ := ih m1 _ h3 h4 hc1 he1 (others_set dim m m1 e _ h2 ho)
      (by simp only [upd_self, List.length_append, List.length_singleton]; omega)
    refine ⟨m', l, ?_, ?_, g3, g4, g5⟩
    · simp only [upd_self, List.length_append, List.length_singleton] at g1
      simp [fixLevel, h1, g1]
    · rw [g2, h2, List.set_set]
      congr 2
      funext k
      by_cases hk : k = d <;> simp [upd, hk]

theorem fixElement_share (shapes : List Shape) (dim : Nat) (hdim : 0 < dim) (hsh : ShapesOk shapes dim) (e : Nat) (D : Nat) :
    ∀ (m : Mesh P) (el : Elem), D < dim → Mid shapes dim m → Shared dim m → Conforming dim (elemNodes m) →
    m.elems[e]? = some el → Others dim m e →
    ∃ m', fixElement dim m e D = some m' ∧ Shared dim m' ∧ elemNodes m' = elemNodes m := by
  induction D with
  | zero => intro m el _ h hs hc he ho; exact ⟨m, rfl, hs, rfl⟩
  | succ D ih =>
    intro m el hD h hs hc he ho
    have hle := h.lens el (List.mem_of_getElem? he) (D + 1) hD
    obtain ⟨m1, l, h1, h2, h3, h4, h5⟩ := fixLevel_share shapes dim hdim hsh (D + 1) (by omega) hD e
      (el.shape.count (D + 1) - (el.inc (D + 1)).length) m el h hs hc he ho (by omega)
    have hlt : e < m.elems.length := (List.getElem?_eq_some_iff.1 he).1
    have he1 : m1.elems[e]? = some { el with inc := upd el.inc (D + 1) l } := by rw [h2, List.getElem?_set_self hlt]
    have hnodes := elemNodes_set m m1 (D + 1) e (by omega) el l he h2
    obtain ⟨m', g1, g2, g3⟩ := ih m1 _ (by omega) h4 h5 (by rw [hnodes]; exact hc) he1 (others_set dim m m1 e _ h2 ho)
    refine ⟨m', ?_, g2, by rw [g3, hnodes]⟩
    simp [fixElement, he, h1, g1]

theorem addElementNodes_ok (cs : List Nat) : ∀ (m : Mesh P) (e : Elem) (ns : List Nat),
    cs.mapM (fun c => (m.coords[c]?).bind (·.node)) = some ns → (∀ n ∈ ns, n < (m.ents 0).length) →
    ∃ r, addElementNodes m e cs = some r ∧ r.2.inc 0 = e.inc 0 ++ ns := by
  induction cs with
  | nil =>
    intro m e ns h _
    simp at h; subst h
    exact ⟨(m, e), rfl, by simp⟩
  | cons c cs ih =>
    intro m e ns h hn
    simp only [List.mapM_cons, Option.bind_eq_bind, Option.bind_eq_some_iff, Option.pure_def, Option.some.injEq] at h
    obtain ⟨n, ⟨co, h1, h2⟩, ns', h3, rfl⟩ := h
    have hlt := hn n (by simp)
    have hent := List.getElem?_eq_getElem hlt
    have hlink := linkEntity_eq m 0 n (e.id, (e.inc 0).length) _ hent
    obtain ⟨r, g1, g2⟩ := ih { m with ents := upd m.ents 0 ((m.ents 0).set n { (m.ents 0)[n] with inc := (m.ents 0)[n].inc ++ [(e.id, (e.inc 0).length)] }) }
      { e with coords := e.coords ++ [c], inc := upd e.inc 0 (e.inc 0 ++ [n]) } ns' h3 (by
        intro x hx
        simp only [upd_self, List.length_set]
        exact hn x (by simp [hx]))
    refine ⟨r, ?_, ?_⟩
    · simp only [addElementNodes, h1, h2, Option.bind_eq_bind, Option.bind_some, hlink]
      exact g1
    · rw [g2]; simp [upd_self]

theorem addElement_share (shapes : List Shape) (dim : Nat) (hdim : 0 < dim) (hsh : ShapesOk shapes dim) (m : Mesh P)
    (hcon : Consistent shapes dim m) (hs : Shared dim m) (cs : List Nat) (z : String) (ns : List Nat) (shape : Shape)
    (hns : cs.mapM (fun c => (m.coords[c]?).bind (·.node)) = some ns) (hnl : ∀ n ∈ ns, n < (m.ents 0).length)
    (hshape : findGeometry shapes cs.length = some shape) (hc : Conforming dim (elemNodes m ++ [(shape, ns)])) :
    ∃ m', addElement shapes dim m cs z = some m' ∧ Shared dim m' ∧ elemNodes m' = elemNodes m ++ [(shape, ns)] := by
  obtain ⟨z1, z2, z3, z4, z5, z6⟩ := getZoneId_spec m z hcon.zoneNames
  obtain ⟨r, hr, hr0⟩ := addElementNodes_ok cs (getZoneId m z).1 ⟨m.elems.length, shape, fun _ => [], [], (getZoneId m z).2⟩ ns
    (by rw [z2]; exact hns) (by rw [z3]; exact hnl)
  obtain ⟨i1, i2, i3, i4, i5, i6, i7, i8, i9, i10, i11, i12⟩ := addElementNodes_spec dim hdim cs _ _ r (by simp [z1]) hr
  have hgm := addElement_mid shapes dim hdim m cs z hcon shape r hr
  have hfg := findGeometry_mem shapes _ shape hshape
  simp only [List.nil_append, List.length_nil, Nat.zero_add] at hr0 i10 i12
  have hel : (r.1.elems ++ [r.2])[m.elems.length]? = some r.2 := by rw [i3, z1]; simp
  have hel2 : r.1.elems ++ [r.2] = m.elems ++ [r.2] := by rw [i3, z1]
  have hnodes : elemNodes { r.1 with elems := r.1.elems ++ [r.2], ents := upd r.1.ents dim (r.1.ents dim ++ [⟨m.elems.length, [(m.elems.length, 0)]⟩]) } =
      elemNodes m ++ [(shape, ns)] := by
    unfold elemNodes
    simp only [hel2, List.map_append, List.map_cons, List.map_nil, i8, hr0]
  have hmid : Mid shapes dim { r.1 with elems := r.1.elems ++ [r.2], ents := upd r.1.ents dim (r.1.ents dim ++ [⟨m.elems.length, [(m.elems.length, 0)]⟩]) } := by
    refine ⟨hgm, ?_, ?_, ?_⟩
    · intro el hx
      simp only [hel2, List.mem_append, List.mem_singleton] at hx
      rcases hx with h1 | rfl
      · obtain ⟨a, b⟩ := hcon.full el h1
        exact ⟨a, b 0 hdim⟩
      · rw [i8, i12]; exact ⟨hfg.1, hfg.2.symm⟩
    · intro el hx d hd
      simp only [hel2, List.mem_append, List.mem_singleton] at hx
      rcases hx with h1 | rfl
      · exact Nat.le_of_eq ((hcon.full el h1).2 d hd)
      · rcases Nat.eq_zero_or_pos d with h0 | h0
        · subst h0; rw [i8, i12]; exact Nat.le_of_eq hfg.2.symm
        · rw [i10 d (by omega)]; simp
    · intro el hx
      simp only [hel2, List.mem_append, List.mem_singleton] at hx
      have hm : (el.shape, el.inc 0) ∈ elemNodes m ++ [(shape, ns)] := by
        rcases hx with h1 | rfl
        · exact List.mem_append_left _ (List.mem_map.2 ⟨el, h1, rfl⟩)
        · rw [i8, hr0]; simp
      exact hc.1 _ hm
  have hshared : Shared dim { r.1 with elems := r.1.elems ++ [r.2], ents := upd r.1.ents dim (r.1.ents dim ++ [⟨m.elems.length, [(m.elems.length, 0)]⟩]) } := by
    have get : ∀ (d : Nat), 0 < d → ∀ (e i k : Nat) (el : Elem), (m.elems ++ [r.2])[e]? = some el → (el.inc d)[i]? = some k →
        m.elems[e]? = some el := by
      intro d hd e i k el he hk
      rw [List.getElem?_append] at he
      split at he
      · exact he
      · have : el = r.2 := by
          have := List.mem_of_getElem? he
          simpa using this
        subst this
        rw [i10 d (by omega)] at hk
        simp at hk
    intro d h0 h1 e e' el el' i i' k k' n n' a1 b1 a2 b2 a3 b3
    simp only [hel2] at a1 b1
    exact hs d h0 h1 e e' el el' i i' k k' n n' (get d h0 e i k el a1 a2) (get d h0 e' i' k' el' b1 b2) a2 b2 a3 b3
  have hothers : Others dim { r.1 with elems := r.1.elems ++ [r.2], ents := upd r.1.ents dim (r.1.ents dim ++ [⟨m.elems.length, [(m.elems.length, 0)]⟩]) } m.elems.length := by
    intro e' el' hne he' d hd
    simp only [hel2, List.getElem?_append] at he'
    split at he'
    · rw [(hcon.full el' (List.mem_of_getElem? he')).2 d hd]
    · have : 0 < e' - m.elems.length := by omega
      rw [List.getElem?_eq_none (by simp; omega)] at he'
      cases he'
  obtain ⟨m', g1, g2, g3⟩ := fixElement_share shapes dim hdim hsh m.elems.length (dim - 1) _ r.2 (by omega) hmid hshared
    (by rw [hnodes]; exact hc) hel hothers
  refine ⟨m', ?_, g2, by rw [g3, hnodes]⟩
  unfold addElement
  simp only [Option.bind_eq_bind, hshape, hr, Option.bind_some]
  exact g1

end Verif.PreMesh
