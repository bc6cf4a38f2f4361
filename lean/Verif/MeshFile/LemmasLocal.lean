import Verif.MeshFile.LemmasFile

/-! # Helper lemmas: what the reader knows -/
set_option linter.all false
namespace Verif.MeshFile
open Verif.PreMesh Verif.ElementShape

theorem mem_elemsOf (elems : List LElem) (n : Nat) (q : Nat × Nat) :
    q ∈ elemsOf elems n ↔ ∃ el, elems[q.1]? = some el ∧ el.nodes[q.2]? = some n := by
  unfold elemsOf
  simp only [List.mem_flatten, List.mem_map, Prod.exists]
  constructor
  · rintro ⟨_, ⟨el, k, hk, rfl⟩, hq⟩
    rw [List.mem_map] at hq
    obtain ⟨⟨x, j⟩, hj, rfl⟩ := hq
    rw [List.mem_filter] at hj
    have h1 := List.mem_zipIdx_iff_getElem?.1 hk
    have h2 := List.mem_zipIdx_iff_getElem?.1 hj.1
    have h3 := hj.2
    simp at h3
    simp at h2
    exact ⟨el, by simpa using h1, by simp [h2, h3]⟩
  · rintro ⟨el, h1, h2⟩
    refine ⟨_, ⟨el, q.1, List.mem_zipIdx_iff_getElem?.2 (by simpa using h1), rfl⟩, ?_⟩
    rw [List.mem_map]
    exact ⟨(n, q.2), List.mem_filter.2 ⟨List.mem_zipIdx_iff_getElem?.2 (by simpa using h2), by simp⟩, rfl⟩

theorem zipIdx_nodup {α : Type} (l : List α) : l.zipIdx.Nodup := by
  apply List.Nodup.of_map Prod.snd
  rw [List.zipIdx_map_snd]
  exact List.nodup_range'

theorem elemsOf_nodup (elems : List LElem) (n : Nat) : (elemsOf elems n).Nodup := by
  unfold elemsOf
  rw [List.nodup_flatten]
  constructor
  · intro l hl
    rw [List.mem_map] at hl
    obtain ⟨⟨el, k⟩, _, rfl⟩ := hl
    apply List.Nodup.map_on
    · rintro ⟨x, j⟩ hx ⟨x', j'⟩ hx' he
      simp only [List.mem_filter, decide_eq_true_eq] at hx hx'
      simp only [Prod.mk.injEq, true_and] at he
      rw [hx.2, hx'.2, he]
    · exact (zipIdx_nodup _).filter _
  · rw [List.pairwise_map]
    have h : (elems.zipIdx.map Prod.snd).Nodup := by rw [List.zipIdx_map_snd]; exact List.nodup_range'
    rw [List.Nodup, List.pairwise_map] at h
    refine h.imp ?_
    rintro ⟨el, k⟩ ⟨el', k'⟩ hk
    rw [List.disjoint_left]
    intro q hq hq'
    rw [List.mem_map] at hq hq'
    obtain ⟨_, _, rfl⟩ := hq
    obtain ⟨_, _, he⟩ := hq'
    simp at he hk
    exact hk he.1.symm

theorem filter_flatMap_map {α β : Type} (l : List Nat) (f : Nat → List α) (p : α → Bool) (h : α → β) (g : Nat → Bool) (v : Nat → β)
    (hf : ∀ e ∈ l, ((f e).filter p).map h = if g e then [v e] else []) : ((l.flatMap f).filter p).map h = (l.filter g).map v := by
  induction l with
  | nil => rfl
  | cons a l ih =>
    rw [List.flatMap_cons, List.filter_append, List.map_append, hf a (by simp), ih fun e he => hf e (by simp [he])]
    by_cases hg : g a <;> simp [hg]

theorem filter_eq_singleton (l : List Nat) (hl : l.Nodup) (q : Nat) : l.filter (fun x => decide (x = q)) = if q ∈ l then [q] else [] := by
  induction l with
  | nil => rfl
  | cons a l ih =>
    rw [List.nodup_cons] at hl
    by_cases ha : a = q
    · subst ha
      rw [List.filter_cons_of_pos (by simp), ih hl.2, if_neg hl.1]
      simp
    · rw [List.filter_cons_of_neg (by simp [ha]), ih hl.2]
      simp [Ne.symm ha]

theorem relabel_id (p : List Nat) (f : LFace) : (relabel p f).id = f.id ∧ (relabel p f).left = f.left ∧ (relabel p f).right = f.right := by
  unfold relabel
  split <;> simp_all

theorem relabel_none (p : List Nat) (f : LFace) (h : f.right = none) : relabel p f = f := by
  unfold relabel
  rw [h]

variable {R : Type} [LinearOrder R] {shapes : List Shape} {dim : Nat} {m : Mesh (List R)} {parts : List Nat} {count : Nat}

theorem below_here (h : Writable shapes dim m parts count) (rank : Nat) :
    below m.elems.length (Present m parts rank) = (List.range m.elems.length).filter ((dataOf m parts).here rank) := by
  unfold below
  apply List.filter_congr
  intro e he
  obtain ⟨el, hel⟩ := get_of_lt (List.mem_range.1 he)
  have := here_iff h rank hel
  by_cases hp : Present m parts rank e
  · simp [hp, this.2 hp]
  · have : (dataOf m parts).here rank e = false := by
      rw [← Bool.not_eq_true]; exact fun hc => hp (this.1 hc)
    simp [hp, this]

theorem below_ents (N : Nat) (P : Nat → Prop) (ps : Nat → List Nat) (rank : Nat) (h : ∀ i, rank ∈ ps i ↔ P i) :
    below N P = (List.range N).filter fun i => decide (rank ∈ ps i) := by
  unfold below
  apply List.filter_congr
  intro e _
  simp [h]

theorem elems_get (h : Writable shapes dim m parts count) {rank : Nat} {ns : NodeState R} {es : ElemState}
    (hes : ElemInv (dataOf m parts) rank ns m.elems.length es) {e : Nat} (he : e < m.elems.length) (hp : (dataOf m parts).here rank e = true) :
    es.elems[rankOf ((dataOf m parts).here rank) e]? = some ((dataOf m parts).mk' ns e) := by
  rw [hes.elems, List.getElem?_map, filter_range_get _ he hp]
  rfl

theorem elems_mem (h : Writable shapes dim m parts count) {rank : Nat} {ns : NodeState R} {es : ElemState}
    (hes : ElemInv (dataOf m parts) rank ns m.elems.length es) {le : LElem} (hle : le ∈ es.elems) :
    ∃ e el, m.elems[e]? = some el ∧ Present m parts rank e ∧ (dataOf m parts).here rank e = true ∧ le = (dataOf m parts).mk' ns e := by
  rw [hes.elems, List.mem_map] at hle
  obtain ⟨e, he, rfl⟩ := hle
  rw [List.mem_filter, List.mem_range] at he
  obtain ⟨el, hel⟩ := get_of_lt he.1
  exact ⟨e, el, hel, (here_iff h rank hel).1 he.2, he.2, rfl⟩

theorem elems_get' (h : Writable shapes dim m parts count) {rank : Nat} {ns : NodeState R} {es : ElemState}
    (hes : ElemInv (dataOf m parts) rank ns m.elems.length es) {k : Nat} {le : LElem} (hle : es.elems[k]? = some le) :
    ∃ e el, m.elems[e]? = some el ∧ Present m parts rank e ∧ (dataOf m parts).here rank e = true ∧ le = (dataOf m parts).mk' ns e ∧
      k = rankOf ((dataOf m parts).here rank) e := by
  obtain ⟨e, el, h1, h2, h3, h4⟩ := elems_mem h hes (List.mem_of_getElem? hle)
  refine ⟨e, el, h1, h2, h3, h4, ?_⟩
  have h5 := elems_get h hes (lt_of_get h1) h3
  have hids : (es.elems.map LElem.id).Nodup := by
    have : es.elems.map LElem.id = (List.range m.elems.length).filter ((dataOf m parts).here rank) := by
      rw [hes.elems, List.map_map]
      exact (List.map_congr_left fun a _ => rfl).trans (List.map_id _)
    rw [this]
    exact List.nodup_range.filter _
  have hk : k < (es.elems.map LElem.id).length := by rw [List.length_map]; exact lt_of_get hle
  refine (List.getElem?_inj hk hids).1 ?_
  rw [List.getElem?_map, List.getElem?_map, hle, h5, h4]

theorem pulled_iff (h : Writable shapes dim m parts count) {rank : Nat} {ns : NodeState R} {es : ElemState}
    (hes : ElemInv (dataOf m parts) rank ns m.elems.length es) {k : Nat} {le : LElem} (hle : es.elems[k]? = some le) :
    k ∈ es.pull.map Prod.snd ↔ le.owner ≠ rank := by
  obtain ⟨e, el, h1, h2, h3, h4, h5⟩ := elems_get' h hes hle
  rw [hes.pull, List.map_map, List.mem_map]
  constructor
  · rintro ⟨e', he', hk⟩
    rw [List.mem_filter, Bool.and_eq_true] at he'
    simp only [Function.comp] at hk
    have := rankOf_inj _ he'.2.1 h3 (hk.trans h5)
    subst this
    rw [h4]
    simpa [ElemData.mk'] using he'.2.2
  · intro ho
    refine ⟨e, ?_, h5.symm⟩
    rw [List.mem_filter, Bool.and_eq_true]
    refine ⟨List.mem_range.2 (lt_of_get h1), h3, ?_⟩
    rw [h4] at ho
    simpa [ElemData.mk'] using ho

theorem makeFace_spec {periodic : Nat × Nat → Nat × Nat → Bool} {es : ElemState} {id : Nat} {inc : List (Nat × Nat)} {f : LFace}
    (hf : makeFace periodic es id inc = some f) :
    (f.right = none ∧ (∃ e i, inc = [(e, i)] ∧ actualAt es e = some f.left.1 ∧ f.left.2 = i ∧ f.type = .wall)) ∨
    (f.right = none ∧ (∃ e i e' i', inc = [(e, i), (e', i')] ∧ f.type = .partialFace ∧
      ((actualAt es e = some f.left.1 ∧ f.left.2 = i ∧ actualAt es e' = none) ∨ (actualAt es e' = some f.left.1 ∧ f.left.2 = i' ∧ actualAt es e = none)))) ∨
    (∃ e i e' i' r, inc = [(e, i), (e', i')] ∧ f.right = some r ∧ actualAt es e = some f.left.1 ∧ f.left.2 = i ∧ actualAt es e' = some r.1 ∧ r.2 = i' ∧
      f.type = if periodic f.left r then .periodic else .internal) := by
  unfold makeFace at hf
  split at hf
  · rename_i e i
    simp only [Option.map_eq_some_iff] at hf
    obtain ⟨a, ha, rfl⟩ := hf
    exact Or.inl ⟨rfl, e, i, rfl, ha, rfl, rfl⟩
  · rename_i e i e' i'
    right
    split at hf
    · simp at hf
    · rename_i b h1 h2
      simp at hf
      subst hf
      exact Or.inl ⟨rfl, e, i, e', i', rfl, rfl, Or.inr ⟨h2, rfl, h1⟩⟩
    · rename_i b h1 h2
      simp at hf
      subst hf
      exact Or.inl ⟨rfl, e, i, e', i', rfl, rfl, Or.inl ⟨h1, rfl, h2⟩⟩
    · rename_i a b h1 h2
      simp at hf
      subst hf
      exact Or.inr ⟨e, i, e', i', (b, i'), rfl, rfl, h1, rfl, h2, rfl, rfl⟩
  · simp at hf

/-- The last loop gives the kinds. -/
theorem relabel_kind (p : List Nat) (f : LFace) (r : Nat × Nat) (hr : f.right = some r) (c : Bool)
    (ht : f.type = if c then .periodic else .internal) :
    (relabel p f).type = if f.left.1 ∉ p ∧ r.1 ∉ p then (if c then .periodic else .internal)
      else if f.left.1 ∉ p ∨ r.1 ∉ p then (if c then .periodicSubdomain else .subdomain) else .periodicSubdomain := by
  unfold relabel
  rw [hr]
  by_cases h1 : f.left.1 ∈ p <;> by_cases h2 : r.1 ∈ p <;> cases c <;> simp_all [visit]

end Verif.MeshFile
