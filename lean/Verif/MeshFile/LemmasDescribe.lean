import Verif.MeshFile.LemmasLocal

/-! # Helper lemmas: the description of the local mesh -/
set_option linter.all false
namespace Verif.MeshFile
open Verif.PreMesh Verif.ElementShape

variable {R : Type} [LinearOrder R] {shapes : List Shape} {dim : Nat} {m : Mesh (List R)} {parts : List Nat} {count : Nat}

section
variable {rank : Nat} {ns : NodeState R} {es : ElemState}

theorem below_eq (N : Nat) (P : Nat → Prop) (p : Nat → Bool) (h : ∀ e < N, (p e = true ↔ P e)) : below N P = (List.range N).filter p := by
  unfold below
  apply List.filter_congr
  intro e he
  rw [Bool.eq_iff_iff, h e (List.mem_range.1 he)]; simp

theorem ids_eq (hes : ElemInv (dataOf m parts) rank ns m.elems.length es) :
    es.elems.map LElem.id = (List.range m.elems.length).filter ((dataOf m parts).here rank) := by
  rw [hes.elems, List.map_map]
  exact (List.map_congr_left fun a _ => rfl).trans (List.map_id _)

theorem id_get (h : Writable shapes dim m parts count) (hes : ElemInv (dataOf m parts) rank ns m.elems.length es) {e : Nat} (he : e < m.elems.length)
    (hp : (dataOf m parts).here rank e = true) : (es.elems[rankOf ((dataOf m parts).here rank) e]?).map LElem.id = some e := by
  rw [elems_get h hes he hp]; rfl

theorem actual_id (h : Writable shapes dim m parts count) (hes : ElemInv (dataOf m parts) rank ns m.elems.length es) {e a : Nat} {el : Elem}
    (he : m.elems[e]? = some el) (ha : actualAt es e = some a) : (es.elems[a]?).map LElem.id = some e ∧ Present m parts rank e := by
  by_cases hp : Present m parts rank e
  · have := (actualAt_present h hes he).1 hp
    rw [this] at ha
    cases ha
    exact ⟨id_get h hes (lt_of_get he) ((here_iff h rank he).2 hp), hp⟩
  · have := (actualAt_present h hes he).2 hp
    rw [this] at ha
    simp at ha

theorem push_spec (h : Writable shapes dim m parts count) (hes : ElemInv (dataOf m parts) rank ns m.elems.length es) (q : Nat) :
    (es.push.filter fun x => decide (x.1 = q)).map (fun x => (es.elems[x.2]?).map LElem.id) =
    (below m.elems.length fun e => parts[e]? = some rank ∧ q ≠ rank ∧ Present m parts q e).map some := by
  rw [hes.push]
  rw [filter_flatMap_map _ _ _ _ (fun e => decide (q ∈ (dataOf m parts).sh e)) some]
  · congr 1
    rw [List.filter_filter]
    refine (below_eq _ _ _ ?_).symm
    intro e he
    obtain ⟨el, hel⟩ := get_of_lt he
    rw [← Bool.decide_and, decide_eq_true_eq, mem_sh_iff h hel, own_eq h hel, Option.some.injEq]
    constructor
    · rintro ⟨⟨a, b⟩, c⟩
      exact ⟨c, c ▸ a, b⟩
    · rintro ⟨a, b, c⟩
      exact ⟨⟨a ▸ b, c⟩, a⟩
  · intro e he
    rw [List.mem_filter, List.mem_range] at he
    obtain ⟨el, hel⟩ := get_of_lt he.1
    have ho : (dataOf m parts).own e = rank := by simpa using he.2
    have hh : (dataOf m parts).here rank e = true := by simp [ElemData.here, ho]
    rw [List.filter_map, List.map_map]
    rw [show ((fun x : Nat × Nat => decide (x.1 = q)) ∘ fun q => (q, rankOf ((dataOf m parts).here rank) e)) = fun x => decide (x = q) from rfl,
      filter_eq_singleton _ (sh_nodup h hel)]
    by_cases hq : q ∈ (dataOf m parts).sh e
    · simp [hq, id_get h hes he.1 hh]
    · simp [hq]

theorem pull_spec (h : Writable shapes dim m parts count) (hes : ElemInv (dataOf m parts) rank ns m.elems.length es) (q : Nat) :
    (es.pull.filter fun x => decide (x.1 = q)).map (fun x => (es.elems[x.2]?).map LElem.id) =
    (below m.elems.length fun e => parts[e]? = some q ∧ q ≠ rank ∧ Present m parts rank e).map some := by
  rw [hes.pull, List.filter_map, List.filter_filter, List.map_map]
  rw [below_eq _ _ (fun a => (((fun x : Nat × Nat => decide (x.1 = q)) ∘ fun e => ((dataOf m parts).own e, rankOf ((dataOf m parts).here rank) e)) a &&
      ((dataOf m parts).here rank a && decide ((dataOf m parts).own a ≠ rank)))) ?_]
  · apply List.map_congr_left
    intro e he
    simp only [List.mem_filter, List.mem_range, Bool.and_eq_true] at he
    exact id_get h hes he.1 he.2.2.1
  · intro e he
    obtain ⟨el, hel⟩ := get_of_lt he
    rw [own_eq h hel, Option.some.injEq]
    simp only [Function.comp, Bool.and_eq_true, decide_eq_true_eq, here_iff h rank hel]
    constructor
    · rintro ⟨a, b, c⟩
      exact ⟨a, a ▸ c, b⟩
    · rintro ⟨a, b, c⟩
      exact ⟨a, c, a ▸ b⟩

theorem elem_spec (h : Writable shapes dim m parts count) (hes : ElemInv (dataOf m parts) rank ns m.elems.length es) {off : Nat}
    (hns : NodeInv off (fun i => decide (rank ∈ psOf m parts i)) (csOf m) (m.ents 0).length ns) {le : LElem} (hle : le ∈ es.elems) :
    ∃ el, m.elems[le.id]? = some el ∧ le.zone = el.zone ∧ parts[le.id]? = some le.owner ∧
    le.nodes.map (fun n => ns.nodes[n]?) = (el.inc 0).map (fun n => some (n + off)) ∧
    le.coords.map (fun c => ns.coords[c]?) = el.coords.map fun c => (m.coords[c]?).map Coord.pos := by
  obtain ⟨e, el, h1, h2, h3, rfl⟩ := elems_mem h hes hle
  have e1 : (dataOf m parts).ns e = (el.inc 0).map fun n => (n, (coordinateIndex m n e).getD 0) := by simp [dataOf, h1]
  refine ⟨el, h1, by simp [ElemData.mk', dataOf, h1], own_eq h h1, ?_, ?_⟩
  · simp only [ElemData.mk', e1, List.map_map]
    apply List.map_congr_left
    intro n hn
    obtain ⟨j, hj⟩ := List.getElem?_of_mem hn
    exact (ns_spec h rank h1 h2 hns hj).2.2.2.1
  · simp only [ElemData.mk', e1, List.map_map]
    have hlen := (h.cons.coords el (List.mem_of_getElem? h1)).1
    apply List.ext_getElem?
    intro j
    rw [List.getElem?_map, List.getElem?_map]
    by_cases hj : j < (el.inc 0).length
    · obtain ⟨n, hn⟩ := get_of_lt hj
      obtain ⟨c, hc⟩ := get_of_lt (show j < el.coords.length by omega)
      obtain ⟨_, _, _, _, g5, _, _, g8⟩ := ns_spec h rank h1 h2 hns hn
      rw [hn, hc]
      simp only [Option.map_some, Function.comp, g5, g8, hc, Option.bind_some]
    · rw [List.getElem?_eq_none (by omega), List.getElem?_eq_none (by omega)]
      rfl

theorem coord_spec (h : Writable shapes dim m parts count) (hes : ElemInv (dataOf m parts) rank ns m.elems.length es) {off : Nat}
    (hns : NodeInv off (fun i => decide (rank ∈ psOf m parts i)) (csOf m) (m.ents 0).length ns) :
    ∀ le ∈ es.elems, ∀ le' ∈ es.elems, ∀ (j j' c c' n n' : Nat), le.coords[j]? = some c → le'.coords[j']? = some c' →
    le.nodes[j]? = some n → le'.nodes[j']? = some n' → (c = c' ↔ n = n' ∧ ns.coords[c]? = ns.coords[c']?) := by
  intro le hle le' hle' j j' c c' n n' hc hc' hn hn'
  obtain ⟨e, el, h1, h2, h3, rfl⟩ := elems_mem h hes hle
  obtain ⟨e', el', h1', h2', h3', rfl⟩ := elems_mem h hes hle'
  have e1 : (dataOf m parts).ns e = (el.inc 0).map fun n => (n, (coordinateIndex m n e).getD 0) := by simp [dataOf, h1]
  have e1' : (dataOf m parts).ns e' = (el'.inc 0).map fun n => (n, (coordinateIndex m n e').getD 0) := by simp [dataOf, h1']
  simp only [ElemData.mk', e1, e1', List.map_map, List.getElem?_map, Option.map_eq_some_iff] at hc hc' hn hn'
  obtain ⟨g, hg, rfl⟩ := hc
  obtain ⟨g', hg', rfl⟩ := hc'
  obtain ⟨g2, hg2, rfl⟩ := hn
  obtain ⟨g2', hg2', rfl⟩ := hn'
  rw [hg] at hg2; cases hg2
  rw [hg'] at hg2'; cases hg2'
  simp only [Function.comp]
  obtain ⟨a1, a2, a3, _, a5, a6, a7, _⟩ := ns_spec h rank h1 h2 hns hg
  obtain ⟨b1, b2, b3, _, b5, b6, b7, _⟩ := ns_spec h rank h1' h2' hns hg'
  constructor
  · intro heq
    obtain ⟨rfl, _⟩ := hns.coord_inj g g' a1 b1 (by simpa using a2) (by simpa using b2) _ _ a3 b3 heq
    exact ⟨rfl, by rw [heq]⟩
  · rintro ⟨hn, hcoord⟩
    rw [hns.index g a1 (by simpa using a2), hns.index g' b1 (by simpa using b2)] at hn
    have := rankOf_inj _ (by simpa using a2) (by simpa using b2) hn
    subst this
    rw [a5, b5, ← a6, ← b6] at hcoord
    rw [(List.getElem?_inj a3 (csOf_spec h g).1).1 hcoord]

theorem face_spec (h : Writable shapes dim m parts count) (hes : ElemInv (dataOf m parts) rank ns m.elems.length es) {d : Nat} (hd : d < dim)
    {periodic : Nat × Nat → Nat × Nat → Bool} {k : Nat} {ent : Entity} (hk : (m.ents d)[k]? = some ent) {f : LFace}
    (hf : makeFace periodic es k ent.inc = some f) (p : List Nat) :
    IsFace m parts rank (fun k => (es.elems[k]?).map LElem.id) (relabel p f) ent.inc := by
  obtain ⟨r1, r2, r3⟩ := relabel_id p f
  have hel : ∀ q ∈ ent.inc, ∃ el, m.elems[q.1]? = some el := fun q hq => by
    obtain ⟨el, he, _⟩ := linked_elem h hd hk hq; exact ⟨el, he⟩
  have hnone : ∀ q ∈ ent.inc, actualAt es q.1 = none → ¬ Present m parts rank q.1 := by
    intro q hq hn hp
    obtain ⟨el, he⟩ := hel q hq
    rw [(actualAt_present h hes he).1 hp] at hn
    simp at hn
  rcases makeFace_spec hf with ⟨hr, e, i, hinc, ha, hi, ht⟩ | ⟨hr, e, i, e', i', hinc, ht, hh⟩ | ⟨e, i, e', i', r, hinc, hr, ha, hi, ha', hi', ht⟩
  · rw [hinc] at hel ⊢
    rw [relabel_none p f hr]
    obtain ⟨el, he⟩ := hel (e, i) (by simp)
    exact IsFace.wall e i (actual_id h hes he ha).1 hi hr ht
  · rw [hinc] at hel hnone ⊢
    rw [relabel_none p f hr]
    rcases hh with ⟨ha, hi, hn⟩ | ⟨ha, hi, hn⟩
    · obtain ⟨el, he⟩ := hel (e, i) (by simp)
      exact IsFace.first e i e' i' (actual_id h hes he ha).1 hi hr ht (hnone (e', i') (by simp) hn)
    · obtain ⟨el, he⟩ := hel (e', i') (by simp)
      exact IsFace.second e i e' i' (actual_id h hes he ha).1 hi hr ht (hnone (e, i) (by simp) hn)
  · rw [hinc] at hel ⊢
    obtain ⟨el, he⟩ := hel (e, i) (by simp)
    obtain ⟨el', he'⟩ := hel (e', i') (by simp)
    refine IsFace.both e i e' i' r.1 (by rw [r2]; exact (actual_id h hes he ha).1) (by rw [r2]; exact hi) (by rw [r3, hr, ← hi']) (actual_id h hes he' ha').1

theorem kind_spec (h : Writable shapes dim m parts count) (hes : ElemInv (dataOf m parts) rank ns m.elems.length es)
    {periodic : Nat × Nat → Nat × Nat → Bool} {f : LFace} {r : Nat × Nat} (hr : f.right = some r)
    (ht : f.type = if periodic f.left r then .periodic else .internal)
    {el er : LElem} (hel : es.elems[f.left.1]? = some el) (her : es.elems[r.1]? = some er) :
    (relabel (es.pull.map Prod.snd) f).type = if el.owner = rank ∧ er.owner = rank then (if periodic f.left r then .periodic else .internal)
      else if el.owner = rank ∨ er.owner = rank then (if periodic f.left r then .periodicSubdomain else .subdomain)
      else .periodicSubdomain := by
  rw [relabel_kind _ f r hr _ ht]
  have h1 : f.left.1 ∉ es.pull.map Prod.snd ↔ el.owner = rank := by rw [pulled_iff h hes hel]; simp
  have h2 : r.1 ∉ es.pull.map Prod.snd ↔ er.owner = rank := by rw [pulled_iff h hes her]; simp
  simp only [h1, h2]

theorem edge_spec (h : Writable shapes dim m parts count) (hes : ElemInv (dataOf m parts) rank ns m.elems.length es) {d : Nat} (hd : d < dim)
    {k : Nat} {ent : Entity} (hk : (m.ents d)[k]? = some ent) :
    (ent.inc.filterMap fun q => (actualAt es q.1).map fun a => (a, q.2)).map (fun x => ((es.elems[x.1]?).map LElem.id, x.2)) =
      open Classical in (ent.inc.filter fun q => decide (Present m parts rank q.1)).map fun q => (some q.1, q.2) := by
  have : ∀ l : List (Nat × Nat), (∀ q ∈ l, ∃ el, m.elems[q.1]? = some el) →
      (l.filterMap fun q => (actualAt es q.1).map fun a => (a, q.2)).map (fun x => ((es.elems[x.1]?).map LElem.id, x.2)) =
      open Classical in (l.filter fun q => decide (Present m parts rank q.1)).map fun q => (some q.1, q.2) := by
    intro l hl
    induction l with
    | nil => rfl
    | cons q l ih =>
      have ih' := ih fun x hx => hl x (by simp [hx])
      obtain ⟨el, he⟩ := hl q (by simp)
      by_cases hp : Present m parts rank q.1
      · have ha := (actualAt_present h hes he).1 hp
        have hid := (actual_id h hes he ha).1
        simp only [List.filterMap_cons, ha, Option.map_some, List.map_cons, hid, ih', List.filter_cons, hp, decide_true, if_true]
      · have ha := (actualAt_present h hes he).2 hp
        simp only [List.filterMap_cons, ha, Option.map_none, ih', List.filter_cons, hp, decide_false]
        simp
  exact this ent.inc fun q hq => by obtain ⟨el, he, _⟩ := linked_elem h hd hk hq; exact ⟨el, he⟩

/-- The local elements of a node. -/
theorem elemsOf_spec (h : Writable shapes dim m parts count) (hes : ElemInv (dataOf m parts) rank ns m.elems.length es) {off : Nat}
    (hns : NodeInv off (fun i => decide (rank ∈ psOf m parts i)) (csOf m) (m.ents 0).length ns) {n g : Nat} {ent : Entity}
    (hn : ns.nodes[n]? = some (g + off)) (hent : (m.ents 0)[g]? = some ent) :
    (∀ q ∈ elemsOf es.elems n, ∃ e, (es.elems[q.1]?).map LElem.id = some e ∧ (e, q.2) ∈ ent.inc) ∧
    (∀ q ∈ ent.inc, Present m parts rank q.1 → ∃ k, (k, q.2) ∈ elemsOf es.elems n ∧ (es.elems[k]?).map LElem.id = some q.1) := by
  constructor
  · intro q hq
    obtain ⟨le, hle, hj⟩ := (mem_elemsOf _ _ _).1 hq
    obtain ⟨e, el, h1, h2, h3, rfl, h5⟩ := elems_get' h hes hle
    refine ⟨e, by rw [hle]; rfl, ?_⟩
    have e1 : (dataOf m parts).ns e = (el.inc 0).map fun n => (n, (coordinateIndex m n e).getD 0) := by simp [dataOf, h1]
    simp only [ElemData.mk', e1, List.map_map, List.getElem?_map, Option.map_eq_some_iff] at hj
    obtain ⟨g', hg', hidx⟩ := hj
    obtain ⟨_, _, _, a4, _⟩ := ns_spec h rank h1 h2 hns hg'
    simp only [Function.comp] at hidx
    rw [hidx, hn] at a4
    have : g' = g := by simpa using a4.symm
    subst this
    obtain ⟨ent', hent', hmem⟩ := listed_node h h.dimPos h1 hg'
    rw [hent] at hent'
    cases hent'
    exact hmem
  · intro q hq hp
    obtain ⟨el, he, hk⟩ := linked_elem h h.dimPos hent hq
    have hh := (here_iff h rank he).2 hp
    refine ⟨_, (mem_elemsOf _ _ _).2 ⟨_, elems_get h hes (lt_of_get he) hh, ?_⟩, id_get h hes (lt_of_get he) hh⟩
    have e1 : (dataOf m parts).ns q.1 = (el.inc 0).map fun n => (n, (coordinateIndex m n q.1).getD 0) := by simp [dataOf, he]
    simp only [ElemData.mk', e1, List.map_map, List.getElem?_map, hk, Option.map_some, Function.comp, Option.some.injEq]
    obtain ⟨a1, a2, _, a4, _⟩ := ns_spec h rank he hp hns hk
    have hnd : ns.nodes.Nodup := by
      rw [hns.nodes]
      exact (List.nodup_range.filter _).map fun a b hab => by simpa using hab
    exact (List.getElem?_inj (lt_of_get a4) hnd).1 (a4.trans hn.symm)
end

end Verif.MeshFile
