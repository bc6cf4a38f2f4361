import Verif.Assign.Lemmas2

set_option linter.all false
namespace Verif.Assign
open Verif.Basis Verif.ElementData

theorem mem_collect {α : Type} {f : α → Option (List Call)} {l : List α} {r : List Call} (h : collect f l = some r)
    (c : Call) : c ∈ r ↔ ∃ a ∈ l, ∃ x, f a = some x ∧ c ∈ x := by
  induction l generalizing r with
  | nil => cases h; simp
  | cons a l ih =>
    simp only [collect, Option.bind_eq_some_iff, Option.map_eq_some_iff] at h
    obtain ⟨x, hx, y, hy, rfl⟩ := h
    rw [List.mem_append, ih hy]
    constructor
    · rintro (h | ⟨b, hb, z, hz⟩)
      · exact ⟨a, by simp, x, hx, h⟩
      · exact ⟨b, by simp [hb], z, hz⟩
    · rintro ⟨b, hb, z, hz, hc⟩
      rcases List.mem_cons.1 hb with rfl | hb
      · rw [hx] at hz; cases hz; exact Or.inl hc
      · exact Or.inr ⟨b, hb, z, hz, hc⟩

theorem collect_some {α : Type} {f : α → Option (List Call)} {l : List α} {r : List Call} (h : collect f l = some r) :
    ∀ a ∈ l, ∃ x, f a = some x := by
  induction l generalizing r with
  | nil => simp
  | cons a l ih =>
    simp only [collect, Option.bind_eq_some_iff, Option.map_eq_some_iff] at h
    obtain ⟨x, hx, y, hy, rfl⟩ := h
    intro b hb
    rcases List.mem_cons.1 hb with rfl | hb
    · exact ⟨x, hx⟩
    · exact ih hy b hb

theorem collect_defined {α : Type} (f : α → Option (List Call)) (l : List α) (h : ∀ a ∈ l, ∃ x, f a = some x) :
    ∃ r, collect f l = some r := by
  induction l with
  | nil => exact ⟨[], rfl⟩
  | cons a l ih =>
    obtain ⟨x, hx⟩ := h a (by simp)
    obtain ⟨y, hy⟩ := ih (fun b hb => h b (by simp [hb]))
    exact ⟨_, by simp [collect, hx, hy]; rfl⟩

theorem hit_put {m : Mesh} {e p : Nat} {el : Elem} (hel : m.elems[e]? = some el) (e' : Nat) (s : Slot) (x v : Nat) :
    hit m e p (.put e' s x) = some v ↔ e' = e ∧ el.place s = some p ∧ v = x := by
  simp only [hit]
  by_cases he : e' = e
  · subst he
    simp only [hel, Option.bind_some, true_and]
    by_cases hp : el.place s = some p
    · simp [hp, eq_comm]
    · simp [hp]
  · simp [he]

variable {m : Mesh} {coll : List FSet} {ix : Index}

theorem face_hit {i : Nat} {f : (Nat × Nat) × Option Side} {cs : List Call} (h : faceCalls m coll ix i f = some cs)
    {e p : Nat} {el : Elem} (hel : m.elems[e]? = some el) {a nf ne : Nat} (hk : ix el.kind = some (a, nf, ne)) (v : Nat) :
    (∃ c ∈ cs, hit m e p c = some v) ↔ ∃ r ∈ (⟨f.1.1, f.1.2, 0⟩ : Side) :: f.2.toList, r.elem = e ∧
      el.place (.face r.num) = some p ∧ v ∈ matching coll (a + 1) nf r.orient r.num := by
  have hlook : lookupKind m ix e = some (a, nf, ne) := by simp [lookupKind, hel, hk]
  simp only [faceCalls, Option.bind_eq_some_iff] at h
  obtain ⟨⟨b, mf, me⟩, hb, h⟩ := h
  rcases hf : f.2 with _ | r
  · rw [hf] at h
    simp only [Option.some.injEq] at h
    subst h
    simp only [List.mem_flatMap, List.mem_cons, List.not_mem_nil, or_false, Option.toList_none, exists_eq_left]
    constructor
    · rintro ⟨c, ⟨x, hx, rfl | rfl⟩, hh⟩
      · obtain ⟨rfl, hp, rfl⟩ := (hit_put hel _ _ _ _).1 hh
        rw [hlook] at hb; cases hb
        exact ⟨rfl, hp, hx⟩
      · simp [hit] at hh
    · rintro ⟨rfl, hp, hx⟩
      rw [hlook] at hb; cases hb
      exact ⟨_, ⟨v, hx, Or.inl rfl⟩, (hit_put hel _ _ _ _).2 ⟨rfl, hp, rfl⟩⟩
  · rw [hf] at h
    simp only [Option.map_eq_some_iff] at h
    obtain ⟨⟨b', mf', me'⟩, hb', h⟩ := h
    subst h
    simp only [List.mem_append, List.mem_flatMap, List.mem_map, List.mem_cons, List.not_mem_nil, or_false,
      Option.toList_some, exists_eq_or_imp, exists_eq_left]
    constructor
    · rintro ⟨c, ⟨x, hx, rfl | rfl⟩ | ⟨x, hx, rfl⟩, hh⟩
      · obtain ⟨rfl, hp, rfl⟩ := (hit_put hel _ _ _ _).1 hh
        rw [hlook] at hb; cases hb
        exact Or.inl ⟨rfl, hp, hx⟩
      · simp [hit] at hh
      · obtain ⟨rfl, hp, rfl⟩ := (hit_put hel _ _ _ _).1 hh
        rw [hlook] at hb'; cases hb'
        exact Or.inr ⟨rfl, hp, hx⟩
    · rintro (⟨rfl, hp, hx⟩ | ⟨rfl, hp, hx⟩)
      · rw [hlook] at hb; cases hb
        exact ⟨_, Or.inl ⟨v, hx, Or.inl rfl⟩, (hit_put hel _ _ _ _).2 ⟨rfl, hp, rfl⟩⟩
      · rw [hlook] at hb'; cases hb'
        exact ⟨_, Or.inr ⟨v, hx, rfl⟩, (hit_put hel _ _ _ _).2 ⟨rfl, hp, rfl⟩⟩

theorem edge_hit {i : Nat} {r : Side} {cs : List Call} (h : edgeCalls m coll ix i r = some cs)
    {e p : Nat} {el : Elem} (hel : m.elems[e]? = some el) {a nf ne : Nat} (hk : ix el.kind = some (a, nf, ne)) (v : Nat) :
    (∃ c ∈ cs, hit m e p c = some v) ↔ r.elem = e ∧
      el.place (.edge r.num) = some p ∧ v ∈ matching coll (a + nf + 1) ne r.orient r.num := by
  have hlook : lookupKind m ix e = some (a, nf, ne) := by simp [lookupKind, hel, hk]
  simp only [edgeCalls, Option.map_eq_some_iff] at h
  obtain ⟨⟨b, mf, me⟩, hb, rfl⟩ := h
  simp only [List.mem_flatMap, List.mem_cons, List.not_mem_nil, or_false]
  constructor
  · rintro ⟨c, ⟨x, hx, rfl | rfl⟩, hh⟩
    · obtain ⟨rfl, hp, rfl⟩ := (hit_put hel _ _ _ _).1 hh
      rw [hlook] at hb; cases hb
      exact ⟨rfl, hp, hx⟩
    · simp [hit] at hh
  · rintro ⟨rfl, hp, hx⟩
    rw [hlook] at hb; cases hb
    exact ⟨_, ⟨v, hx, Or.inl rfl⟩, (hit_put hel _ _ _ _).2 ⟨rfl, hp, rfl⟩⟩

theorem corner_hit {i : Nat} {r : Corner} {cs : List Call} (h : cornerCalls m coll ix i r = some cs)
    {e p : Nat} {el : Elem} (hel : m.elems[e]? = some el) {a nf ne : Nat} (hk : ix el.kind = some (a, nf, ne)) (v : Nat) :
    (∃ c ∈ cs, hit m e p c = some v) ↔ r.elem = e ∧
      el.place (.node r.num) = some p ∧ ∃ t, r.topological = some t ∧ v = a + nf + ne + 1 + t := by
  have hlook : lookupKind m ix e = some (a, nf, ne) := by simp [lookupKind, hel, hk]
  simp only [cornerCalls, Option.bind_eq_some_iff] at h
  obtain ⟨⟨b, mf, me⟩, hb, t, ht, h⟩ := h
  simp only at h
  split at h
  · cases h
    simp only [List.mem_cons, List.not_mem_nil, or_false]
    constructor
    · rintro ⟨c, rfl | rfl, hh⟩
      · obtain ⟨rfl, hp, rfl⟩ := (hit_put hel _ _ _ _).1 hh
        rw [hlook] at hb; cases hb
        exact ⟨rfl, hp, t, ht, rfl⟩
      · simp [hit] at hh
    · rintro ⟨rfl, hp, t', ht', rfl⟩
      rw [hlook] at hb; cases hb
      rw [ht] at ht'; cases ht'
      exact ⟨_, Or.inl rfl, (hit_put hel _ _ _ _).2 ⟨rfl, hp, rfl⟩⟩
  · cases h

/-- the node is one of the topology -/
def Real (n : List Corner) : Prop := ∃ c, n.head? = some c ∧ c.topological.isSome

theorem all_hits {cs : List Call} (h : allCalls m coll ix = some cs)
    {e p : Nat} {el : Elem} (hel : m.elems[e]? = some el) {a nf ne : Nat} (hk : ix el.kind = some (a, nf, ne)) (v : Nat) :
    (∃ c ∈ cs, hit m e p c = some v) ↔
      (∃ r ∈ m.sides, r.elem = e ∧ el.place (.face r.num) = some p ∧ v ∈ matching coll (a + 1) nf r.orient r.num) ∨
      (∃ r ∈ m.edges.flatten, r.elem = e ∧ el.place (.edge r.num) = some p ∧
        v ∈ matching coll (a + nf + 1) ne r.orient r.num) ∨
      (m.dim > 1 ∧ ∃ n ∈ m.nodes, Real n ∧ ∃ r ∈ n, r.elem = e ∧ el.place (.node r.num) = some p ∧
        ∃ t, r.topological = some t ∧ v = a + nf + ne + 1 + t) := by
  simp only [allCalls, Option.bind_eq_some_iff, Option.map_eq_some_iff] at h
  obtain ⟨A, hA, B, hB, C, hC, rfl⟩ := h
  have key : (∃ c ∈ A ++ B ++ C, hit m e p c = some v) ↔
      (∃ c ∈ A, hit m e p c = some v) ∨ (∃ c ∈ B, hit m e p c = some v) ∨ (∃ c ∈ C, hit m e p c = some v) := by
    simp only [List.mem_append, or_assoc, or_and_right, exists_or]
  rw [key]
  refine or_congr ?_ (or_congr ?_ ?_)
  · constructor
    · rintro ⟨c, hc, hh⟩
      obtain ⟨⟨f, i⟩, hf, x, hx, hcx⟩ := (mem_collect hA c).1 hc
      obtain ⟨r, hr, hh⟩ := (face_hit hx hel hk v).1 ⟨c, hcx, hh⟩
      exact ⟨r, List.mem_flatMap.2 ⟨f, List.mem_of_getElem? (List.mem_zipIdx_iff_getElem?.1 hf), hr⟩, hh⟩
    · rintro ⟨r, hr, hh⟩
      obtain ⟨f, hf, hr⟩ := List.mem_flatMap.1 hr
      obtain ⟨i, hi⟩ := List.mem_iff_getElem?.1 hf
      have hm : (f, i) ∈ m.faces.zipIdx := List.mem_zipIdx_iff_getElem?.2 hi
      obtain ⟨x, hx⟩ := collect_some hA _ hm
      obtain ⟨c, hc, hv⟩ := (face_hit hx hel hk v).2 ⟨r, hr, hh⟩
      exact ⟨c, (mem_collect hA c).2 ⟨_, hm, x, hx, hc⟩, hv⟩
  · constructor
    · rintro ⟨c, hc, hh⟩
      obtain ⟨⟨l, i⟩, hl, x, hx, hcx⟩ := (mem_collect hB c).1 hc
      obtain ⟨r, hr, y, hy, hcy⟩ := (mem_collect hx c).1 hcx
      have := (edge_hit hy hel hk v).1 ⟨c, hcy, hh⟩
      exact ⟨r, List.mem_flatten.2 ⟨l, List.mem_of_getElem? (List.mem_zipIdx_iff_getElem?.1 hl), hr⟩, this⟩
    · rintro ⟨r, hr, hh⟩
      obtain ⟨l, hl, hr⟩ := List.mem_flatten.1 hr
      obtain ⟨i, hi⟩ := List.mem_iff_getElem?.1 hl
      have hm : (l, i) ∈ m.edges.zipIdx := List.mem_zipIdx_iff_getElem?.2 hi
      obtain ⟨x, hx⟩ := collect_some hB _ hm
      obtain ⟨y, hy⟩ := collect_some hx _ hr
      obtain ⟨c, hc, hv⟩ := (edge_hit hy hel hk v).2 hh
      exact ⟨c, (mem_collect hB c).2 ⟨_, hm, x, hx, (mem_collect hx c).2 ⟨r, hr, y, hy, hc⟩⟩, hv⟩
  · constructor
    · rintro ⟨c, hc, hh⟩
      obtain ⟨⟨l, i⟩, hl, x, hx, hcx⟩ := (mem_collect hC c).1 hc
      simp only [nodeCalls] at hx
      split at hx
      · rename_i hd
        split at hx
        · cases hx
        · rename_i c0 hc0
          split at hx
          · cases hx; simp at hcx
          · rename_i ht
            obtain ⟨r, hr, y, hy, hcy⟩ := (mem_collect hx c).1 hcx
            have := (corner_hit hy hel hk v).1 ⟨c, hcy, hh⟩
            refine ⟨hd, l, List.mem_of_getElem? (List.mem_zipIdx_iff_getElem?.1 hl), ⟨c0, hc0, ?_⟩, r, hr, this⟩
            rcases h : c0.topological with _ | _
            · simp [h] at ht
            · rfl
      · cases hx; simp at hcx
    · rintro ⟨hd, l, hl, ⟨c0, hc0, ht⟩, r, hr, hh⟩
      obtain ⟨i, hi⟩ := List.mem_iff_getElem?.1 hl
      have hm : (l, i) ∈ m.nodes.zipIdx := List.mem_zipIdx_iff_getElem?.2 hi
      obtain ⟨x, hx⟩ := collect_some hC _ hm
      have hx' := hx
      simp only [nodeCalls, if_pos hd, hc0] at hx'
      rw [if_neg (by rw [Option.isNone_iff_eq_none]; intro h; rw [h] at ht; cases ht)] at hx'
      obtain ⟨y, hy⟩ := collect_some hx' _ hr
      obtain ⟨c, hc, hv⟩ := (corner_hit hy hel hk v).2 hh
      exact ⟨c, (mem_collect hC c).2 ⟨_, hm, x, hx, (mem_collect hx' c).2 ⟨r, hr, y, hy, hc⟩⟩, hv⟩

/-! ### Numbers -/

theorem hc_put (part : Part) (i e : Nat) (s : Slot) (x : Nat) : hitCount part i (.put e s x) = none := rfl

theorem hc_count (part part' : Part) (i i' n n' : Nat) :
    hitCount part i (.count part' i' n') = some n ↔ part' = part ∧ i' = i ∧ n = n' := by
  simp only [hitCount]
  by_cases h : part' = part ∧ i' = i
  · simp [h, eq_comm]
  · rw [if_neg h]; simp; tauto

theorem all_counts {cs : List Call} (h : allCalls m coll ix = some cs) (part : Part) (i n : Nat) :
    (∃ c ∈ cs, hitCount part i c = some n) ↔
      match part with
      | .face => ∃ f, m.faces[i]? = some f ∧ ∃ a nf ne, lookupKind m ix f.1.1 = some (a, nf, ne) ∧
          ∃ x ∈ matching coll (a + 1) nf 0 f.1.2, n = sizeAt coll x
      | .edge => ∃ l, m.edges[i]? = some l ∧ ∃ r ∈ l, ∃ a nf ne, lookupKind m ix r.elem = some (a, nf, ne) ∧
          ∃ x ∈ matching coll (a + nf + 1) ne r.orient r.num, n = sizeAt coll x
      | .node => ∃ l, m.nodes[i]? = some l ∧ m.dim > 1 ∧ Real l ∧ ∃ r ∈ l, ∃ a nf ne,
          lookupKind m ix r.elem = some (a, nf, ne) ∧ ∃ t, r.topological = some t ∧
            n = sizeAt coll (a + nf + ne + 1 + t) := by
  simp only [allCalls, Option.bind_eq_some_iff, Option.map_eq_some_iff] at h
  obtain ⟨A, hA, B, hB, C, hC, rfl⟩ := h
  have key : (∃ c ∈ A ++ B ++ C, hitCount part i c = some n) ↔
      (∃ c ∈ A, hitCount part i c = some n) ∨ (∃ c ∈ B, hitCount part i c = some n) ∨
      (∃ c ∈ C, hitCount part i c = some n) := by
    simp only [List.mem_append, or_assoc, or_and_right, exists_or]
  have kA : (∃ c ∈ A, hitCount part i c = some n) ↔ part = .face ∧ ∃ f, m.faces[i]? = some f ∧
      ∃ a nf ne, lookupKind m ix f.1.1 = some (a, nf, ne) ∧
          ∃ x ∈ matching coll (a + 1) nf 0 f.1.2, n = sizeAt coll x := by
    constructor
    · rintro ⟨c, hc, hh⟩
      obtain ⟨⟨f, j⟩, hf, x, hx, hcx⟩ := (mem_collect hA c).1 hc
      have hf := List.mem_zipIdx_iff_getElem?.1 hf
      simp only [faceCalls, Option.bind_eq_some_iff] at hx
      obtain ⟨⟨b, mf, me⟩, hb, hx⟩ := hx
      have hl : c ∈ ((matching coll (b + 1) mf 0 f.1.2).flatMap fun pos =>
          [Call.put f.1.1 (.face f.1.2) pos, .count .face j (sizeAt coll pos)]) := by
        rcases hr : f.2 with _ | r
        · rw [hr] at hx; cases hx; exact hcx
        · rw [hr] at hx
          simp only [Option.map_eq_some_iff] at hx
          obtain ⟨w, hw, rfl⟩ := hx
          rcases List.mem_append.1 hcx with h | h
          · exact h
          · obtain ⟨y, -, rfl⟩ := List.mem_map.1 h
            simp [hc_put] at hh
      obtain ⟨y, hy, hcy⟩ := List.mem_flatMap.1 hl
      simp only [List.mem_cons, List.not_mem_nil, or_false] at hcy
      rcases hcy with rfl | rfl
      · simp [hc_put] at hh
      · obtain ⟨rfl, rfl, rfl⟩ := (hc_count ..).1 hh
        exact ⟨rfl, f, hf, b, mf, me, hb, y, hy, rfl⟩
    · rintro ⟨rfl, f, hf, a, nf, ne, hb, y, hy, rfl⟩
      have hm : (f, i) ∈ m.faces.zipIdx := List.mem_zipIdx_iff_getElem?.2 hf
      obtain ⟨x, hx⟩ := collect_some hA _ hm
      refine ⟨.count .face i (sizeAt coll y), (mem_collect hA _).2 ⟨_, hm, x, hx, ?_⟩, (hc_count ..).2 ⟨rfl, rfl, rfl⟩⟩
      simp only [faceCalls, hb, Option.bind_some] at hx
      have hl : Call.count .face i (sizeAt coll y) ∈ ((matching coll (a + 1) nf 0 f.1.2).flatMap fun pos =>
          [Call.put f.1.1 (.face f.1.2) pos, .count .face i (sizeAt coll pos)]) :=
        List.mem_flatMap.2 ⟨y, hy, by simp⟩
      rcases hr : f.2 with _ | r
      · rw [hr] at hx; cases hx; exact hl
      · rw [hr] at hx
        simp only [Option.map_eq_some_iff] at hx
        obtain ⟨w, hw, rfl⟩ := hx
        exact List.mem_append_left _ hl
  have kB : (∃ c ∈ B, hitCount part i c = some n) ↔ part = .edge ∧ ∃ l, m.edges[i]? = some l ∧ ∃ r ∈ l,
      ∃ a nf ne, lookupKind m ix r.elem = some (a, nf, ne) ∧
          ∃ x ∈ matching coll (a + nf + 1) ne r.orient r.num, n = sizeAt coll x := by
    constructor
    · rintro ⟨c, hc, hh⟩
      obtain ⟨⟨l, j⟩, hl, x, hx, hcx⟩ := (mem_collect hB c).1 hc
      obtain ⟨r, hr, y, hy, hcy⟩ := (mem_collect hx c).1 hcx
      have hl := List.mem_zipIdx_iff_getElem?.1 hl
      simp only [edgeCalls, Option.map_eq_some_iff] at hy
      obtain ⟨⟨b, mf, me⟩, hb, rfl⟩ := hy
      obtain ⟨z, hz, hcz⟩ := List.mem_flatMap.1 hcy
      simp only [List.mem_cons, List.not_mem_nil, or_false] at hcz
      rcases hcz with rfl | rfl
      · simp [hc_put] at hh
      · obtain ⟨rfl, rfl, rfl⟩ := (hc_count ..).1 hh
        exact ⟨rfl, l, hl, r, hr, b, mf, me, hb, z, hz, rfl⟩
    · rintro ⟨rfl, l, hl, r, hr, a, nf, ne, hb, z, hz, rfl⟩
      have hm : (l, i) ∈ m.edges.zipIdx := List.mem_zipIdx_iff_getElem?.2 hl
      obtain ⟨x, hx⟩ := collect_some hB _ hm
      obtain ⟨y, hy⟩ := collect_some hx _ hr
      refine ⟨.count .edge i (sizeAt coll z), (mem_collect hB _).2 ⟨_, hm, x, hx, (mem_collect hx _).2 ⟨r, hr, y, hy, ?_⟩⟩,
        (hc_count ..).2 ⟨rfl, rfl, rfl⟩⟩
      simp only [edgeCalls, hb, Option.map_some, Option.some.injEq] at hy
      subst hy
      exact List.mem_flatMap.2 ⟨z, hz, by simp⟩
  have kC : (∃ c ∈ C, hitCount part i c = some n) ↔ part = .node ∧ ∃ l, m.nodes[i]? = some l ∧ m.dim > 1 ∧ Real l ∧ ∃ r ∈ l,
      ∃ a nf ne, lookupKind m ix r.elem = some (a, nf, ne) ∧ ∃ t, r.topological = some t ∧
            n = sizeAt coll (a + nf + ne + 1 + t) := by
    constructor
    · rintro ⟨c, hc, hh⟩
      obtain ⟨⟨l, j⟩, hl, x, hx, hcx⟩ := (mem_collect hC c).1 hc
      simp only [nodeCalls] at hx
      split at hx
      · rename_i hd
        split at hx
        · cases hx
        · rename_i c0 hc0
          split at hx
          · cases hx; simp at hcx
          · rename_i ht
            obtain ⟨r, hr, y, hy, hcy⟩ := (mem_collect hx c).1 hcx
            simp only [cornerCalls, Option.bind_eq_some_iff] at hy
            obtain ⟨⟨b, mf, me⟩, hb, t, htt, hy⟩ := hy
            simp only at hy
            split at hy
            · cases hy
              simp only [List.mem_cons, List.not_mem_nil, or_false] at hcy
              rcases hcy with rfl | rfl
              · simp [hc_put] at hh
              · obtain ⟨rfl, rfl, rfl⟩ := (hc_count ..).1 hh
                refine ⟨rfl, l, List.mem_zipIdx_iff_getElem?.1 hl, hd, ⟨c0, hc0, ?_⟩, r, hr, b, mf, me, hb, t, htt, rfl⟩
                rcases h : c0.topological with _ | _
                · simp [h] at ht
                · rfl
            · cases hy
      · cases hx; simp at hcx
    · rintro ⟨rfl, l, hl, hd, ⟨c0, hc0, ht⟩, r, hr, a, nf, ne, hb, t, htt, rfl⟩
      have hm : (l, i) ∈ m.nodes.zipIdx := List.mem_zipIdx_iff_getElem?.2 hl
      obtain ⟨x, hx⟩ := collect_some hC _ hm
      have hx' := hx
      simp only [nodeCalls, if_pos hd, hc0] at hx'
      rw [if_neg (by rw [Option.isNone_iff_eq_none]; intro h; rw [h] at ht; cases ht)] at hx'
      obtain ⟨y, hy⟩ := collect_some hx' _ hr
      refine ⟨.count .node i (sizeAt coll (a + nf + ne + 1 + t)),
        (mem_collect hC _).2 ⟨_, hm, x, hx, (mem_collect hx' _).2 ⟨r, hr, y, hy, ?_⟩⟩, (hc_count ..).2 ⟨rfl, rfl, rfl⟩⟩
      simp only [cornerCalls, hb, htt, Option.bind_some] at hy
      split at hy
      · cases hy; simp
      · cases hy
  rw [key, kA, kB, kC]
  cases part <;> simp

end Verif.Assign
