import Verif.PreMesh.LemmasRemove
import Verif.ElementShape.Props

/-! # Properties of the preprocessor mesh -/
namespace Verif.PreMesh
open Verif.ElementShape

variable {P : Type}

/-! ## C29: merging -/

/-- **C29.** In a consistent mesh a merge of two different entities of one dimension ends, all connections of the source
move to the target, the source has none left, and nothing else changes. -/
theorem merge_spec (shapes : List Shape) (dim : Nat) (m : Mesh P) (h : Consistent shapes dim m) (d t s : Nat)
    (hd : d < dim) (hts : t ≠ s) (target source : Entity) (ht : (m.ents d)[t]? = some target)
    (hs : (m.ents d)[s]? = some source) : merge m d t s = some (merged m d t s target source) := by
  have hst : s ≠ t := fun h => hts h.symm
  have hcm : d = 0 → ∀ el ∈ m.elems, CoordsMid s t m.coords el := by
    intro _ el hel
    obtain ⟨h1, h2⟩ := h.coords el hel
    refine ⟨h1, fun i c hi => ?_⟩
    obtain ⟨co, h3, h4⟩ := h2 i c hi
    exact ⟨co, h3, Or.inl h4⟩
  obtain ⟨m', hloop, hM, _, _⟩ := mergeLoop_spec dim d t s hd hst source.inc m source target h.good hs rfl ht hcm
  have hti := h.entId d t target ht
  have hsi := h.entId d s source hs
  have hmerge : merge m d t s = some m' := by
    unfold merge
    simp only [ht, hs, Option.bind_eq_bind, Option.bind_some]
    rw [hti, hsi, if_neg hts]
    exact hloop
  rw [hmerge]
  congr 1
  obtain ⟨e', c', n', z'⟩ := m'
  have h1 := hM.elems
  have h2 := hM.ents
  have h3 := hM.zones
  simp only at h1 h2 h3
  subst h1 h2 h3
  unfold merged
  congr 1
  apply List.ext_getElem?
  intro c
  rw [List.getElem?_mapIdx]
  by_cases h0 : d = 0
  · subst h0
    cases hco : m.coords[c]? with
    | none =>
      have : m.coords.length ≤ c := List.getElem?_eq_none_iff.1 hco
      have hl := hM.clen
      simp only at hl
      rw [List.getElem?_eq_none (by omega)]; rfl
    | some co =>
      obtain ⟨co', h4, h5, h6, h7⟩ := hM.coords0 rfl c co hco
      simp only at h4
      rw [h4, Option.map_some]
      congr 1
      have hiff : (∃ el ∈ m.elems, ∃ i : Nat, el.coords[i]? = some c ∧ (el.inc 0)[i]? = some s) ↔
          (co.node = some s ∧ ∃ el ∈ m.elems, c ∈ el.coords) := by
        constructor
        · rintro ⟨el, hel, i, hi1, hi2⟩
          obtain ⟨co2, h8, h9⟩ := (h.coords el hel).2 i c hi1
          rw [hco] at h8; cases h8
          exact ⟨by rw [h9, hi2], el, hel, List.mem_of_getElem? hi1⟩
        · rintro ⟨hn, el, hel, hmem⟩
          obtain ⟨i, hi⟩ := List.mem_iff_getElem?.1 hmem
          obtain ⟨co2, h8, h9⟩ := (h.coords el hel).2 i c hi
          rw [hco] at h8; cases h8
          exact ⟨el, hel, i, hi, by rw [← h9, hn]⟩
      rw [hiff] at h6 h7
      obtain ⟨n1, p1⟩ := co'
      obtain ⟨n2, p2⟩ := co
      simp only at h5 h6 h7
      by_cases hx : n2 = some s ∧ ∃ el ∈ m.elems, c ∈ el.coords
      · rw [if_pos ⟨rfl, hx⟩]
        have := h6 ⟨hx.1, hx⟩
        subst this h5; rfl
      · rw [if_neg (fun hh => hx hh.2)]
        have := h7 (fun hh => hx hh.2)
        subst this h5; rfl
  · have := hM.coords h0
    simp only at this
    subst this
    simp [h0]

/-- **C29.** After a merge an element lists the target wherever it listed the target or the source, and every other
entity wherever it did so before. -/
theorem merge_lists (shapes : List Shape) (dim : Nat) (m m' : Mesh P) (h : Consistent shapes dim m) (d t s : Nat)
    (hd : d < dim) (hts : t ≠ s) (hm : merge m d t s = some m') (d' e i k : Nat) :
    Lists m' d' e i k ↔ if d' = d then (k = t ∧ (Lists m d e i t ∨ Lists m d e i s)) ∨ (k ≠ t ∧ k ≠ s ∧ Lists m d e i k)
      else Lists m d' e i k := by
  obtain ⟨target, ht⟩ : ∃ x, (m.ents d)[t]? = some x := by
    cases hx : (m.ents d)[t]? with
    | none => simp [merge, hx] at hm
    | some x => exact ⟨x, rfl⟩
  obtain ⟨source, hs⟩ : ∃ x, (m.ents d)[s]? = some x := by
    cases hx : (m.ents d)[s]? with
    | none => simp [merge, ht, hx] at hm
    | some x => exact ⟨x, rfl⟩
  rw [merge_spec shapes dim m h d t s hd hts target source ht hs] at hm
  cases hm
  unfold Lists merged
  simp only [List.getElem?_map]
  cases he : m.elems[e]? with
  | none => simp
  | some el =>
    simp only [Option.map_some, Option.some.injEq, exists_eq_left']
    by_cases hdd : d' = d
    · subst hdd
      simp only [upd_self, List.getElem?_map, if_true]
      cases hi : (el.inc d')[i]? with
      | none => simp
      | some x =>
        simp only [Option.map_some, Option.some.injEq, rename]
        by_cases h1 : x = s
        · subst h1
          simp only [if_true, or_true, and_true]
          constructor
          · rintro rfl; exact Or.inl rfl
          · rintro (h2 | h2)
            · exact h2.symm
            · exact absurd h2.2.2.symm h2.2.1
        · simp only [h1, if_false, or_false]
          constructor
          · rintro rfl
            by_cases h2 : x = t
            · exact Or.inl ⟨h2, h2⟩
            · exact Or.inr ⟨h2, h1, rfl⟩
          · rintro (⟨rfl, h2⟩ | h2)
            · exact h2
            · exact h2.2.2
    · simp [upd_ne _ _ _ _ hdd, hdd]

/-- **C29.** A merge keeps the mesh consistent. -/
theorem merge_consistent (shapes : List Shape) (dim : Nat) (m m' : Mesh P) (h : Consistent shapes dim m) (d t s : Nat)
    (hd : d < dim) (hm : merge m d t s = some m') : Consistent shapes dim m' := by
  obtain ⟨target, ht⟩ : ∃ x, (m.ents d)[t]? = some x := by
    cases hx : (m.ents d)[t]? with
    | none => simp [merge, hx] at hm
    | some x => exact ⟨x, rfl⟩
  obtain ⟨source, hs⟩ : ∃ x, (m.ents d)[s]? = some x := by
    cases hx : (m.ents d)[s]? with
    | none => simp [merge, ht, hx] at hm
    | some x => exact ⟨x, rfl⟩
  have hti := h.entId d t target ht
  have hsi := h.entId d s source hs
  unfold merge at hm
  simp only [ht, hs, Option.bind_eq_bind, Option.bind_some] at hm
  rw [hti, hsi] at hm
  split at hm
  · cases hm
  · rename_i hts
    have hst : s ≠ t := fun h => hts h.symm
    have hcm : d = 0 → ∀ el ∈ m.elems, CoordsMid s t m.coords el := by
      intro _ el hel
      obtain ⟨h1, h2⟩ := h.coords el hel
      refine ⟨h1, fun i c hi => ?_⟩
      obtain ⟨co, h3, h4⟩ := h2 i c hi
      exact ⟨co, h3, Or.inl h4⟩
    obtain ⟨m2, hloop, hM, hg, hc⟩ := mergeLoop_spec dim d t s hd hst source.inc m source target h.good hs rfl ht hcm
    rw [hloop] at hm; cases hm
    refine ⟨hg.elemId, hg.entId, hg.both, hg.once, ?_, ?_, ?_, ?_, ?_⟩
    · intro el hel
      rw [hM.elems, List.mem_map] at hel
      obtain ⟨el0, h1, rfl⟩ := hel
      refine ⟨(h.full el0 h1).1, fun d' hd' => ?_⟩
      by_cases hdd : d' = d
      · subst hdd; simp only [upd_self, List.length_map]; exact (h.full el0 h1).2 d' hd'
      · simp only [upd_ne _ _ _ _ hdd]; exact (h.full el0 h1).2 d' hd'
    · by_cases h0 : d = 0
      · subst h0
        intro el hel
        obtain ⟨h1, h2⟩ := hc rfl el hel
        refine ⟨h1, fun i c hi => ?_⟩
        obtain ⟨co, h3, h4⟩ := h2 i c hi
        refine ⟨co, h3, ?_⟩
        rcases h4 with h5 | h5
        · exact h5
        · exfalso
          rw [hM.elems, List.mem_map] at hel
          obtain ⟨el0, h6, rfl⟩ := hel
          have h7 := h5.1
          simp only [upd_self, List.getElem?_map, Option.map_eq_some_iff] at h7
          obtain ⟨k, _, h8⟩ := h7
          unfold rename at h8
          split at h8
          · exact hst h8.symm
          · contradiction
      · intro el hel
        rw [hM.elems, List.mem_map] at hel
        obtain ⟨el0, h1, rfl⟩ := hel
        have h0' : 0 ≠ d := fun h => h0 h.symm
        simp only [upd_ne _ _ _ _ h0', hM.coords h0]
        exact h.coords el0 h1
    · have : dim ≠ d := by omega
      rw [hM.ents, upd_ne _ _ _ _ this, hM.elems, List.length_map]; exact h.slices
    · intro el hel
      rw [hM.elems, List.mem_map] at hel
      obtain ⟨el0, h1, rfl⟩ := hel
      rw [hM.zones]; exact h.zones el0 h1
    · rw [hM.zones]; exact h.zoneNames

/-- **C29.** An entity that does not exist, or the entity itself, is not a valid target. -/
theorem merge_rejects (m : Mesh P) (d t s : Nat)
    (hb : t = s ∨ (m.ents d).length ≤ t ∨ (m.ents d).length ≤ s) : merge m d t s = none := by
  unfold merge
  cases ht : (m.ents d)[t]? with
  | none => rfl
  | some x =>
    cases hs : (m.ents d)[s]? with
    | none => rfl
    | some y =>
      have h1 := (List.getElem?_eq_some_iff.1 ht).1
      have h2 := (List.getElem?_eq_some_iff.1 hs).1
      rcases hb with h3 | h3 | h3
      · subst h3; rw [ht] at hs; cases hs; simp
      · omega
      · omega

/-- **C29 (finding).** Merging an entity into itself is only stopped by a debug assertion (MeshEntity_Impl.h:152-154):
without it the loop does not end when the entity is connected to an element, as every round leaves the mesh as it is. -/
theorem mergeLoop_self (shapes : List Shape) (dim : Nat) (m : Mesh P) (h : Consistent shapes dim m) (d s : Nat)
    (hd : d < dim) (src : Entity) (hs : (m.ents d)[s]? = some src) (hne : src.inc ≠ []) : mergeLoop m d s s s = none := by
  obtain ⟨⟨e, loc⟩, l, hl⟩ := List.exists_cons_of_ne_nil hne
  have hlist : Lists m d e loc s := (h.both d hd e loc s).2 ⟨src, hs, by rw [hl]; simp⟩
  obtain ⟨el, h1, h2⟩ := hlist
  have hstep : mergeStep m d s s e loc = some m := by
    unfold mergeStep
    split
    · rename_i h0
      subst h0
      obtain ⟨h3, h4⟩ := h.coords el (List.mem_of_getElem? h1)
      have hlt : loc < el.coords.length := by rw [h3]; exact (List.getElem?_eq_some_iff.1 h2).1
      have hc := List.getElem?_eq_getElem hlt
      obtain ⟨co, h5, h6⟩ := h4 loc _ hc
      rw [h2] at h6
      obtain ⟨n, p⟩ := co
      simp only at h6
      subst h6
      have e1 : m.coords.set el.coords[loc] ⟨some s, p⟩ = m.coords := by
        have := (List.getElem?_eq_some_iff.1 h5).2
        rw [← this]; simp
      have e2 : m.elems.set e { el with coords := el.coords.set loc el.coords[loc] } = m.elems := by
        have := (List.getElem?_eq_some_iff.1 h1).2
        have e3 : el.coords.set loc el.coords[loc] = el.coords := by simp
        rw [e3]
        show m.elems.set e el = m.elems
        rw [← this]; simp
      simp only [h1, hc, h5, Option.bind_eq_bind, Option.bind_some, true_or, if_true, e1, setNode, hlt, not_true_eq_false, if_false]
      simp only [e2, Option.bind_some, setEntity, h1, h2, Option.bind_eq_bind, ne_eq, not_true_eq_false, if_false]
    · simp [setEntity, h1, h2]
  cases hr : mergeLoop m d s s s with
  | none => rfl
  | some r =>
    refine absurd rfl (mergeLoop.partial_correctness d s s s (fun a _ => a ≠ m) ?_ m r hr)
    intro f ih a b hab ham
    subst ham
    simp only [hs, hl, hstep, Option.bind_eq_bind, Option.bind_some] at hab
    exact ih _ _ hab rfl

/-! ## C29: removing unused entities -/

/-- **C29.** `removeUnusedEntities` removes exactly the unconnected entities, keeps the order of the others, renumbers
them consecutively and keeps what elements list — provided that, if a node has to go, every coordinate has a node. -/
theorem removeUnused_spec_partial (shapes : List Shape) (dim : Nat) (m : Mesh P) (h : Consistent shapes dim m)
    (hn : (∃ ent ∈ m.ents 0, used ent = false) → ∀ co ∈ m.coords, ∃ n, co.node = some n ∧ n < (m.ents 0).length) :
    removeUnusedEntities dim m = some (squeezed dim m) :=
  removeUnusedBelow_spec dim m (fun d hd => h.usedLists d hd) (fun _ hx => hn hx)

/-- **C29.** After `removeUnusedEntities` every entity is connected to an element. -/
theorem removeUnused_all_used (dim : Nat) (m : Mesh P) (d : Nat) (hd : d < dim) :
    ∀ ent ∈ (squeezed dim m).ents d, ent.inc ≠ [] := by
  intro ent hent
  obtain ⟨k, hk⟩ := List.mem_iff_getElem?.1 hent
  obtain ⟨_, ent0, _, h2, _, rfl⟩ := (squeezed_get dim m d hd k ent).1 hk
  intro hc
  have := (used_iff ent0).1 h2
  simp only at hc; rw [hc] at this; simp at this

/-- **C29.** Entities keep their relative order: the new number of a connected entity is the number of connected entities
before it, and its connections are the same. -/
theorem removeUnused_order (dim : Nat) (m : Mesh P) (d : Nat) (hd : d < dim) (a b : Nat) (x y : Entity)
    (ha : (m.ents d)[a]? = some x) (hb : (m.ents d)[b]? = some y) (hx : x.inc ≠ []) (hy : y.inc ≠ []) :
    (a < b ↔ rank m d a < rank m d b) ∧
      ((squeezed dim m).ents d)[rank m d a]? = some ⟨rank m d a, x.inc⟩ := by
  have hux : used x = true := (used_iff x).2 (List.length_pos_iff.2 hx)
  have huy : used y = true := (used_iff y).2 (List.length_pos_iff.2 hy)
  constructor
  · constructor
    · intro hab; exact count_mono used _ a b hab x ha hux
    · intro hab
      rcases Nat.lt_trichotomy a b with h1 | h1 | h1
      · exact h1
      · subst h1; omega
      · have := count_mono used _ b a h1 y hb huy
        unfold rank at hab; omega
  · rw [squeezed_get dim m d hd]
    exact ⟨a, x, ha, hux, rfl, rfl⟩

/-- **C29 (finding).** When a node has to go while some coordinate has no node (because that node was removed by an
earlier call) the renumbering uses the invalid node number as position in a vector, which is undefined. -/
theorem removeUnused_undefined (shapes : List Shape) (dim : Nat) (hdim : 0 < dim) (m : Mesh P)
    (h : Consistent shapes dim m) (hu : ∃ ent ∈ m.ents 0, used ent = false)
    (hc : ∃ co ∈ m.coords, ∀ n, co.node = some n → (m.ents 0).length ≤ n) : removeUnusedEntities dim m = none := by
  have level0 : ∀ m : Mesh P, (∃ ent ∈ m.ents 0, used ent = false) →
      (∃ co ∈ m.coords, ∀ n, co.node = some n → (m.ents 0).length ≤ n) → removeUnusedLevel m 0 = none := by
    intro m hu hc
    unfold removeUnusedLevel
    simp only [none_mem_ren, hu, if_true]
    cases h1 : m.elems.mapM (fun e => renumberElem e 0 (compact 0 (m.ents 0)).2) with
    | none => rfl
    | some els =>
      simp only [Option.bind_eq_bind, Option.bind_some]
      have : m.coords.mapM (fun c => renumberCoord c (compact 0 (m.ents 0)).2) = none := by
        obtain ⟨co, hco, hnode⟩ := hc
        revert hco
        generalize m.coords = l
        intro hco
        induction l with
        | nil => cases hco
        | cons a l ih =>
          rw [List.mapM_cons]
          rcases List.mem_cons.1 hco with rfl | h2
          · have : renumberCoord co (compact 0 (m.ents 0)).2 = none := by
              unfold renumberCoord
              cases hn : co.node with
              | none => rfl
              | some n =>
                have := hnode n hn
                have h3 := ren_get m 0 n
                rw [if_neg (by omega)] at h3
                simp [h3]
            rw [this]; rfl
          · rw [ih h2]
            cases renumberCoord a (compact 0 (m.ents 0)).2 <;> rfl
      rw [this]; rfl
  have below : ∀ n, 0 < n → ∀ m : Mesh P, (∀ d < n, UsedLists m d) → (∃ ent ∈ m.ents 0, used ent = false) →
      (∃ co ∈ m.coords, ∀ n, co.node = some n → (m.ents 0).length ≤ n) → removeUnusedBelow m n = none := by
    intro n
    induction n with
    | zero => intro h0; omega
    | succ n ih =>
      intro _ m hul hu hc
      simp only [removeUnusedBelow]
      rcases Nat.eq_zero_or_pos n with h0 | h0
      · subst h0
        rw [level0 m hu hc]; rfl
      · have hne : n ≠ 0 := by omega
        rw [removeUnusedLevel_spec m n (hul n (by omega)) (fun h => absurd h hne)]
        simp only [Option.bind_eq_bind, Option.bind_some]
        have hents : ∀ d, d ≠ n → (squeezedAt n m).ents d = m.ents d := fun d hd => upd_ne _ _ _ _ hd
        apply ih h0
        · intro d hd el hel k hk
          simp only [squeezedAt, List.mem_map] at hel
          obtain ⟨el0, h1, rfl⟩ := hel
          simp only [upd_ne _ _ _ _ (show d ≠ n by omega)] at hk
          unfold usedAt
          rw [hents d (by omega)]
          exact hul d (by omega) el0 h1 k hk
        · rw [hents 0 (by omega)]; exact hu
        · rw [hents 0 (by omega)]; simpa [squeezedAt, hne] using hc
  exact below dim hdim m (fun d hd => h.usedLists d hd) hu hc

/-! ## C28: consistency of every history -/

theorem empty_consistent (shapes : List Shape) (dim : Nat) : Consistent shapes dim (Mesh.empty : Mesh P) := by
  refine ⟨?_, ?_, ?_, ?_, ?_, ?_, ?_, ?_, ?_⟩ <;> simp [Mesh.empty, Lists, Linked]

theorem addNode_consistent (shapes : List Shape) (dim : Nat) (hdim : 0 < dim) (m : Mesh P) (h : Consistent shapes dim m) :
    Consistent shapes dim (addNode m) := by
  have hg := newEntity_good dim m 0 h.good
  refine ⟨hg.elemId, hg.entId, hg.both, hg.once, h.full, h.coords, ?_, h.zones, h.zoneNames⟩
  unfold addNode newEntity
  simp only [upd_ne _ _ _ _ (show dim ≠ 0 by omega)]
  exact h.slices

theorem addNodes_consistent (shapes : List Shape) (dim : Nat) (hdim : 0 < dim) (n : Nat) : ∀ m : Mesh P,
    Consistent shapes dim m → Consistent shapes dim (addNodes m n) := by
  induction n with
  | zero => intro m h; exact h
  | succ n ih => intro m h; exact ih _ (addNode_consistent shapes dim hdim m h)

theorem addNodeCoordinate_consistent (shapes : List Shape) (dim : Nat) (m : Mesh P) (n : Nat) (p : P)
    (h : Consistent shapes dim m) : Consistent shapes dim (addNodeCoordinate m n p) := by
  refine ⟨h.elemId, h.entId, h.both, h.once, h.full, ?_, h.slices, h.zones, h.zoneNames⟩
  intro el hel
  obtain ⟨h1, h2⟩ := h.coords el hel
  refine ⟨h1, fun i c hi => ?_⟩
  obtain ⟨co, h3, h4⟩ := h2 i c hi
  refine ⟨co, ?_, h4⟩
  unfold addNodeCoordinate
  simp only
  rw [List.getElem?_append_left (List.getElem?_eq_some_iff.1 h3).1]
  exact h3

/-- **C28.** `fixConnectivity` has nothing to do in a consistent mesh. -/
theorem fixConnectivity_id (shapes : List Shape) (dim : Nat) (m : Mesh P) (h : Consistent shapes dim m) :
    fixConnectivity dim m m.elems.length = some m := by
  have level : ∀ e el, m.elems[e]? = some el → ∀ D, D < dim → fixElement dim m e D = some m := by
    intro e el he D
    induction D with
    | zero => intro _; rfl
    | succ D ih =>
      intro hD
      have := (h.full el (List.mem_of_getElem? he)).2 (D + 1) hD
      simp only [fixElement, he, Option.bind_eq_bind, Option.bind_some, this, Nat.sub_self, fixLevel]
      exact ih (by omega)
  rcases Nat.eq_zero_or_pos dim with h0 | h0
  · subst h0
    have : ∀ n, fixConnectivity 0 m n = some m := by
      intro n; induction n with
      | zero => rfl
      | succ n ih => simp [fixConnectivity, ih, fixElement]
    exact this _
  · have : ∀ n, n ≤ m.elems.length → fixConnectivity dim m n = some m := by
      intro n
      induction n with
      | zero => intro _; rfl
      | succ n ih =>
        intro hn
        simp only [fixConnectivity, ih (by omega), Option.bind_eq_bind, Option.bind_some]
        exact level n m.elems[n] (List.getElem?_eq_getElem (by omega)) (dim - 1) (by omega)
    exact this _ (Nat.le_refl _)

/-- A call that returns on a consistent mesh gives a consistent mesh. -/
theorem step_consistent (shapes : List Shape) (dim : Nat) (hdim : 0 < dim) (m m' : Mesh P) (op : Op P)
    (h : Consistent shapes dim m) (hs : step shapes dim m op = some m') : Consistent shapes dim m' := by
  cases op with
  | addNode => simp only [step, Option.some.injEq] at hs; subst hs; exact addNode_consistent shapes dim hdim m h
  | addNodes n => simp only [step, Option.some.injEq] at hs; subst hs; exact addNodes_consistent shapes dim hdim n m h
  | addNodeCoordinate n p =>
    simp only [step, Option.some.injEq] at hs; subst hs; exact addNodeCoordinate_consistent shapes dim m n p h
  | addElement cs z => exact addElement_consistent shapes dim hdim m m' cs z h hs
  | merge d t s =>
    simp only [step] at hs
    split at hs
    · exact merge_consistent shapes dim m m' h d t s (by assumption) hs
    · cases hs
  | removeUnusedEntities =>
    simp only [step] at hs
    by_cases hc : (∃ ent ∈ m.ents 0, used ent = false) → ∀ co ∈ m.coords, ∃ n, co.node = some n ∧ n < (m.ents 0).length
    · rw [removeUnused_spec_partial shapes dim m h hc] at hs
      cases hs
      exact squeezed_consistent shapes dim hdim m h
    · simp only [Classical.not_imp, not_forall, not_exists, not_and] at hc
      obtain ⟨hu, co, hco, hn⟩ := hc
      rw [removeUnused_undefined shapes dim hdim m h hu ⟨co, hco, fun n hn' => Nat.not_lt.1 (hn n hn')⟩] at hs
      cases hs
  | fixConnectivity =>
    simp only [step] at hs
    rw [fixConnectivity_id shapes dim m h] at hs
    cases hs; exact h

/-- **C28.** Whatever calls a preprocessor makes, starting from an empty mesh: when they return, the cross references of
the mesh agree. -/
theorem run_consistent (shapes : List Shape) (dim : Nat) (hdim : 0 < dim) (ops : List (Op P)) (m : Mesh P)
    (h : run shapes dim Mesh.empty ops = some m) : Consistent shapes dim m := by
  have key : ∀ (ops : List (Op P)) (m0 m : Mesh P), Consistent shapes dim m0 → run shapes dim m0 ops = some m →
      Consistent shapes dim m := by
    intro ops
    induction ops with
    | nil => intro m0 m h0 h; simp only [run, Option.some.injEq] at h; exact h ▸ h0
    | cons op ops ih =>
      intro m0 m h0 h
      simp only [run, Option.bind_eq_bind, Option.bind_eq_some_iff] at h
      obtain ⟨m1, h1, h2⟩ := h
      exact ih m1 m (step_consistent shapes dim hdim m0 m1 op h0 h1) h2
  exact key ops Mesh.empty m (empty_consistent shapes dim) h

theorem addElementNodes_nodes (cs : List Nat) : ∀ (m : Mesh P) (e : Elem) (r : Mesh P × Elem),
    addElementNodes m e cs = some r → (r.1.ents 0).length = (m.ents 0).length := by
  induction cs with
  | nil => intro m e r h; simp only [addElementNodes, Option.some.injEq] at h; rw [← h]
  | cons c cs ih =>
    intro m e r h
    simp only [addElementNodes, linkEntity, Option.bind_eq_bind, Option.bind_eq_some_iff, Option.some.injEq] at h
    obtain ⟨co, _, n, _, m1, ⟨ent, _, rfl⟩, h4⟩ := h
    rw [ih _ _ r h4]; simp [upd_self]

/-- **C28.** `addElement` appends one element with the given coordinates, the shape for their number and the given zone,
and changes no other element, no coordinate, not the number of nodes and no zone name. -/
theorem addElement_spec (shapes : List Shape) (dim : Nat) (hdim : 0 < dim) (m m' : Mesh P) (cs : List Nat) (z : String)
    (hc : Consistent shapes dim m) (h : addElement shapes dim m cs z = some m') :
    ∃ el, m'.elems = m.elems ++ [el] ∧ el.coords = cs ∧ el.shape.count 0 = cs.length ∧
      m'.coords = m.coords ∧ (m'.ents 0).length = (m.ents 0).length ∧ getZoneName m' m.elems.length = some z ∧
      ∀ e, e < m.elems.length → getZoneName m' e = getZoneName m e := by
  obtain ⟨shape, r, hs, hr, hf⟩ := addElement_some shapes dim m m' cs z h
  obtain ⟨z1, z2, z3, z4, z5, z6⟩ := getZoneId_spec m z hc.zoneNames
  obtain ⟨i1, i2, i3, i4, i5, i6, i7, i8, i9, i10, i11, i12⟩ := addElementNodes_spec dim hdim cs _ _ r (by simp [z1]) hr
  have hel : (r.1.elems ++ [r.2])[m.elems.length]? = some r.2 := by rw [i3, z1]; simp
  obtain ⟨⟨el', hx⟩, _⟩ := fixElement_spec dim m.elems.length (dim - 1) _ m' r.2 hel hf
  have helems : m'.elems = m.elems ++ [el'] := by
    rw [hx.elems]; simp only [i3, z1]; simp
  have hshape := findGeometry_mem shapes _ shape hs
  have hzones : m'.zones = (getZoneId m z).1.zones := by rw [hx.zones]; exact i5
  obtain ⟨zl, hzl⟩ := z6
  refine ⟨el', helems, ?_, ?_, ?_, ?_, ?_, ?_⟩
  · rw [hx.ecoords, i11]; rfl
  · rw [hx.shape, i8]; exact hshape.2
  · rw [hx.coords]; simp only [i4, z2]
  · rw [hx.ents 0 (Or.inl rfl)]
    simp only [upd_ne _ _ _ _ (show 0 ≠ dim by omega)]
    rw [addElementNodes_nodes cs _ _ r hr, z3]
  · unfold getZoneName
    rw [helems, hzones]
    simp only [List.getElem?_append_right (Nat.le_refl _), Nat.sub_self, List.getElem?_cons_zero, Option.bind_eq_bind, Option.bind_some]
    rw [hx.zone, i9]; exact z4
  · intro e he
    unfold getZoneName
    rw [helems, hzones, hzl, List.getElem?_append_left he, List.getElem?_eq_getElem he]
    simp only [Option.bind_eq_bind, Option.bind_some]
    rw [List.getElem?_append_left (hc.zones _ (List.getElem_mem he))]

/-! ## C38: copies -/

/-- **C38 (finding).** In a copied or moved mesh no element has a zone name. -/
theorem copy_loses_zones (m : Mesh P) (e : Nat) : getZoneName (copy m) e = none := by
  unfold getZoneName copy
  cases m.elems[e]? <;> simp

/-- **C38.** In the original mesh every element has one. -/
theorem zoneName_some (shapes : List Shape) (dim : Nat) (m : Mesh P) (h : Consistent shapes dim m) (e : Nat)
    (he : e < m.elems.length) : ∃ z, getZoneName m e = some z := by
  have h1 := List.getElem?_eq_getElem he
  have := h.zones _ (List.getElem_mem he)
  exact ⟨m.zones[m.elems[e].zone], by simp [getZoneName, h1, this]⟩

/-- **C38.** What a copy keeps: everything but the zone names. -/
theorem copy_keeps_partial (m : Mesh P) : (copy m).elems = m.elems ∧ (copy m).coords = m.coords ∧ (copy m).ents = m.ents :=
  ⟨rfl, rfl, rfl⟩

/-! ## Examples -/

/-- Two triangles with a common edge and a spare node. -/
def twoTriangles : List (Op Unit) :=
  [.addNodes 5, .addNodeCoordinate 0 (), .addNodeCoordinate 1 (), .addNodeCoordinate 2 (), .addNodeCoordinate 3 (),
    .addNodeCoordinate 4 (), .addElement [0, 1, 2] "left", .addElement [1, 3, 2] "right"]

/-- The triangles get five edges; edge 2 is in both of them. -/
example : (run (hpgemShapes 2) 2 Mesh.empty twoTriangles).map (fun m => ((m.ents 1).map (·.inc), (m.elems.map (·.inc 1)), m.zones)) =
    some ([[(0, 0)], [(0, 1)], [(0, 2), (1, 1)], [(1, 0)], [(1, 2)]], [[0, 1, 2], [3, 2, 4]], ["left", "right"]) := by
  decide +kernel

/-- Hypotheses of `merge_spec`: a mesh of a history with two edges in it. -/
example : ∃ m, run (hpgemShapes 2) 2 Mesh.empty twoTriangles = some m ∧ Consistent (hpgemShapes 2) 2 m ∧
    (m.ents 1)[0]? = some ⟨0, [(0, 0)]⟩ ∧ (m.ents 1)[4]? = some ⟨4, [(1, 2)]⟩ := by
  have h : (run (hpgemShapes 2) 2 Mesh.empty twoTriangles).any
      (fun m => decide ((m.ents 1)[0]? = some ⟨0, [(0, 0)]⟩ ∧ (m.ents 1)[4]? = some ⟨4, [(1, 2)]⟩)) = true := by
    decide +kernel
  cases hm : run (hpgemShapes 2) 2 Mesh.empty twoTriangles with
  | none => rw [hm] at h; cases h
  | some m =>
    rw [hm] at h
    simp only [Option.any_some, decide_eq_true_eq] at h
    exact ⟨m, rfl, run_consistent _ _ (by decide) _ m hm, h.1, h.2⟩

/-- The spare node is removed; its coordinate stays and has no node. -/
example : (run (hpgemShapes 2) 2 Mesh.empty (twoTriangles ++ [.removeUnusedEntities])).map
    (fun m => ((m.ents 0).map (·.inc), m.coords.map (·.node))) =
    some ([[(0, 0)], [(0, 1), (1, 0)], [(0, 2), (1, 2)], [(1, 1)]], [some 0, some 1, some 2, some 3, none]) := by
  decide +kernel

/-- **C29 (finding).** A legal history that ends in undefined behaviour: the second call has to remove a node while the
coordinate of the node removed by the first call is still there. -/
theorem removeUnused_twice_undefined :
    (run (hpgemShapes 2) 2 Mesh.empty (twoTriangles ++ [.removeUnusedEntities])).isSome = true ∧
    (run (hpgemShapes 2) 2 Mesh.empty (twoTriangles ++ [.removeUnusedEntities, .addNode])).isSome = true ∧
    (run (hpgemShapes 2) 2 Mesh.empty (twoTriangles ++ [.removeUnusedEntities, .addNode, .removeUnusedEntities])).isNone = true := by
  decide +kernel

/-- A new element with that coordinate is undefined as well. -/
theorem removeUnused_addElement_undefined :
    (run (hpgemShapes 2) 2 Mesh.empty (twoTriangles ++ [.addElement [1, 4, 3] "right"])).isSome = true ∧
    (run (hpgemShapes 2) 2 Mesh.empty (twoTriangles ++ [.removeUnusedEntities, .addElement [1, 4, 3] "right"])).isNone = true := by
  decide +kernel

end Verif.PreMesh
