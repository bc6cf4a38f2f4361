import Verif.PreMesh.LemmasAdd

/-! Helper lemmas: merging entities. -/
set_option linter.all false
namespace Verif.PreMesh
open Verif.ElementShape

variable {P : Type}

/-- The coordinates of an element belong to its nodes, or already to the target of a merge. -/
def CoordsMid (s t : Nat) (coords : List (Coord P)) (el : Elem) : Prop :=
  el.coords.length = (el.inc 0).length ∧
    ∀ i c : Nat, el.coords[i]? = some c →
      ∃ co, coords[c]? = some co ∧ (co.node = (el.inc 0)[i]? ∨ ((el.inc 0)[i]? = some s ∧ co.node = some t))

theorem setEntity_spec (m : Mesh P) (d e loc s t : Nat) (el : Elem) (src tgt : Entity) (rest : List (Nat × Nat))
    (he : m.elems[e]? = some el) (hid : el.id = e) (hl : (el.inc d)[loc]? = some s) (hst : s ≠ t)
    (hs : (m.ents d)[s]? = some src) (hsi : src.inc = (e, loc) :: rest) (ht : (m.ents d)[t]? = some tgt) :
    setEntity m d e loc t = some { m with
      elems := m.elems.set e { el with inc := upd el.inc d ((el.inc d).set loc t) },
      ents := upd m.ents d (((m.ents d).set s { src with inc := rest }).set t { tgt with inc := tgt.inc ++ [(e, loc)] }) } := by
  unfold setEntity
  simp only [he, Option.bind_eq_bind, Option.bind_some, hl, ne_eq, hst, not_false_eq_true, if_true, hid]
  unfold unlinkEntity
  simp only [hs, Option.bind_eq_bind, Option.bind_some, hsi, List.mem_cons, true_or, if_true, List.erase_cons_head]
  have : (upd m.ents d ((m.ents d).set s { src with inc := rest }) d)[t]? = some tgt := by
    rw [upd_self, List.getElem?_set]; simp [hst, ht]
  rw [linkEntity_eq _ d t (e, loc) tgt this]
  simp only [upd_self, upd_upd]

/-- One connection `(e, loc)` of `s` has moved to `t`. -/
structure Moved (d t s e loc : Nat) (rest : List (Nat × Nat)) (el : Elem) (src tgt : Entity) (m m1 : Mesh P) : Prop where
  elems : m1.elems = m.elems.set e { el with inc := upd el.inc d ((el.inc d).set loc t) }
  ents : m1.ents = upd m.ents d (((m.ents d).set s { src with inc := rest }).set t { tgt with inc := tgt.inc ++ [(e, loc)] })
  zones : m1.zones = m.zones
  coords0 : d = 0 → ∃ cid co, el.coords[loc]? = some cid ∧ m.coords[cid]? = some co ∧
    (co.node = some s ∨ co.node = some t) ∧ m1.coords = m.coords.set cid { co with node := some t }
  coords : d ≠ 0 → m1.coords = m.coords

theorem mergeStep_spec (dim : Nat) (m : Mesh P) (d t s e loc : Nat) (rest : List (Nat × Nat)) (src tgt : Entity)
    (hg : Good dim m) (hd : d < dim) (hst : s ≠ t) (hs : (m.ents d)[s]? = some src) (hsi : src.inc = (e, loc) :: rest)
    (ht : (m.ents d)[t]? = some tgt) (hc : d = 0 → ∀ el ∈ m.elems, CoordsMid s t m.coords el) :
    ∃ el m1, m.elems[e]? = some el ∧ (el.inc d)[loc]? = some s ∧ mergeStep m d t s e loc = some m1 ∧
      Moved d t s e loc rest el src tgt m m1 := by
  obtain ⟨el, he, hl⟩ := (hg.both d hd e loc s).2 ⟨src, hs, by rw [hsi]; simp⟩
  have hid := hg.elemId e el he
  by_cases h0 : d = 0
  · subst h0
    have hmem : el ∈ m.elems := List.mem_of_getElem? he
    obtain ⟨hlen, hall⟩ := hc rfl el hmem
    have hloc : loc < el.coords.length := by rw [hlen]; exact (List.getElem?_eq_some_iff.1 hl).1
    obtain ⟨co, hco, hnode⟩ := hall loc el.coords[loc] (List.getElem?_eq_getElem hloc)
    have hcid : el.coords[loc]? = some el.coords[loc] := List.getElem?_eq_getElem hloc
    have hnode' : co.node = some s ∨ co.node = some t := by
      rcases hnode with h | h
      · left; rw [h, hl]
      · right; exact h.2
    have hclt := (List.getElem?_eq_some_iff.1 hco).1
    refine ⟨el, ⟨m.elems.set e { el with inc := upd el.inc 0 ((el.inc 0).set loc t) }, m.coords.set el.coords[loc] { co with node := some t },
      upd m.ents 0 (((m.ents 0).set s { src with inc := rest }).set t { tgt with inc := tgt.inc ++ [(e, loc)] }),
      m.zones⟩, he, hl, ?_, ?_⟩
    · unfold mergeStep
      simp only [if_true, he, Option.bind_eq_bind, Option.bind_some, hcid, hco, hnode']
      unfold setNode
      simp only [he, Option.bind_eq_bind, Option.bind_some, hloc, not_true_eq_false, if_false]
      have hcs : el.coords.set loc el.coords[loc] = el.coords := by simp
      have hset : m.elems.set e { el with coords := el.coords.set loc el.coords[loc] } = m.elems := by
        rw [hcs]
        have := (List.getElem?_eq_some_iff.1 he).2
        show m.elems.set e el = m.elems
        rw [← this]; simp
      simp only [hset, List.getElem?_set, hclt, if_true, Option.bind_some]
      exact setEntity_spec _ 0 e loc s t el src tgt rest he hid hl hst hs hsi ht
    · exact ⟨rfl, rfl, rfl, fun _ => ⟨_, co, hcid, hco, hnode', rfl⟩, fun h => absurd rfl h⟩
  · refine ⟨el, ⟨m.elems.set e { el with inc := upd el.inc d ((el.inc d).set loc t) }, m.coords,
      upd m.ents d (((m.ents d).set s { src with inc := rest }).set t { tgt with inc := tgt.inc ++ [(e, loc)] }),
      m.zones⟩, he, hl, ?_, ?_⟩
    · unfold mergeStep
      simp only [h0, if_false]
      exact setEntity_spec _ d e loc s t el src tgt rest he hid hl hst hs hsi ht
    · exact ⟨rfl, rfl, rfl, fun h => absurd h h0, fun _ => rfl⟩

theorem Moved.get_ents {d t s e loc : Nat} {rest : List (Nat × Nat)} {el : Elem} {src tgt : Entity} {m m1 : Mesh P}
    (h : Moved d t s e loc rest el src tgt m m1) (hst : s ≠ t) (hs : (m.ents d)[s]? = some src)
    (ht : (m.ents d)[t]? = some tgt) (d' k : Nat) :
    (m1.ents d')[k]? = if d' = d ∧ k = t then some { tgt with inc := tgt.inc ++ [(e, loc)] }
      else if d' = d ∧ k = s then some { src with inc := rest } else (m.ents d')[k]? := by
  have hsl := (List.getElem?_eq_some_iff.1 hs).1
  have htl := (List.getElem?_eq_some_iff.1 ht).1
  rw [h.ents]
  by_cases hd : d' = d
  · subst hd
    rw [upd_self, List.getElem?_set, List.getElem?_set]
    by_cases h1 : k = t
    · subst h1; simp [htl]
    · have h1' : ¬ t = k := fun h => h1 h.symm
      by_cases h2 : k = s
      · subst h2; simp [h1, h1', hsl]
      · have h2' : ¬ s = k := fun h => h2 h.symm
        simp [h1, h1', h2, h2']
  · rw [upd_ne _ _ _ _ hd]; simp [hd]

theorem Moved.get_elems {d t s e loc : Nat} {rest : List (Nat × Nat)} {el : Elem} {src tgt : Entity} {m m1 : Mesh P}
    (h : Moved d t s e loc rest el src tgt m m1) (he : m.elems[e]? = some el) (e' : Nat) :
    m1.elems[e']? = if e' = e then some { el with inc := upd el.inc d ((el.inc d).set loc t) } else m.elems[e']? := by
  have hlt := (List.getElem?_eq_some_iff.1 he).1
  rw [h.elems, List.getElem?_set]
  by_cases h1 : e' = e
  · subst h1; simp [hlt]
  · have : ¬ e = e' := fun h => h1 h.symm
    simp [h1, this]

theorem Moved.good {dim d t s e loc : Nat} {rest : List (Nat × Nat)} {el : Elem} {src tgt : Entity} {m m1 : Mesh P}
    (h : Moved d t s e loc rest el src tgt m m1) (hg : Good dim m) (hd : d < dim) (hst : s ≠ t)
    (hs : (m.ents d)[s]? = some src) (hsi : src.inc = (e, loc) :: rest) (ht : (m.ents d)[t]? = some tgt)
    (he : m.elems[e]? = some el) (hl : (el.inc d)[loc]? = some s) : Good dim m1 := by
  have huniq : ∀ k, Linked m d k e loc → k = s := by
    intro k hk
    obtain ⟨el', h1, h2⟩ := (hg.both d hd e loc k).2 hk
    rw [he] at h1; cases h1; rw [hl] at h2; exact (Option.some.inj h2).symm
  have hnd := hg.once d s src hs
  rw [hsi, List.nodup_cons] at hnd
  have hlinked : ∀ d' k e' i, Linked m1 d' k e' i ↔
      if d' = d ∧ e' = e ∧ i = loc then k = t else Linked m d' k e' i := by
    intro d' k e' i
    unfold Linked
    rw [h.get_ents hst hs ht]
    by_cases hdd : d' = d
    · subst hdd
      by_cases hkt : k = t
      · subst hkt
        simp only [and_self, if_true, Option.some.injEq, exists_eq_left', List.mem_append, List.mem_singleton, Prod.mk.injEq, true_and, ht]
        by_cases hel : e' = e ∧ i = loc
        · simp [hel]
        · simp [hel]
      · by_cases hks : k = s
        · subst hks
          simp only [hkt, and_false, if_false, and_self, if_true, Option.some.injEq, exists_eq_left', true_and, hs, hsi, List.mem_cons, Prod.mk.injEq]
          by_cases hel : e' = e ∧ i = loc
          · obtain ⟨rfl, rfl⟩ := hel
            simp [hnd.1]
          · simp [hel]
        · simp only [hkt, hks, and_false, if_false, true_and]
          by_cases hel : e' = e ∧ i = loc
          · simp only [hel, and_self, if_true, iff_false]
            intro hx
            exact hks (huniq k hx)
          · simp only [hel, if_false]
    · simp only [hdd, false_and, if_false]
  have hlists : ∀ d' e' i k, Lists m1 d' e' i k ↔
      if d' = d ∧ e' = e ∧ i = loc then k = t else Lists m d' e' i k := by
    intro d' e' i k
    unfold Lists
    rw [h.get_elems he]
    by_cases hee : e' = e
    · subst hee
      simp only [if_true, Option.some.injEq, exists_eq_left', true_and, he]
      by_cases hdd : d' = d
      · subst hdd
        simp only [upd_self, true_and, List.getElem?_set]
        have hlt := (List.getElem?_eq_some_iff.1 hl).1
        by_cases hi : i = loc
        · subst hi; simp [hlt, eq_comm]
        · have : ¬ loc = i := fun h => hi h.symm
          simp [hi, this]
      · simp [upd_ne _ _ _ _ hdd, hdd]
    · simp [hee]
  refine ⟨?_, ?_, ?_, ?_⟩
  · intro e' el' hx
    rw [h.get_elems he] at hx
    split at hx
    · rename_i hc; subst hc; cases hx; exact hg.elemId _ el he
    · exact hg.elemId e' el' hx
  · intro d' k ent hx
    rw [h.get_ents hst hs ht] at hx
    split at hx
    · rename_i hc; cases hx; rw [hc.2]; exact hg.entId d t tgt ht
    · split at hx
      · rename_i hc; cases hx; rw [hc.2]; exact hg.entId d s src hs
      · exact hg.entId d' k ent hx
  · intro d' hd' e' i k
    rw [hlists, hlinked]
    split
    · exact Iff.rfl
    · exact hg.both d' hd' e' i k
  · intro d' k ent hx
    rw [h.get_ents hst hs ht] at hx
    split at hx
    · cases hx
      simp only
      rw [List.nodup_append]
      refine ⟨hg.once d t tgt ht, by simp, ?_⟩
      intro a ha b hb
      simp at hb; subst hb
      intro hab; subst hab
      exact hst (huniq t ⟨tgt, ht, ha⟩).symm
    · split at hx
      · cases hx; exact hnd.2
      · exact hg.once d' k ent hx

theorem Moved.coordsMid {t s e loc : Nat} {rest : List (Nat × Nat)} {el : Elem} {src tgt : Entity} {m m1 : Mesh P}
    (h : Moved 0 t s e loc rest el src tgt m m1) (hst : s ≠ t) (he : m.elems[e]? = some el)
    (hl : (el.inc 0)[loc]? = some s) (hc : ∀ el ∈ m.elems, CoordsMid s t m.coords el) :
    ∀ el ∈ m1.elems, CoordsMid s t m1.coords el := by
  obtain ⟨cid, co, hcid, hco, hn, hcoords⟩ := h.coords0 rfl
  have hclt := (List.getElem?_eq_some_iff.1 hco).1
  have hget : ∀ c : Nat, m1.coords[c]? = if c = cid then some { co with node := some t } else m.coords[c]? := by
    intro c
    rw [hcoords, List.getElem?_set]
    by_cases h1 : c = cid
    · subst h1; simp [hclt]
    · have : ¬ cid = c := fun h => h1 h.symm
      simp [h1, this]
  -- an old element with the new coordinates
  have hold : ∀ el' ∈ m.elems, CoordsMid s t m1.coords el' := by
    intro el' hm
    obtain ⟨h1, h2⟩ := hc el' hm
    refine ⟨h1, ?_⟩
    intro i c hi
    obtain ⟨co', h3, h4⟩ := h2 i c hi
    rw [hget]
    by_cases hcc : c = cid
    · subst hcc
      rw [hco] at h3; cases h3
      simp only [if_true, Option.some.injEq, exists_eq_left']
      rcases hn with h5 | h5
      · rcases h4 with h6 | h6
        · right; exact ⟨by rw [← h6, h5], trivial⟩
        · right; exact ⟨h6.1, trivial⟩
      · rcases h4 with h6 | h6
        · left; rw [← h6, h5]
        · right; exact ⟨h6.1, trivial⟩
    · simp only [hcc, if_false]
      exact ⟨co', h3, h4⟩
  intro el' hm
  obtain ⟨e', he'⟩ := List.mem_iff_getElem?.1 hm
  rw [h.get_elems he] at he'
  split at he'
  · cases he'
    obtain ⟨h1, h2⟩ := hold el (List.mem_of_getElem? he)
    refine ⟨by simp [upd_self, h1], ?_⟩
    intro i c hi
    obtain ⟨co', h3, h4⟩ := h2 i c hi
    refine ⟨co', h3, ?_⟩
    simp only [upd_self, List.getElem?_set]
    have hlt := (List.getElem?_eq_some_iff.1 hl).1
    by_cases hil : loc = i
    · subst hil
      simp only at hi
      rw [hcid] at hi; cases hi
      rw [hget] at h3
      simp at h3; subst h3
      simp [hlt]
    · simp only [hil, if_false]
      exact h4
  · exact hold el' (List.mem_of_getElem? he')

theorem map_rename_set (l : List Nat) (loc s t : Nat) (hl : l[loc]? = some s) :
    (l.set loc t).map (rename s t) = l.map (rename s t) := by
  apply List.ext_getElem?
  intro i
  simp only [List.getElem?_map, List.getElem?_set]
  by_cases h : loc = i
  · subst h
    have hlt := (List.getElem?_eq_some_iff.1 hl).1
    simp [hlt, hl, rename]
    intro h; exact absurd (List.getElem?_eq_some_iff.1 hl).2 h
  · simp [h]

/-- The elements, entities, zones and coordinates after a merge. -/
structure Merged (d t s : Nat) (src tgt : Entity) (m m' : Mesh P) : Prop where
  elems : m'.elems = m.elems.map fun el => { el with inc := upd el.inc d ((el.inc d).map (rename s t)) }
  ents : m'.ents = upd m.ents d (((m.ents d).set t { tgt with inc := tgt.inc ++ src.inc }).set s { src with inc := [] })
  zones : m'.zones = m.zones
  coords0 : d = 0 → ∀ c : Nat, ∀ co, m.coords[c]? = some co → ∃ co', m'.coords[c]? = some co' ∧ co'.pos = co.pos ∧
    ((co.node = some s ∧ (∃ el ∈ m.elems, ∃ i : Nat, el.coords[i]? = some c ∧ (el.inc 0)[i]? = some s)) → co'.node = some t) ∧
    (¬ (co.node = some s ∧ (∃ el ∈ m.elems, ∃ i : Nat, el.coords[i]? = some c ∧ (el.inc 0)[i]? = some s)) → co'.node = co.node)
  coords : d ≠ 0 → m'.coords = m.coords
  clen : m'.coords.length = m.coords.length

theorem mergeLoop_spec (dim : Nat) (d t s : Nat) (hd : d < dim) (hst : s ≠ t) (l : List (Nat × Nat)) :
    ∀ (m : Mesh P) (src tgt : Entity), Good dim m → (m.ents d)[s]? = some src → src.inc = l →
      (m.ents d)[t]? = some tgt → (d = 0 → ∀ el ∈ m.elems, CoordsMid s t m.coords el) →
      ∃ m', mergeLoop m d t s s = some m' ∧ Merged d t s src tgt m m' ∧ Good dim m' ∧
        (d = 0 → ∀ el ∈ m'.elems, CoordsMid s t m'.coords el) := by
  induction l with
  | nil =>
    intro m src tgt hg hs hsi ht hc
    refine ⟨m, ?_, ?_, hg, hc⟩
    · rw [mergeLoop, hs]; simp [hsi]
    · have hno : ∀ el ∈ m.elems, s ∉ el.inc d := by
        intro el hel hmem
        obtain ⟨e, he⟩ := List.mem_iff_getElem?.1 hel
        obtain ⟨i, hi⟩ := List.mem_iff_getElem?.1 hmem
        obtain ⟨ent, h1, h2⟩ := (hg.both d hd e i s).1 ⟨el, he, hi⟩
        rw [hs] at h1; cases h1; rw [hsi] at h2; cases h2
      have hsl := (List.getElem?_eq_some_iff.1 hs)
      have htl := (List.getElem?_eq_some_iff.1 ht)
      constructor
      · symm
        conv_rhs => rw [← List.map_id m.elems]
        apply List.map_congr_left
        intro el hel
        have h1 : (el.inc d).map (rename s t) = el.inc d := by
          conv_rhs => rw [← List.map_id (el.inc d)]
          apply List.map_congr_left
          intro k hk
          unfold rename
          split
          · rename_i hx; subst hx; exact absurd hk (hno el hel)
          · rfl
        have h2 : upd el.inc d (el.inc d) = el.inc := by
          funext k; unfold upd; split
          · rename_i hx; rw [hx]
          · rfl
        rw [h1, h2]; rfl
      · have h1 : ({ tgt with inc := tgt.inc ++ src.inc } : Entity) = tgt := by rw [hsi]; simp
        have h2 : ({ src with inc := [] } : Entity) = src := by rw [← hsi]
        rw [h1, h2]
        have h3 : (m.ents d).set t tgt = m.ents d := by conv_lhs => rw [← htl.2]; simp
        have h4 : (m.ents d).set s src = m.ents d := by conv_lhs => rw [← hsl.2]; simp
        rw [h3, h4]
        funext k; unfold upd; split
        · rename_i hx; rw [hx]
        · rfl
      · rfl
      · intro h0 c co hco
        subst h0
        refine ⟨co, hco, rfl, ?_, fun _ => rfl⟩
        rintro ⟨_, el, hel, i, _, h2⟩
        exact absurd (List.mem_of_getElem? h2) (hno el hel)
      · intro _; rfl
      · rfl
  | cons p rest ih =>
    intro m src tgt hg hs hsi ht hc
    obtain ⟨e, loc⟩ := p
    obtain ⟨el, m1, he, hl, hstep, hmv⟩ := mergeStep_spec dim m d t s e loc rest src tgt hg hd hst hs hsi ht hc
    have hg1 := hmv.good hg hd hst hs hsi ht he hl
    have hs1 : (m1.ents d)[s]? = some { src with inc := rest } := by rw [hmv.get_ents hst hs ht]; simp [hst]
    have ht1 : (m1.ents d)[t]? = some { tgt with inc := tgt.inc ++ [(e, loc)] } := by
      rw [hmv.get_ents hst hs ht]; simp
    have hc1 : d = 0 → ∀ el ∈ m1.elems, CoordsMid s t m1.coords el := by
      intro h0; subst h0; exact hmv.coordsMid hst he hl (hc rfl)
    obtain ⟨m', hloop, hM, hg', hc'⟩ := ih m1 _ _ hg1 hs1 rfl ht1 hc1
    refine ⟨m', ?_, ?_, hg', hc'⟩
    · rw [mergeLoop, hs]
      simp only [hsi, hstep, Option.bind_eq_bind, Option.bind_some]
      exact hloop
    · constructor
      · rw [hM.elems]
        apply List.ext_getElem?
        intro k
        simp only [List.getElem?_map]
        rw [hmv.get_elems he]
        by_cases hk : k = e
        · subst hk
          simp only [if_true, he, Option.map_some, upd_self, upd_upd, map_rename_set _ loc s t hl]
        · simp [hk]
      · rw [hM.ents, hmv.ents]
        simp only [upd_self, upd_upd]
        congr 1
        have hts : t ≠ s := fun h => hst h.symm
        apply List.ext_getElem?
        intro k
        simp only [List.getElem?_set, List.length_set]
        by_cases h1 : s = k
        · subst h1; simp
        · by_cases h2 : t = k
          · subst h2; simp [h1, hsi]
          · simp [h1, h2]
      · rw [hM.zones, hmv.zones]
      · intro h0 c co hco
        subst h0
        obtain ⟨cid, co0, hcid, hco0, hn, hcs⟩ := hmv.coords0 rfl
        have hclt := (List.getElem?_eq_some_iff.1 hco0).1
        have hget : m1.coords[c]? = if c = cid then some { co0 with node := some t } else m.coords[c]? := by
          rw [hcs, List.getElem?_set]
          by_cases h1 : c = cid
          · subst h1; simp [hclt]
          · have : ¬ cid = c := fun h => h1 h.symm
            simp [h1, this]
        by_cases hcc : c = cid
        · subst hcc
          rw [hco0] at hco; cases hco
          simp only [if_true] at hget
          obtain ⟨co', h1, h2, h3, h4⟩ := hM.coords0 rfl c _ hget
          have hts : ¬ (some t = some s) := fun h => hst (Option.some.inj h).symm
          have hct : co'.node = some t := h4 (fun h => hts h.1)
          refine ⟨co', h1, h2, fun _ => hct, ?_⟩
          intro hneg
          rw [hct]
          rcases hn with h5 | h5
          · exact absurd ⟨h5, el, List.mem_of_getElem? he, loc, hcid, hl⟩ hneg
          · exact h5.symm
        · simp only [hcc, if_false] at hget
          rw [hco] at hget
          obtain ⟨co', h1, h2, h3, h4⟩ := hM.coords0 rfl c _ hget
          have hequiv : (∃ el ∈ m1.elems, ∃ i : Nat, el.coords[i]? = some c ∧ (el.inc 0)[i]? = some s) ↔
              (∃ el ∈ m.elems, ∃ i : Nat, el.coords[i]? = some c ∧ (el.inc 0)[i]? = some s) := by
            constructor
            · rintro ⟨x, hx, i, hi1, hi2⟩
              obtain ⟨k, hk⟩ := List.mem_iff_getElem?.1 hx
              rw [hmv.get_elems he] at hk
              split at hk
              · cases hk
                simp only [upd_self, List.getElem?_set] at hi1 hi2
                by_cases hli : loc = i
                · subst hli; rw [hcid] at hi1; cases hi1; exact absurd rfl hcc
                · simp only [hli, if_false] at hi2
                  exact ⟨el, List.mem_of_getElem? he, i, hi1, hi2⟩
              · exact ⟨x, List.mem_of_getElem? hk, i, hi1, hi2⟩
            · rintro ⟨x, hx, i, hi1, hi2⟩
              obtain ⟨k, hk⟩ := List.mem_iff_getElem?.1 hx
              by_cases hke : k = e
              · subst hke
                rw [he] at hk; cases hk
                have := hmv.get_elems he k
                simp only [if_true] at this
                refine ⟨_, List.mem_of_getElem? this, i, hi1, ?_⟩
                have hli : ¬ loc = i := by
                  rintro rfl; rw [hcid] at hi1; cases hi1; exact hcc rfl
                simp only [upd_self, List.getElem?_set, hli, if_false]
                exact hi2
              · have := hmv.get_elems he k
                simp only [hke, if_false] at this
                exact ⟨x, List.mem_of_getElem? (this.trans hk), i, hi1, hi2⟩
          rw [hequiv] at h3 h4
          exact ⟨co', h1, h2, h3, h4⟩
      · intro h0; rw [hM.coords h0, hmv.coords h0]
      · rw [hM.clen]
        by_cases h0 : d = 0
        · subst h0
          obtain ⟨cid, co0, _, _, _, hcs⟩ := hmv.coords0 rfl
          rw [hcs]; simp
        · rw [hmv.coords h0]

end Verif.PreMesh
