import Verif.PreMesh.Lemmas

/-! Helper lemmas: adding elements. -/
set_option linter.all false
namespace Verif.PreMesh
open Verif.ElementShape

variable {P : Type}

/-- Element `e` got `n` further entities of dimension `d`. -/
def GrownAt (d e n : Nat) (m m' : Mesh P) : Prop :=
  ∃ (el : Elem) (gids : List Nat), m.elems[e]? = some el ∧ gids.length = n ∧
    m'.elems = m.elems.set e { el with inc := upd el.inc d (el.inc d ++ gids) } ∧
    m'.coords = m.coords ∧ m'.zones = m.zones ∧ ∀ d', d' ≠ d → m'.ents d' = m.ents d'

theorem addEntity_grown (m m' : Mesh P) (d e gid : Nat) (h : addEntity m d e gid = some m') : GrownAt d e 1 m m' := by
  obtain ⟨el, ent, h1, h2, rfl⟩ := addEntity_some m m' d e gid h
  exact ⟨el, [gid], h1, rfl, rfl, rfl, rfl, fun d' hd => upd_ne _ _ _ _ hd⟩

theorem fixEntity_spec (dim : Nat) (m m' : Mesh P) (d e i : Nat) (h : fixEntity dim m d e i = some m') :
    GrownAt d e 1 m m' ∧ (d < dim → Good dim m → Good dim m') := by
  unfold fixEntity at h
  cases hc : candidates dim m d e i with
  | none => simp [hc] at h
  | some cs =>
    simp only [hc, Option.bind_eq_bind, Option.bind_some] at h
    match cs, h with
    | [], h =>
      refine ⟨?_, fun hd hg => addEntity_good dim _ m' d e _ hd (newEntity_good dim m d hg) h⟩
      obtain ⟨el, gids, h1, h2, h3, h4, h5, h6⟩ := addEntity_grown _ m' d e _ h
      refine ⟨el, gids, h1, h2, h3, h4, h5, fun d' hd => ?_⟩
      rw [h6 d' hd]; exact upd_ne _ _ _ _ hd
    | [c], h => exact ⟨addEntity_grown _ m' d e _ h, fun hd hg => addEntity_good dim _ m' d e _ hd hg h⟩

theorem upd_upd {α : Type} (f : Nat → α) (d : Nat) (x y : α) : upd (upd f d x) d y = upd f d y := by
  funext k; simp only [upd]; split <;> rfl

theorem fixLevel_spec (dim : Nat) (d e : Nat) (n : Nat) : ∀ (m m' : Mesh P) (i : Nat) (el : Elem),
    m.elems[e]? = some el → fixLevel dim m d e n i = some m' →
    GrownAt d e n m m' ∧ (d < dim → Good dim m → Good dim m') := by
  induction n with
  | zero =>
    intro m m' i el he h
    simp only [fixLevel, Option.some.injEq] at h
    subst h
    refine ⟨⟨el, [], he, rfl, ?_, rfl, rfl, fun _ _ => rfl⟩, fun _ hg => hg⟩
    have hx : upd el.inc d (el.inc d ++ []) = el.inc := by
      funext k; simp only [upd]; split
      · rename_i h; subst h; simp
      · rfl
    rw [hx]
    have hlt : e < m.elems.length := (List.getElem?_eq_some_iff.1 he).1
    have := (List.getElem?_eq_some_iff.1 he).2
    show m.elems = m.elems.set e el
    rw [← this]; simp
  | succ n ih =>
    intro m m' i el he h
    simp only [fixLevel] at h
    cases hf : fixEntity dim m d e i with
    | none => simp [hf] at h
    | some m1 =>
      simp only [hf, Option.bind_eq_bind, Option.bind_some] at h
      obtain ⟨⟨el0, g0, h1, h2, h3, h4, h5, h6⟩, hg1⟩ := fixEntity_spec dim m m1 d e i hf
      rw [he] at h1; cases h1
      have hlt : e < m.elems.length := (List.getElem?_eq_some_iff.1 he).1
      have he1 : m1.elems[e]? = some { el with inc := upd el.inc d (el.inc d ++ g0) } := by
        rw [h3, List.getElem?_set]; simp [hlt]
      obtain ⟨⟨el1, g1, k1, k2, k3, k4, k5, k6⟩, hg2⟩ := ih m1 m' (i + 1) _ he1 h
      rw [he1] at k1; cases k1
      refine ⟨⟨el, g0 ++ g1, he, by simp [h2, k2, Nat.add_comm], ?_, k4.trans h4, k5.trans h5,
        fun d' hd => (k6 d' hd).trans (h6 d' hd)⟩, fun hd hg => hg2 hd (hg1 hd hg)⟩
      rw [k3, h3, List.set_set]
      simp only [upd_self, upd_upd, List.append_assoc]

/-- What `fixElement` from dimension `D` downward may change. -/
structure Fixed (D e : Nat) (el el' : Elem) (m m' : Mesh P) : Prop where
  elems : m'.elems = m.elems.set e el'
  coords : m'.coords = m.coords
  zones : m'.zones = m.zones
  ents : ∀ d, d = 0 ∨ D < d → m'.ents d = m.ents d
  id : el'.id = el.id
  shape : el'.shape = el.shape
  ecoords : el'.coords = el.coords
  zone : el'.zone = el.zone
  inc : ∀ d, d = 0 ∨ D < d → el'.inc d = el.inc d
  len : ∀ d, 0 < d → d ≤ D → (el'.inc d).length = max (el.inc d).length (el.shape.count d)

theorem fixElement_spec (dim : Nat) (e : Nat) (D : Nat) : ∀ (m m' : Mesh P) (el : Elem), m.elems[e]? = some el →
    fixElement dim m e D = some m' → (∃ el', Fixed D e el el' m m') ∧ (D < dim → Good dim m → Good dim m') := by
  induction D with
  | zero =>
    intro m m' el he h
    simp only [fixElement, Option.some.injEq] at h
    subst h
    have := (List.getElem?_eq_some_iff.1 he).2
    exact ⟨⟨el, ⟨by simp [← this], rfl, rfl, fun _ _ => rfl, rfl, rfl, rfl, rfl, fun _ _ => rfl, fun d h1 h2 => by omega⟩⟩,
      fun _ hg => hg⟩
  | succ D ih =>
    intro m m' el he h
    simp only [fixElement, he, Option.bind_eq_bind, Option.bind_some] at h
    cases hf : fixLevel dim m (D + 1) e (el.shape.count (D + 1) - (el.inc (D + 1)).length) (el.inc (D + 1)).length with
    | none => simp [hf] at h
    | some m1 =>
      simp only [hf, Option.bind_some] at h
      obtain ⟨⟨el0, gids, h1, h2, h3, h4, h5, h6⟩, hg1⟩ := fixLevel_spec dim (D + 1) e _ m m1 _ el he hf
      rw [he] at h1; cases h1
      have hlt : e < m.elems.length := (List.getElem?_eq_some_iff.1 he).1
      have he1 : m1.elems[e]? = some { el with inc := upd el.inc (D + 1) (el.inc (D + 1) ++ gids) } := by
        rw [h3, List.getElem?_set]; simp [hlt]
      obtain ⟨⟨el', hx⟩, hg2⟩ := ih m1 m' _ he1 h
      refine ⟨⟨el', ?_⟩, fun hd hg => hg2 (by omega) (hg1 hd hg)⟩
      constructor
      · rw [hx.elems, h3, List.set_set]
      · rw [hx.coords, h4]
      · rw [hx.zones, h5]
      · intro d hd; rw [hx.ents d (by omega), h6 d (by omega)]
      · exact hx.id
      · exact hx.shape
      · exact hx.ecoords
      · exact hx.zone
      · intro d hd
        rw [hx.inc d (by omega)]
        exact upd_ne _ _ _ _ (by omega)
      · intro d h1 h2
        by_cases hd : d = D + 1
        · subst hd
          rw [hx.inc (D + 1) (by omega)]
          simp only [upd_self, List.length_append]
          omega
        · rw [hx.len d h1 (by omega)]
          simp only [upd_ne _ _ _ _ hd]

/-- `Good` only looks at ids and incidence lists of the elements. -/
theorem Good.congr {dim : Nat} {m m' : Mesh P} (h : Good dim m) (he : m'.ents = m.ents)
    (hel : ∀ e : Nat, (m'.elems[e]?).map (fun el => (el.id, el.inc)) = (m.elems[e]?).map (fun el => (el.id, el.inc))) :
    Good dim m' := by
  have key : ∀ (e : Nat) (el' : Elem), m'.elems[e]? = some el' →
      ∃ el, m.elems[e]? = some el ∧ el'.id = el.id ∧ el'.inc = el.inc := by
    intro e el' h1
    have h2 := hel e
    rw [h1] at h2
    cases h3 : m.elems[e]? with
    | none => rw [h3] at h2; simp at h2
    | some el => rw [h3] at h2; simp at h2; exact ⟨el, rfl, h2.1, h2.2⟩
  have key' : ∀ (e : Nat) (el : Elem), m.elems[e]? = some el →
      ∃ el', m'.elems[e]? = some el' ∧ el'.id = el.id ∧ el'.inc = el.inc := by
    intro e el h1
    have h2 := hel e
    rw [h1] at h2
    cases h3 : m'.elems[e]? with
    | none => rw [h3] at h2; simp at h2
    | some el' => rw [h3] at h2; simp at h2; exact ⟨el', rfl, h2.1, h2.2⟩
  refine ⟨?_, by rw [he]; exact h.entId, ?_, by rw [he]; exact h.once⟩
  · intro e el' h1
    obtain ⟨el, h2, h3, _⟩ := key e el' h1
    rw [h3]; exact h.elemId e el h2
  · intro d hd e i k
    have hl : Linked m' d k e i ↔ Linked m d k e i := by unfold Linked; rw [he]
    rw [hl, ← h.both d hd]
    constructor
    · rintro ⟨el', h1, h2⟩
      obtain ⟨el, h3, _, h4⟩ := key e el' h1
      exact ⟨el, h3, by rw [← h4]; exact h2⟩
    · rintro ⟨el, h1, h2⟩
      obtain ⟨el', h3, _, h4⟩ := key' e el h1
      exact ⟨el', h3, by rw [h4]; exact h2⟩

/-- The mesh together with an element that is not yet stored. -/
abbrev withElem (m : Mesh P) (e : Elem) : Mesh P := { m with elems := m.elems ++ [e] }

theorem withElem_last (m : Mesh P) (e : Elem) : (withElem m e).elems[m.elems.length]? = some e := by
  simp [withElem]

/-- The coordinates of an element belong to its nodes. -/
def CoordsOk (coords : List (Coord P)) (el : Elem) : Prop :=
  el.coords.length = (el.inc 0).length ∧
    ∀ i c : Nat, el.coords[i]? = some c → ∃ co, coords[c]? = some co ∧ co.node = (el.inc 0)[i]?

theorem addElementNodes_spec (dim : Nat) (hdim : 0 < dim) (cs : List Nat) : ∀ (m : Mesh P) (e : Elem) (r : Mesh P × Elem),
    e.id = m.elems.length → addElementNodes m e cs = some r →
    (Good dim (withElem m e) → Good dim (withElem r.1 r.2)) ∧ (CoordsOk m.coords e → CoordsOk r.1.coords r.2) ∧
      r.1.elems = m.elems ∧ r.1.coords = m.coords ∧ r.1.zones = m.zones ∧ (∀ d, d ≠ 0 → r.1.ents d = m.ents d) ∧
      r.2.id = e.id ∧ r.2.shape = e.shape ∧ r.2.zone = e.zone ∧ (∀ d, d ≠ 0 → r.2.inc d = e.inc d) ∧
      r.2.coords = e.coords ++ cs ∧ (r.2.inc 0).length = (e.inc 0).length + cs.length := by
  induction cs with
  | nil =>
    intro m e r hid h
    simp only [addElementNodes, Option.some.injEq] at h
    subst h
    simp
  | cons c cs ih =>
    intro m e r hid h
    simp only [addElementNodes] at h
    cases hc : m.coords[c]? with
    | none => simp [hc] at h
    | some co =>
      simp only [hc, Option.bind_eq_bind, Option.bind_some] at h
      cases hn : co.node with
      | none => simp [hn] at h
      | some node =>
        simp only [hn, Option.bind_some] at h
        cases hl : linkEntity m 0 node (e.id, (e.inc 0).length) with
        | none => simp [hl] at h
        | some m1 =>
          simp only [hl, Option.bind_some] at h
          obtain ⟨ent, hent, rfl⟩ := linkEntity_some _ _ _ _ _ hl
          obtain ⟨i1, i2, i3, i4, i5, i6, i7, i8, i9, i10, i11, i12⟩ := ih _ _ r (by simpa using hid) h
          refine ⟨?_, ?_, i3, i4, i5, ?_, i7, i8, i9, ?_, ?_, ?_⟩
          · intro hg
            apply i1
            have hadd : addEntity (withElem m e) 0 e.id node = some
                { (withElem m e) with
                  elems := (withElem m e).elems.set e.id { e with inc := upd e.inc 0 (e.inc 0 ++ [node]) },
                  ents := upd m.ents 0 ((m.ents 0).set node { ent with inc := ent.inc ++ [(e.id, (e.inc 0).length)] }) } := by
              unfold addEntity
              rw [hid, withElem_last, ← hid]
              simp only [Option.bind_eq_bind, Option.bind_some]
              exact linkEntity_eq _ 0 node _ ent hent
            have hg2 := addEntity_good dim _ _ 0 e.id node hdim hg hadd
            refine hg2.congr rfl ?_
            intro k
            simp only [withElem, hid, List.getElem?_append, List.getElem?_set, List.length_append]
            by_cases hk : k < m.elems.length
            · have : ¬ m.elems.length = k := by omega
              simp [hk, this]
            · by_cases hk2 : m.elems.length = k
              · subst hk2; simp [hid]
              · obtain ⟨n, hn⟩ : ∃ n, k - m.elems.length = n + 1 := ⟨k - m.elems.length - 1, by omega⟩
                simp [hk, hn, hk2]
          · intro hok
            apply i2
            refine ⟨by simp [upd_self, hok.1], ?_⟩
            intro i c' hi
            simp only [List.getElem?_append] at hi
            simp only [upd_self, List.getElem?_append, hok.1] at hi ⊢
            split at hi
            · rename_i hlt
              simp only [hlt, if_true]
              exact hok.2 i c' hi
            · rename_i hlt
              simp only [hlt, if_false]
              have : i - (e.inc 0).length = 0 := by
                have := (List.getElem?_eq_some_iff.1 hi).1; simp at this; omega
              rw [this] at hi ⊢
              simp at hi; subst hi
              exact ⟨co, hc, by simp [hn]⟩
          · intro d hd; rw [i6 d hd]; exact upd_ne _ _ _ _ hd
          · intro d hd; rw [i10 d hd]; exact upd_ne _ _ _ _ hd
          · rw [i11]; simp
          · rw [i12]; simp [upd_self]; omega

theorem Consistent.good {shapes : List Shape} {dim : Nat} {m : Mesh P} (h : Consistent shapes dim m) : Good dim m :=
  ⟨h.elemId, h.entId, h.both, h.once⟩

theorem good_start (dim : Nat) (m : Mesh P) (e : Elem) (h : Good dim m) (hid : e.id = m.elems.length)
    (hinc : ∀ d, e.inc d = []) : Good dim (withElem m e) := by
  refine ⟨?_, h.entId, ?_, h.once⟩
  · intro k el hk
    simp only [withElem, List.getElem?_append] at hk
    split at hk
    · exact h.elemId k el hk
    · have := (List.getElem?_eq_some_iff.1 hk).1
      have h0 : k - m.elems.length = 0 := by simp at this; omega
      rw [h0] at hk; simp at hk; subst hk; omega
  · intro d hd e' i k
    have : Linked (withElem m e) d k e' i ↔ Linked m d k e' i := Iff.rfl
    rw [this, ← h.both d hd]
    constructor
    · rintro ⟨el, h1, h2⟩
      simp only [withElem, List.getElem?_append] at h1
      split at h1
      · exact ⟨el, h1, h2⟩
      · have := (List.getElem?_eq_some_iff.1 h1).1
        have h0 : e' - m.elems.length = 0 := by simp at this; omega
        rw [h0] at h1; simp at h1; subst h1; simp [hinc] at h2
    · rintro ⟨el, h1, h2⟩
      refine ⟨el, ?_, h2⟩
      have := (List.getElem?_eq_some_iff.1 h1).1
      simp only [withElem, List.getElem?_append, this, if_true]; exact h1

theorem getZoneId_spec (m : Mesh P) (z : String) (hz : m.zones.Nodup) :
    (getZoneId m z).1.elems = m.elems ∧ (getZoneId m z).1.coords = m.coords ∧ (getZoneId m z).1.ents = m.ents ∧
      (getZoneId m z).1.zones[(getZoneId m z).2]? = some z ∧ (getZoneId m z).1.zones.Nodup ∧
      (∃ l, (getZoneId m z).1.zones = m.zones ++ l) := by
  unfold getZoneId
  cases h : m.zones.findIdx? (· == z) with
  | some i =>
    simp only [true_and]
    rw [List.findIdx?_eq_some_iff_getElem] at h
    obtain ⟨h1, h2, _⟩ := h
    refine ⟨?_, hz, [], by simp⟩
    rw [List.getElem?_eq_getElem h1]; simpa using h2
  | none =>
    rw [List.findIdx?_eq_none_iff] at h
    refine ⟨rfl, rfl, rfl, by simp, ?_, [z], rfl⟩
    rw [List.nodup_append]
    refine ⟨hz, by simp, ?_⟩
    intro a ha b hb
    simp at hb; subst hb
    intro hab; subst hab
    simpa using h a ha

theorem findGeometry_mem (shapes : List Shape) (n : Nat) (s : Shape) (h : findGeometry shapes n = some s) :
    s ∈ shapes ∧ s.count 0 = n := by
  unfold findGeometry at h
  exact ⟨List.mem_of_find?_eq_some h, by simpa using List.find?_some h⟩

theorem addElement_some (shapes : List Shape) (dim : Nat) (m m' : Mesh P) (cs : List Nat) (z : String)
    (h : addElement shapes dim m cs z = some m') :
    ∃ shape r, findGeometry shapes cs.length = some shape ∧
      addElementNodes (getZoneId m z).1 ⟨m.elems.length, shape, fun _ => [], [], (getZoneId m z).2⟩ cs = some r ∧
      fixElement dim { r.1 with elems := r.1.elems ++ [r.2], ents := upd r.1.ents dim (r.1.ents dim ++ [⟨m.elems.length, [(m.elems.length, 0)]⟩]) }
        m.elems.length (dim - 1) = some m' := by
  unfold addElement at h
  simp only [Option.bind_eq_bind] at h
  cases h1 : findGeometry shapes cs.length with
  | none => simp [h1] at h
  | some shape =>
    simp only [h1, Option.bind_some] at h
    cases h2 : addElementNodes (getZoneId m z).1 ⟨m.elems.length, shape, fun _ => [], [], (getZoneId m z).2⟩ cs with
    | none => simp [h2] at h
    | some r =>
      simp only [h2, Option.bind_some] at h
      exact ⟨shape, r, rfl, h2, h⟩

/-- The mesh between the loop over the nodes and `fixElement`. -/
theorem addElement_mid (shapes : List Shape) (dim : Nat) (hdim : 0 < dim) (m : Mesh P) (cs : List Nat) (z : String)
    (hc : Consistent shapes dim m) (shape : Shape) (r : Mesh P × Elem)
    (hr : addElementNodes (getZoneId m z).1 ⟨m.elems.length, shape, fun _ => [], [], (getZoneId m z).2⟩ cs = some r) :
    Good dim { r.1 with elems := r.1.elems ++ [r.2], ents := upd r.1.ents dim (r.1.ents dim ++ [⟨m.elems.length, [(m.elems.length, 0)]⟩]) } := by
  obtain ⟨z1, z2, z3, z4, z5, z6⟩ := getZoneId_spec m z hc.zoneNames
  obtain ⟨i1, i2, i3, i4, i5, i6, i7, i8, i9, i10, i11, i12⟩ := addElementNodes_spec dim hdim cs _ _ r (by simp [z1]) hr
  have hgz : Good dim (getZoneId m z).1 := by
    refine hc.good.congr z3 ?_
    intro e; rw [z1]
  have hg := i1 (good_start dim _ _ hgz (by simp [z1]) (fun _ => rfl))
  have hslice : r.1.ents dim = (List.range m.elems.length).map fun i => ⟨i, [(i, 0)]⟩ := by
    rw [i6 dim (by omega), z3, hc.slices]
  have hnew : ∀ d k, (upd r.1.ents dim (r.1.ents dim ++ [⟨m.elems.length, [(m.elems.length, 0)]⟩]) d)[k]? =
      if d = dim ∧ k = m.elems.length then some ⟨m.elems.length, [(m.elems.length, 0)]⟩ else (r.1.ents d)[k]? := by
    intro d k
    by_cases hd : d = dim
    · subst hd
      rw [upd_self, List.getElem?_append]
      have hl : (r.1.ents d).length = m.elems.length := by rw [hslice]; simp
      rw [hl]
      split
      · have : ¬ k = m.elems.length := by omega
        simp [this]
      · by_cases hk : k = m.elems.length
        · simp [hk]
        · have h2 : (r.1.ents d)[k]? = none := List.getElem?_eq_none (by omega)
          simp only [hk, and_false, if_false, h2]
          exact List.getElem?_eq_none (by simp; omega)
    · rw [upd_ne _ _ _ _ hd]; simp [hd]
  refine ⟨?_, ?_, ?_, ?_⟩
  · exact hg.elemId
  · intro d k ent hk
    simp only [hnew] at hk
    split at hk
    · rename_i hx; cases hk; exact hx.2.symm
    · exact hg.entId d k ent hk
  · intro d hd e i k
    have hne : d ≠ dim := by omega
    have hb := hg.both d hd e i k
    unfold Lists Linked at hb ⊢
    simp only [upd_ne _ _ _ _ hne]
    exact hb
  · intro d k ent hk
    simp only [hnew] at hk
    split at hk
    · cases hk; simp
    · exact hg.once d k ent hk

theorem addElement_consistent (shapes : List Shape) (dim : Nat) (hdim : 0 < dim) (m m' : Mesh P) (cs : List Nat) (z : String)
    (hc : Consistent shapes dim m) (h : addElement shapes dim m cs z = some m') : Consistent shapes dim m' := by
  obtain ⟨shape, r, hs, hr, hf⟩ := addElement_some shapes dim m m' cs z h
  obtain ⟨z1, z2, z3, z4, z5, z6⟩ := getZoneId_spec m z hc.zoneNames
  obtain ⟨i1, i2, i3, i4, i5, i6, i7, i8, i9, i10, i11, i12⟩ := addElementNodes_spec dim hdim cs _ _ r (by simp [z1]) hr
  have hgm := addElement_mid shapes dim hdim m cs z hc shape r hr
  have hel : (r.1.elems ++ [r.2])[m.elems.length]? = some r.2 := by rw [i3, z1]; simp
  obtain ⟨⟨el', hx⟩, hg⟩ := fixElement_spec dim m.elems.length (dim - 1) _ m' r.2 hel hf
  have hg' := hg (by omega) hgm
  have hshape := findGeometry_mem shapes _ shape hs
  have helems : m'.elems = m.elems ++ [el'] := by
    rw [hx.elems]; simp only [i3, z1]; simp [List.set_append]
  have hco : CoordsOk r.1.coords r.2 := i2 ⟨by simp, by simp⟩
  obtain ⟨zl, hzl⟩ := z6
  have hzones : m'.zones = (getZoneId m z).1.zones := by rw [hx.zones]; exact i5
  have hcoords : m'.coords = m.coords := by rw [hx.coords]; simp only [i4, z2]
  refine ⟨hg'.elemId, hg'.entId, hg'.both, hg'.once, ?_, ?_, ?_, ?_, ?_⟩
  · intro el hel'
    rw [helems, List.mem_append, List.mem_singleton] at hel'
    rcases hel' with h1 | rfl
    · exact hc.full el h1
    · rw [hx.shape, i8]
      refine ⟨hshape.1, ?_⟩
      intro d hd
      rcases Nat.eq_zero_or_pos d with h0 | h0
      · subst h0
        rw [hx.inc 0 (Or.inl rfl), i12]
        simp [hshape.2]
      · rw [hx.len d h0 (by omega), i10 d (by omega), i8]; simp
  · intro el hel'
    rw [helems, List.mem_append, List.mem_singleton] at hel'
    rcases hel' with h1 | rfl
    · rw [hcoords]; exact hc.coords el h1
    · have := hco
      unfold CoordsOk at this
      rw [hx.ecoords, hx.inc 0 (Or.inl rfl), hx.coords]
      exact this
  · rw [hx.ents dim (by omega), helems]
    simp only [upd_self, i6 dim (by omega), z3, hc.slices, List.length_append, List.length_singleton, List.range_succ, List.map_append, List.map_cons, List.map_nil]
  · intro el hel'
    rw [helems, List.mem_append, List.mem_singleton] at hel'
    rcases hel' with h1 | rfl
    · have := hc.zones el h1
      rw [hzones, hzl]; simp; omega
    · rw [hx.zone, i9, hzones]
      exact (List.getElem?_eq_some_iff.1 z4).1
  · rw [hzones]; exact z5

end Verif.PreMesh
