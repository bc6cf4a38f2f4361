import Verif.PreMesh.Spec

/-! Helper lemmas: links between elements and entities. -/
set_option linter.all false
namespace Verif.PreMesh
open Verif.ElementShape

variable {P : Type}

theorem upd_self {α : Type} (f : Nat → α) (d : Nat) (x : α) : upd f d x d = x := by simp [upd]
theorem upd_ne {α : Type} (f : Nat → α) (d : Nat) (x : α) (k : Nat) (h : k ≠ d) : upd f d x k = f k := by simp [upd, h]

/-- The part of `Consistent` about links, which also holds while an element is being added. -/
structure Good (dim : Nat) (m : Mesh P) : Prop where
  elemId : ∀ (e : Nat) (el : Elem), m.elems[e]? = some el → el.id = e
  entId : ∀ (d k : Nat) (ent : Entity), (m.ents d)[k]? = some ent → ent.id = k
  both : ∀ d < dim, ∀ e i k : Nat, Lists m d e i k ↔ Linked m d k e i
  once : ∀ (d k : Nat) (ent : Entity), (m.ents d)[k]? = some ent → ent.inc.Nodup

/-- Ids and duplicates of the entities only. -/
structure EntsOk (m : Mesh P) : Prop where
  entId : ∀ (d k : Nat) (ent : Entity), (m.ents d)[k]? = some ent → ent.id = k
  once : ∀ (d k : Nat) (ent : Entity), (m.ents d)[k]? = some ent → ent.inc.Nodup

theorem linkEntity_eq (m : Mesh P) (d k : Nat) (p : Nat × Nat) (ent : Entity) (h : (m.ents d)[k]? = some ent) :
    linkEntity m d k p =
      some { m with ents := upd m.ents d ((m.ents d).set k { ent with inc := ent.inc ++ [p] }) } := by
  simp [linkEntity, h]

theorem linkEntity_some (m m' : Mesh P) (d k : Nat) (p : Nat × Nat) (h : linkEntity m d k p = some m') :
    ∃ ent, (m.ents d)[k]? = some ent ∧
      m' = { m with ents := upd m.ents d ((m.ents d).set k { ent with inc := ent.inc ++ [p] }) } := by
  cases he : (m.ents d)[k]? with
  | none => simp [linkEntity, he] at h
  | some ent => rw [linkEntity_eq m d k p ent he] at h; exact ⟨ent, rfl, (Option.some.inj h).symm⟩

theorem get_set_ents (m : Mesh P) (d k : Nat) (ent new : Entity) (h : (m.ents d)[k]? = some ent) (d' k' : Nat) :
    (upd m.ents d ((m.ents d).set k new) d')[k']? =
      if d' = d ∧ k' = k then some new else (m.ents d')[k']? := by
  have hk : k < (m.ents d).length := (List.getElem?_eq_some_iff.1 h).1
  by_cases hd : d' = d
  · subst hd
    rw [upd_self, List.getElem?_set]
    by_cases hkk : k = k'
    · subst hkk; simp [hk]
    · have : ¬ k' = k := fun h => hkk h.symm
      simp [hkk, this]
  · rw [upd_ne _ _ _ _ hd]; simp [hd]

/-- Linked after a link. -/
theorem link_linked (m : Mesh P) (d k : Nat) (p : Nat × Nat) (ent : Entity) (h : (m.ents d)[k]? = some ent)
    (m' : Mesh P) (hm : linkEntity m d k p = some m') (d' k' e i : Nat) :
    Linked m' d' k' e i ↔ Linked m d' k' e i ∨ (d' = d ∧ k' = k ∧ (e, i) = p) := by
  rw [linkEntity_eq m d k p ent h] at hm
  cases hm
  unfold Linked
  simp only [get_set_ents m d k ent _ h]
  by_cases hc : d' = d ∧ k' = k
  · obtain ⟨rfl, rfl⟩ := hc
    simp [h]
  · have hc2 : ¬ (d' = d ∧ k' = k ∧ (e, i) = p) := fun h => hc ⟨h.1, h.2.1⟩
    simp only [hc, if_false, hc2, or_false]

theorem link_ents (m : Mesh P) (d k : Nat) (p : Nat × Nat) (m' : Mesh P) (hm : linkEntity m d k p = some m')
    (h : EntsOk m) (hp : ¬ Linked m d k p.1 p.2) : EntsOk m' := by
  obtain ⟨ent, he, rfl⟩ := linkEntity_some m m' d k p hm
  have hnd := h.once d k ent he
  have hpn : p ∉ ent.inc := fun hc => hp ⟨ent, he, hc⟩
  constructor
  · intro d' k' e' hg
    simp only [get_set_ents m d k ent _ he] at hg
    split at hg
    · rename_i hc; cases hg; simp only; rw [h.entId d k ent he]; exact hc.2.symm
    · exact h.entId d' k' e' hg
  · intro d' k' e' hg
    simp only [get_set_ents m d k ent _ he] at hg
    split at hg
    · cases hg; simp only
      rw [List.nodup_append]
      exact ⟨hnd, by simp, by intro a ha b hb; simp at hb; subst hb; intro hab; subst hab; exact hpn ha⟩
    · exact h.once d' k' e' hg

theorem unlinkEntity_some (m m' : Mesh P) (d k : Nat) (p : Nat × Nat) (h : unlinkEntity m d k p = some m') :
    ∃ ent, (m.ents d)[k]? = some ent ∧ p ∈ ent.inc ∧
      m' = { m with ents := upd m.ents d ((m.ents d).set k { ent with inc := ent.inc.erase p }) } := by
  cases he : (m.ents d)[k]? with
  | none => simp [unlinkEntity, he] at h
  | some ent =>
    simp only [unlinkEntity, he, Option.bind_eq_bind, Option.bind_some] at h
    split at h
    · rename_i hp; cases h; exact ⟨ent, rfl, hp, rfl⟩
    · cases h

theorem newEntity_get (m : Mesh P) (d d' k : Nat) :
    ((newEntity m d).ents d')[k]? =
      if d' = d ∧ k = (m.ents d).length then some ⟨(m.ents d).length, []⟩ else (m.ents d')[k]? := by
  unfold newEntity
  by_cases hd : d' = d
  · subst hd
    simp only [upd_self, List.getElem?_append, true_and]
    split
    · rename_i h; have : ¬ k = (m.ents d').length := by omega
      simp [this]
    · rename_i h
      by_cases hk : k = (m.ents d').length
      · simp [hk]
      · have h1 : k - (m.ents d').length ≠ 0 := by omega
        have h2 : (m.ents d')[k]? = none := List.getElem?_eq_none (by omega)
        simp only [hk, if_false]
        rw [h2]; exact List.getElem?_eq_none (by simp; omega)
  · simp [upd_ne _ _ _ _ hd, hd]

theorem newEntity_ents (m : Mesh P) (d : Nat) (h : EntsOk m) : EntsOk (newEntity m d) := by
  constructor
  · intro d' k ent hg
    rw [newEntity_get] at hg
    split at hg
    · rename_i hc; cases hg; exact hc.2.symm
    · exact h.entId d' k ent hg
  · intro d' k ent hg
    rw [newEntity_get] at hg
    split at hg
    · cases hg; simp
    · exact h.once d' k ent hg

theorem newEntity_linked (m : Mesh P) (d d' k e i : Nat) : Linked (newEntity m d) d' k e i ↔ Linked m d' k e i := by
  unfold Linked
  simp only [newEntity_get]
  by_cases hc : d' = d ∧ k = (m.ents d).length
  · obtain ⟨rfl, rfl⟩ := hc
    simp
  · simp only [hc, if_false]

theorem newEntity_lists (m : Mesh P) (d d' e i k : Nat) : Lists (newEntity m d) d' e i k ↔ Lists m d' e i k := Iff.rfl

theorem newEntity_good (dim : Nat) (m : Mesh P) (d : Nat) (h : Good dim m) : Good dim (newEntity m d) := by
  have he := newEntity_ents m d ⟨h.entId, h.once⟩
  refine ⟨h.elemId, he.entId, ?_, he.once⟩
  intro d' hd' e i k
  rw [newEntity_linked, newEntity_lists]
  exact h.both d' hd' e i k

theorem Good.ents {dim : Nat} {m : Mesh P} (h : Good dim m) : EntsOk m := ⟨h.entId, h.once⟩

theorem Good.linked_lt {dim : Nat} {m : Mesh P} (h : Good dim m) {d e i k : Nat} (hd : d < dim) (hl : Lists m d e i k) :
    ∃ ent, (m.ents d)[k]? = some ent ∧ (e, i) ∈ ent.inc := (h.both d hd e i k).1 hl

/-- Appending entity `gid` to the list of element `e`. -/
theorem lists_append (m : Mesh P) (d e gid : Nat) (el : Elem) (he : m.elems[e]? = some el) (ents : Nat → List Entity)
    (d' e' i k : Nat) :
    Lists { m with elems := m.elems.set e { el with inc := upd el.inc d (el.inc d ++ [gid]) }, ents := ents } d' e' i k ↔
      Lists m d' e' i k ∨ (d' = d ∧ e' = e ∧ i = (el.inc d).length ∧ k = gid) := by
  have hlt : e < m.elems.length := (List.getElem?_eq_some_iff.1 he).1
  unfold Lists
  simp only [List.getElem?_set]
  by_cases hee : e = e'
  · subst hee
    simp only [if_true, hlt, Option.some.injEq, exists_eq_left', he, true_and]
    by_cases hd : d' = d
    · subst hd
      simp only [upd_self, List.getElem?_append, true_and]
      split
      · rename_i h
        have : ¬ i = (el.inc d').length := by omega
        simp [this]
      · rename_i h
        have h2 : (el.inc d')[i]? = none := List.getElem?_eq_none (by omega)
        by_cases hi : i = (el.inc d').length
        · simp [hi, eq_comm]
        · have : ∃ n, i - (el.inc d').length = n + 1 := ⟨i - (el.inc d').length - 1, by omega⟩
          obtain ⟨n, hn⟩ := this
          simp [hn, h2, hi]
    · simp [upd_ne _ _ _ _ hd, hd]
  · have h2 : ¬ e' = e := fun h => hee h.symm
    simp [hee, h2]

theorem addEntity_some (m m' : Mesh P) (d e gid : Nat) (h : addEntity m d e gid = some m') :
    ∃ el ent, m.elems[e]? = some el ∧ (m.ents d)[gid]? = some ent ∧
      m' = { m with
        elems := m.elems.set e { el with inc := upd el.inc d (el.inc d ++ [gid]) },
        ents := upd m.ents d ((m.ents d).set gid { ent with inc := ent.inc ++ [(el.id, (el.inc d).length)] }) } := by
  cases he : m.elems[e]? with
  | none => simp [addEntity, he] at h
  | some el =>
    simp only [addEntity, he, Option.bind_eq_bind, Option.bind_some] at h
    obtain ⟨ent, h1, h2⟩ := linkEntity_some _ _ _ _ _ h
    exact ⟨el, ent, rfl, h1, h2⟩

theorem addEntity_good (dim : Nat) (m m' : Mesh P) (d e gid : Nat) (hd : d < dim) (h : Good dim m)
    (hm : addEntity m d e gid = some m') : Good dim m' := by
  obtain ⟨el, ent, he, hent, rfl⟩ := addEntity_some m m' d e gid hm
  have hid := h.elemId e el he
  subst hid
  have hlt : el.id < m.elems.length := (List.getElem?_eq_some_iff.1 he).1
  have hnl : ¬ Linked m d gid el.id (el.inc d).length := by
    rw [← h.both d hd]
    rintro ⟨el', h1, h2⟩
    rw [he] at h1; cases h1
    have := (List.getElem?_eq_some_iff.1 h2).1
    omega
  have hlink := linkEntity_eq m d gid (el.id, (el.inc d).length) ent hent
  have hents := link_ents m d gid _ _ hlink h.ents hnl
  refine ⟨?_, hents.entId, ?_, hents.once⟩
  · intro e' el' hg
    simp only [List.getElem?_set] at hg
    split at hg
    · rename_i hc; subst hc; simp [hlt] at hg; subst hg; rfl
    · exact h.elemId e' el' hg
  · intro d' hd' e' i k
    rw [lists_append m d el.id gid el he _ d' e' i k]
    have := link_linked m d gid _ ent hent _ hlink d' k e' i
    constructor
    · rintro (h1 | ⟨rfl, rfl, rfl, rfl⟩)
      · exact this.2 (Or.inl ((h.both d' hd' e' i k).1 h1))
      · exact this.2 (Or.inr ⟨rfl, rfl, rfl⟩)
    · intro h1
      rcases this.1 h1 with h2 | ⟨rfl, rfl, h3⟩
      · exact Or.inl ((h.both d' hd' e' i k).2 h2)
      · simp only [Prod.mk.injEq] at h3
        exact Or.inr ⟨rfl, h3.1, h3.2, rfl⟩

end Verif.PreMesh
