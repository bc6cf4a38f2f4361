import Verif.UnionFind.Spec
import Mathlib.Data.List.Perm.Basic
import Mathlib.Tactic.Common

set_option linter.all false

namespace Verif.UnionFind
open SMap

/-- The forest invariant: `rep` gives the root of every item, ranks increase towards the root and
are at most `B`. -/
structure Inv (s : UF) (rep : Nat → Nat) (B : Nat) : Prop where
  sorted : SMap.Sorted s
  absent : ∀ e, s.find e = none → rep e = e
  parent : ∀ e p r, s.find e = some (p, r) →
    r ≤ B ∧ rep p = rep e ∧ (p = e ↔ rep e = e) ∧
      ∃ p' r', s.find p = some (p', r') ∧ (p ≠ e → r < r')
  root : ∀ e p r, s.find e = some (p, r) →
    ∃ r', s.find (rep e) = some (rep e, r') ∧ (rep e ≠ e → r < r')

theorem Inv.repRep {s rep B} (h : Inv s rep B) (e : Nat) : rep (rep e) = rep e := by
  cases hs : s.find e with
  | none => rw [h.absent e hs, h.absent e hs]
  | some v =>
    obtain ⟨r', h1, _⟩ := h.root e v.1 v.2 hs
    exact ((h.parent _ _ _ h1).2.2.1).1 rfl

/-- Two storages with the same keys and ranks. -/
def SameRanks (s s' : UF) : Prop :=
  ∀ e, (s'.find e).map Prod.snd = (s.find e).map Prod.snd

theorem SameRanks.refl (s : UF) : SameRanks s s := fun _ => rfl
theorem SameRanks.trans {a b c : UF} (h : SameRanks a b) (h' : SameRanks b c) : SameRanks a c :=
  fun e => (h' e).trans (h e)

theorem SameRanks.find {s s' : UF} (h : SameRanks s s') {e p r} (hf : s.find e = some (p, r)) :
    ∃ p', s'.find e = some (p', r) := by
  have := h e
  rw [hf] at this
  cases hs : s'.find e with
  | none => rw [hs] at this; simp at this
  | some v => rw [hs] at this; simp at this; exact ⟨v.1, by rw [← this]⟩

theorem SameRanks.keys {s s' : UF} (h : SameRanks s s') (hs : SMap.Sorted s) (hs' : SMap.Sorted s') :
    SMap.keys s' = SMap.keys s := by
  have hm : ∀ e, e ∈ SMap.keys s' ↔ e ∈ SMap.keys s := by
    intro e
    rw [mem_keys, mem_keys]
    have := h e
    cases h1 : s.find e <;> cases h2 : s'.find e <;> rw [h1, h2] at this <;> simp at this ⊢
  have hp : (SMap.keys s').Perm (SMap.keys s) :=
    (List.perm_ext_iff_of_nodup hs'.nodup hs.nodup).2 hm
  exact hp.eq_of_pairwise (fun a b _ _ h1 h2 => absurd h1 (Nat.lt_asymm h2)) hs' hs

theorem setParent_inv {s : UF} {rep B e p r} (h : Inv s rep B) (hf : s.find e = some (p, r))
    (hne : True) :
    Inv (setParent s e (rep e)) rep B ∧ SameRanks s (setParent s e (rep e)) := by
  have hsp : setParent s e (rep e) = s.insert e (rep e, r) := by
    simp [setParent, access, hf]
  have hfind : ∀ j, (setParent s e (rep e)).find j = if j = e then some (rep e, r) else s.find j := by
    intro j; rw [hsp, find_insert]
  have hsr : SameRanks s (setParent s e (rep e)) := by
    intro j; rw [hfind]; split_ifs with hj
    · subst hj; rw [hf]; rfl
    · rfl
  refine ⟨⟨?_, ?_, ?_, ?_⟩, hsr⟩
  · rw [hsp]; exact h.sorted.insert _ _
  · intro j hj; rw [hfind] at hj; split_ifs at hj; exact h.absent j hj
  · intro j p' r' hj
    rw [hfind] at hj
    split_ifs at hj with hje
    · subst hje
      simp only [Option.some.injEq, Prod.mk.injEq] at hj
      obtain ⟨rfl, rfl⟩ := hj
      obtain ⟨h1, _⟩ := h.parent _ _ _ hf
      obtain ⟨r', h2, h3⟩ := h.root _ _ _ hf
      refine ⟨h1, h.repRep _, Iff.rfl, ?_⟩
      obtain ⟨q, hq⟩ := hsr.find h2
      exact ⟨q, r', hq, h3⟩
    · obtain ⟨h1, h2, h3, p2, r2, h4, h5⟩ := h.parent _ _ _ hj
      obtain ⟨q, hq⟩ := hsr.find h4
      exact ⟨h1, h2, h3, q, r2, hq, h5⟩
  · intro j p' r' hj
    rw [hfind] at hj
    have key : ∀ rr, (∃ p', s.find j = some (p', rr)) →
        ∃ r', (setParent s e (rep e)).find (rep j) = some (rep j, r') ∧ (rep j ≠ j → rr < r') := by
      rintro rr ⟨p', hp'⟩
      obtain ⟨r', h1, h2⟩ := h.root _ _ _ hp'
      refine ⟨r', ?_, h2⟩
      rw [hfind]
      split_ifs with hje
      · rw [hje] at h1
        rw [hf] at h1
        simp only [Option.some.injEq, Prod.mk.injEq] at h1
        obtain ⟨h1a, rfl⟩ := h1
        have : rep e = rep j := by rw [← hje]; exact h.repRep j
        rw [this]
      · exact h1
    split_ifs at hj with hje
    · subst hje
      simp only [Option.some.injEq, Prod.mk.injEq] at hj
      obtain ⟨rfl, rfl⟩ := hj
      exact key _ ⟨p, hf⟩
    · exact key _ ⟨p', hj⟩

theorem findSetPresent_spec {rep B} : ∀ (fuel : Nat) (s : UF) (e p r : Nat), Inv s rep B →
    s.find e = some (p, r) → B < fuel + r →
    ∃ s', findSetPresent fuel s e = some (s', rep e) ∧ Inv s' rep B ∧ SameRanks s s' := by
  intro fuel
  induction fuel with
  | zero =>
    intro s e p r h hf hB
    have := (h.parent _ _ _ hf).1
    omega
  | succ fuel ih =>
    intro s e p r h hf hB
    obtain ⟨h1, h2, h3, p', r', h4, h5⟩ := h.parent _ _ _ hf
    simp only [findSetPresent, access, hf]
    by_cases hp : p = e
    · refine ⟨s, ?_, h, SameRanks.refl s⟩
      simp only [hp, ne_eq, not_true_eq_false, if_false]
      rw [h3.1 hp]
    · obtain ⟨s1, hs1, hi1, hr1⟩ := ih s p p' r' h h4 (by have := h5 hp; omega)
      rw [if_pos hp, hs1]
      obtain ⟨q, hq⟩ := hr1.find hf
      obtain ⟨hi2, hr2⟩ := setParent_inv hi1 hq trivial
      rw [h2]
      exact ⟨_, rfl, hi2, hr1.trans hr2⟩

theorem findSet_spec {s : UF} {rep B fuel} (h : Inv s rep B) (hB : B < fuel) (e : Nat) :
    ∃ s', findSet fuel s e = some (s', rep e) ∧ Inv s' rep B ∧ SameRanks s s' := by
  unfold findSet
  cases hs : s.find e with
  | none => exact ⟨s, by simp [h.absent e hs], h, SameRanks.refl s⟩
  | some v =>
    obtain ⟨p, r⟩ := v
    obtain ⟨h1, h2, h3, p', r', h4, h5⟩ := h.parent _ _ _ hs
    obtain ⟨s1, hs1, hi1, hr1⟩ := findSetPresent_spec fuel s p p' r' h h4 (by omega)
    obtain ⟨q, hq⟩ := hr1.find hs
    obtain ⟨hi2, hr2⟩ := setParent_inv hi1 hq trivial
    simp only [hs1, h2]
    exact ⟨_, rfl, hi2, hr1.trans hr2⟩

theorem allocate_inv {s : UF} {rep B} (h : Inv s rep B) (e : Nat) :
    Inv (allocate s e) rep B ∧ (∃ p r, (allocate s e).find e = some (p, r)) ∧
      (∀ j, j ∈ SMap.keys (allocate s e) ↔ j = e ∨ j ∈ SMap.keys s) := by
  unfold allocate
  cases hs : s.find e with
  | some v =>
    refine ⟨h, ⟨v.1, v.2, hs⟩, fun j => ⟨Or.inr, ?_⟩⟩
    rintro (rfl | hj)
    · exact (mem_keys _ _).2 ⟨v, hs⟩
    · exact hj
  | none =>
    simp only
    have hre := h.absent e hs
    have hsome : ∀ j v, s.find j = some v → j ≠ e := by rintro j v hv rfl; simp [hs] at hv
    refine ⟨⟨h.sorted.insert _ _, ?_, ?_, ?_⟩, ⟨e, 0, by simp [find_insert]⟩, mem_keys_insert _ _ _⟩
    · intro j hj; rw [find_insert] at hj; split_ifs at hj; exact h.absent j hj
    · intro j p r hj
      rw [find_insert] at hj
      split_ifs at hj with hje
      · subst hje
        simp only [Option.some.injEq, Prod.mk.injEq] at hj
        obtain ⟨rfl, rfl⟩ := hj
        refine ⟨by omega, rfl, by simp [hre], j, 0, by simp [find_insert], by simp⟩
      · obtain ⟨h1, h2, h3, p', r', h4, h5⟩ := h.parent _ _ _ hj
        refine ⟨h1, h2, h3, p', r', ?_, h5⟩
        rw [find_insert, if_neg (hsome _ _ h4)]; exact h4
    · intro j p r hj
      rw [find_insert] at hj
      split_ifs at hj with hje
      · subst hje
        simp only [Option.some.injEq, Prod.mk.injEq] at hj
        obtain ⟨rfl, rfl⟩ := hj
        exact ⟨0, by simp [find_insert, hre], by simp [hre]⟩
      · obtain ⟨r', h4, h5⟩ := h.root _ _ _ hj
        refine ⟨r', ?_, h5⟩
        rw [find_insert, if_neg (hsome _ _ h4)]; exact h4

/-- Hanging the root `a` below the root `b`. -/
theorem link_inv {s : UF} {rep B a b ra rb rb'} (h : Inv s rep B) (hab : a ≠ b)
    (ha : s.find a = some (a, ra)) (hb : s.find b = some (b, rb)) (hr : ra < rb') (hrb : rb ≤ rb')
    (hB : rb' ≤ B + 1) (s' : UF) (hs' : SMap.Sorted s')
    (hfind : ∀ j, s'.find j = if j = a then some (b, ra) else if j = b then some (b, rb') else s.find j) :
    Inv s' (fun e => if rep e = a then b else rep e) (B + 1) := by
  have hra : rep a = a := (h.parent _ _ _ ha).2.2.1.1 rfl
  have hrb' : rep b = b := (h.parent _ _ _ hb).2.2.1.1 rfl
  have haB := (h.parent _ _ _ ha).1
  -- every old entry still exists, with at least the old rank
  have hup : ∀ j p r, s.find j = some (p, r) → ∃ p' r', s'.find j = some (p', r') ∧ r ≤ r' ∧
      (j ≠ b → r' = r) := by
    intro j p r hj
    rw [hfind]
    split_ifs with h1 h2
    · subst h1; rw [ha] at hj; simp at hj; exact ⟨b, ra, rfl, by omega, fun _ => hj.2⟩
    · subst h2; rw [hb] at hj; simp at hj; exact ⟨j, rb', rfl, by omega, by simp⟩
    · exact ⟨p, r, hj, Nat.le_refl _, fun _ => rfl⟩
  have hbb : s'.find b = some (b, rb') := by rw [hfind, if_neg (Ne.symm hab), if_pos rfl]
  refine ⟨hs', ?_, ?_, ?_⟩
  · intro e he
    rw [hfind] at he
    split_ifs at he with h1 h2
    have := h.absent e he
    rw [this, if_neg h1]
  · intro e p r he
    rw [hfind] at he
    split_ifs at he with h1 h2
    · subst h1
      simp only [Option.some.injEq, Prod.mk.injEq] at he
      obtain ⟨rfl, rfl⟩ := he
      refine ⟨by omega, ?_, ?_, ?_⟩
      · simp only [hrb', hra, if_neg (Ne.symm hab), if_true]
      · simp only [hra, if_true]
      · exact ⟨b, rb', hbb, fun _ => hr⟩
    · subst h2
      simp only [Option.some.injEq, Prod.mk.injEq] at he
      obtain ⟨rfl, rfl⟩ := he
      refine ⟨hB, rfl, ?_, e, rb', hbb, by simp⟩
      simp only [hrb', if_neg (Ne.symm hab)]
    · obtain ⟨g1, g2, g3, p', r', g4, g5⟩ := h.parent _ _ _ he
      obtain ⟨p2, r2, k1, k2, k3⟩ := hup _ _ _ g4
      refine ⟨by omega, by simp only [g2], ?_, p2, r2, k1, fun hne => Nat.lt_of_lt_of_le (g5 hne) k2⟩
      split_ifs with hre
      · constructor
        · intro hpe
          have := g3.1 hpe
          exact absurd (this.symm.trans hre) h1
        · intro hbe; exact absurd hbe.symm h2
      · exact g3
  · intro e p r he
    have key : ∀ p0 r0, s.find e = some (p0, r0) → (e = b → r = rb') → (e ≠ b → r = r0) →
        ∃ r', s'.find (if rep e = a then b else rep e) =
          some ((if rep e = a then b else rep e), r') ∧
          ((if rep e = a then b else rep e) ≠ e → r < r') := by
      intro p0 r0 he0 hrb2 hrne
      obtain ⟨r', g1, g2⟩ := h.root _ _ _ he0
      split_ifs with hre
      · refine ⟨rb', hbb, ?_⟩
        intro hbe
        have hr0 := hrne (Ne.symm hbe)
        rw [hre, ha] at g1
        simp only [Option.some.injEq, Prod.mk.injEq, true_and] at g1
        by_cases hea : e = a
        · subst hea; rw [ha] at he0; simp at he0; omega
        · have := g2 (by rw [hre]; exact Ne.symm hea); omega
      · by_cases hreb : rep e = b
        · refine ⟨rb', by rw [hreb]; exact hbb, ?_⟩
          intro hne
          have heb : e ≠ b := by rintro rfl; exact hne hreb
          have := g2 hne
          rw [hreb, hb] at g1
          simp only [Option.some.injEq, Prod.mk.injEq, true_and] at g1
          have := hrne heb; omega
        · refine ⟨r', by rw [hfind, if_neg hre, if_neg hreb]; exact g1, ?_⟩
          intro hne
          have heb : e ≠ b := by rintro rfl; exact hreb hrb'
          have := hrne heb; have := g2 hne; omega
    rw [hfind] at he
    split_ifs at he with h1 h2
    · subst h1
      simp only [Option.some.injEq, Prod.mk.injEq] at he
      exact key _ _ ha (fun h => absurd h hab) (fun _ => he.2.symm)
    · subst h2
      simp only [Option.some.injEq, Prod.mk.injEq] at he
      exact key _ _ hb (fun _ => he.2.symm) (fun h => absurd rfl h)
    · exact key _ _ he (fun h => absurd h h2) (fun _ => rfl)

theorem SameRanks.mem {s s' : UF} (h : SameRanks s s') (e : Nat) :
    e ∈ SMap.keys s' ↔ e ∈ SMap.keys s := by
  rw [mem_keys, mem_keys]
  have := h e
  cases h1 : s.find e <;> cases h2 : s'.find e <;> rw [h1, h2] at this <;> simp at this ⊢

theorem glue_iff {a b x y : Nat} (h : x ≠ y) :
    ((if a = x then y else a) = (if b = x then y else b)) ↔
      (a = b ∨ (a = x ∧ b = y) ∨ (a = y ∧ b = x)) := by
  split_ifs <;> grind

theorem unionSets_spec {s : UF} {rep B fuel} (h : Inv s rep B) (hB : B < fuel) (x y : Nat) :
    ∃ s' rep', unionSets fuel s x y = some s' ∧ Inv s' rep' (B + 1) ∧
      (∀ e f, rep' e = rep' f ↔ rep e = rep f ∨ (rep e = rep x ∧ rep f = rep y) ∨
        (rep e = rep y ∧ rep f = rep x)) ∧
      (∀ j, j ∈ SMap.keys s' ↔ j ∈ SMap.keys s ∨ (x ≠ y ∧ (j = x ∨ j = y))) := by
  have hmono : ∀ {s : UF}, Inv s rep B → Inv s rep (B + 1) := fun h =>
    ⟨h.sorted, h.absent, fun e p r he => by
      obtain ⟨a, b⟩ := h.parent e p r he; exact ⟨by omega, b⟩, h.root⟩
  unfold unionSets
  by_cases hxy : x = y
  · subst hxy
    refine ⟨s, rep, by simp, hmono h, ?_, by simp⟩
    intro e f; constructor
    · exact Or.inl
    · rintro (h | ⟨h1, h2⟩ | ⟨h1, h2⟩)
      · exact h
      · rw [h1, h2]
      · rw [h1, h2]
  rw [if_neg hxy]
  obtain ⟨i1, _, k1⟩ := allocate_inv h x
  obtain ⟨i2, ⟨py, ry, fy⟩, k2⟩ := allocate_inv i1 y
  have hfx : ∃ p r, (allocate (allocate s x) y).find x = some (p, r) := by
    have : x ∈ SMap.keys (allocate (allocate s x) y) := (k2 x).2 (Or.inr ((k1 x).2 (Or.inl rfl)))
    obtain ⟨v, hv⟩ := (mem_keys _ _).1 this
    exact ⟨v.1, v.2, hv⟩
  obtain ⟨px, rx, fx⟩ := hfx
  obtain ⟨s3, e3, i3, r3⟩ := findSetPresent_spec fuel _ x px rx i2 fx (by omega)
  obtain ⟨qy, fy3⟩ := r3.find fy
  obtain ⟨s4, e4, i4, r4⟩ := findSetPresent_spec fuel _ y qy ry i3 fy3 (by omega)
  obtain ⟨qx, fx3⟩ := r3.find fx
  obtain ⟨qx', fx4⟩ := r4.find fx3
  obtain ⟨qy', fy4⟩ := r4.find fy3
  have hkeys : ∀ j, j ∈ SMap.keys s4 ↔ j ∈ SMap.keys s ∨ (x ≠ y ∧ (j = x ∨ j = y)) := by
    intro j
    rw [r4.mem, r3.mem, k2, k1]
    constructor
    · rintro (h | h | h)
      · exact Or.inr ⟨hxy, Or.inr h⟩
      · exact Or.inr ⟨hxy, Or.inl h⟩
      · exact Or.inl h
    · rintro (h | ⟨_, h | h⟩)
      · exact Or.inr (Or.inr h)
      · exact Or.inr (Or.inl h)
      · exact Or.inl h
  simp only [e3, e4, Option.bind_eq_bind, Option.bind_some]
  by_cases hr : rep x = rep y
  · rw [if_pos hr]
    refine ⟨s4, rep, rfl, hmono i4, ?_, hkeys⟩
    intro e f; constructor
    · exact Or.inl
    · rintro (h | ⟨h1, h2⟩ | ⟨h1, h2⟩)
      · exact h
      · rw [h1, h2, hr]
      · rw [h1, h2, hr]
  rw [if_neg hr]
  obtain ⟨ra, fa, _⟩ := i4.root _ _ _ fx4
  obtain ⟨rb, fb, _⟩ := i4.root _ _ _ fy4
  have haB := (i4.parent _ _ _ fa).1
  have hbB := (i4.parent _ _ _ fb).1
  have hmemx : rep x ∈ SMap.keys s4 := (mem_keys _ _).2 ⟨_, fa⟩
  have hmemy : rep y ∈ SMap.keys s4 := (mem_keys _ _).2 ⟨_, fb⟩
  simp only [access, fa, fb]
  have hins : ∀ (m : UF) (k : Nat) v j, k ∈ SMap.keys m → (∀ j, j ∈ SMap.keys m ↔ j ∈ SMap.keys s4) →
      (j ∈ SMap.keys (m.insert k v) ↔ j ∈ SMap.keys s4) := by
    intro m k v j hk hm
    rw [mem_keys_insert, ← hm]
    constructor
    · rintro (rfl | h)
      · exact hk
      · exact h
    · exact Or.inr
  by_cases hgt : ra > rb
  · rw [if_pos hgt]
    refine ⟨_, _, rfl, link_inv (a := rep y) (b := rep x) (ra := rb) (rb := ra) (rb' := ra) i4
      (Ne.symm hr) fb fa hgt (Nat.le_refl _) (by omega) _ (i4.sorted.insert _ _) ?_, ?_, ?_⟩
    · intro j; rw [find_insert]
      by_cases h1 : j = rep y
      · simp [h1]
      · rw [if_neg h1, if_neg h1]
        split_ifs with h2
        · rw [h2, fa]
        · rfl
    · intro e f
      rw [glue_iff (Ne.symm hr)]
      constructor
      · rintro (h | ⟨h1, h2⟩ | ⟨h1, h2⟩)
        · exact Or.inl h
        · exact Or.inr (Or.inr ⟨h1, h2⟩)
        · exact Or.inr (Or.inl ⟨h1, h2⟩)
      · rintro (h | ⟨h1, h2⟩ | ⟨h1, h2⟩)
        · exact Or.inl h
        · exact Or.inr (Or.inr ⟨h1, h2⟩)
        · exact Or.inr (Or.inl ⟨h1, h2⟩)
    · intro j
      rw [hins s4 _ _ _ hmemy (fun _ => Iff.rfl), hkeys]
  · rw [if_neg hgt]
    have hrel : ∀ e f, ((if rep e = rep x then rep y else rep e) = (if rep f = rep x then rep y else rep f)) ↔
        (rep e = rep f ∨ (rep e = rep x ∧ rep f = rep y) ∨ (rep e = rep y ∧ rep f = rep x)) := by
      intro e f
      exact glue_iff hr
    by_cases heq : ra = rb
    · rw [if_pos heq]
      refine ⟨_, _, rfl, link_inv (a := rep x) (b := rep y) (ra := ra) (rb := rb) (rb' := rb + 1) i4
        hr fa fb (by omega) (by omega) (by omega) _ ((i4.sorted.insert _ _).insert _ _) ?_, hrel, ?_⟩
      · intro j; rw [find_insert, find_insert]
        by_cases h1 : j = rep x
        · simp [h1, hr]
        · simp [h1]
      · intro j
        rw [hins _ _ _ _ ((hins s4 _ _ _ hmemx (fun _ => Iff.rfl)).2 hmemy)
          (fun j => hins s4 _ _ _ hmemx (fun _ => Iff.rfl)), hkeys]
    · rw [if_neg heq]
      refine ⟨_, _, rfl, link_inv (a := rep x) (b := rep y) (ra := ra) (rb := rb) (rb' := rb) i4
        hr fa fb (by omega) (by omega) (by omega) _ (i4.sorted.insert _ _) ?_, hrel, ?_⟩
      · intro j; rw [find_insert]
        by_cases h1 : j = rep x
        · simp [h1]
        · rw [if_neg h1, if_neg h1]
          split_ifs with h2
          · rw [h2, fb]
          · rfl
      · intro j
        rw [hins s4 _ _ _ hmemx (fun _ => Iff.rfl), hkeys]

/-! ## Sequences of operations -/

/-- The representative decides linkage, and the keys are the items of non-trivial pairs. -/
structure Good (s : UF) (pairs : List (Nat × Nat)) (B : Nat) (rep : Nat → Nat) : Prop where
  inv : Inv s rep B
  linked : ∀ a b, rep a = rep b ↔ Linked pairs a b
  keys : ∀ j, j ∈ SMap.keys s ↔ ∃ k, k ≠ j ∧ ((j, k) ∈ pairs ∨ (k, j) ∈ pairs)

theorem good_nil : Good [] [] 0 id := by
  refine ⟨⟨sorted_nil, fun _ _ => rfl, by simp [SMap.find], by simp [SMap.find]⟩, ?_, by simp [SMap.keys]⟩
  intro a b
  constructor
  · intro h; simp only [id] at h; subst h; exact Relation.EqvGen.refl _
  · intro h
    induction h with
    | rel x y h => simp at h
    | refl => rfl
    | symm _ _ _ ih => exact ih.symm
    | trans _ _ _ _ _ ih1 ih2 => exact ih1.trans ih2

theorem linked_mono {p p' : List (Nat × Nat)} (h : ∀ x ∈ p, x ∈ p') {a b} (hl : Linked p a b) :
    Linked p' a b := Relation.EqvGen.mono (fun x y hxy => h _ hxy) _ _ hl

theorem good_find {s pairs B rep fuel} (h : Good s pairs B rep) (hB : B < fuel) (e : Nat) :
    ∃ s', findSet fuel s e = some (s', rep e) ∧ Good s' pairs B rep := by
  obtain ⟨s', h1, h2, h3⟩ := findSet_spec h.inv hB e
  exact ⟨s', h1, h2, h.linked, fun j => by rw [h3.mem]; exact h.keys j⟩

theorem good_union {s pairs B rep fuel} (h : Good s pairs B rep) (hB : B < fuel) (x y : Nat) :
    ∃ s' rep', unionSets fuel s x y = some s' ∧ Good s' (pairs ++ [(x, y)]) (B + 1) rep' := by
  obtain ⟨s', rep', h1, h2, h3, h4⟩ := unionSets_spec h.inv hB x y
  refine ⟨s', rep', h1, h2, ?_, ?_⟩
  · intro a b
    rw [h3]
    have hm : ∀ {a b}, Linked pairs a b → Linked (pairs ++ [(x, y)]) a b := fun hl =>
      linked_mono (fun _ hx => List.mem_append_left _ hx) hl
    have hxy : Linked (pairs ++ [(x, y)]) x y := Relation.EqvGen.rel _ _ (by simp)
    constructor
    · rintro (h' | ⟨ha, hb⟩ | ⟨ha, hb⟩)
      · exact hm ((h.linked _ _).1 h')
      · exact ((hm ((h.linked _ _).1 ha)).trans _ _ _ hxy).trans _ _ _ ((hm ((h.linked _ _).1 hb)).symm)
      · exact ((hm ((h.linked _ _).1 ha)).trans _ _ _ hxy.symm).trans _ _ _
          ((hm ((h.linked _ _).1 hb)).symm)
    · intro hl
      rw [← h3]
      induction hl with
      | rel u v huv =>
        rcases List.mem_append.1 huv with huv | huv
        · exact (h3 _ _).2 (Or.inl ((h.linked _ _).2 (Relation.EqvGen.rel _ _ huv)))
        · simp only [List.mem_singleton, Prod.mk.injEq] at huv
          obtain ⟨rfl, rfl⟩ := huv
          exact (h3 _ _).2 (Or.inr (Or.inl ⟨rfl, rfl⟩))
      | refl => rfl
      | symm _ _ _ ih => exact ih.symm
      | trans _ _ _ _ _ ih1 ih2 => exact ih1.trans ih2
  · intro j
    rw [h4, h.keys]
    simp only [List.mem_append, List.mem_singleton, Prod.mk.injEq]
    constructor
    · rintro (⟨k, hk, h' | h'⟩ | ⟨hne, rfl | rfl⟩)
      · exact ⟨k, hk, Or.inl (Or.inl h')⟩
      · exact ⟨k, hk, Or.inr (Or.inl h')⟩
      · exact ⟨y, Ne.symm hne, Or.inl (Or.inr ⟨rfl, rfl⟩)⟩
      · exact ⟨x, hne, Or.inr (Or.inr ⟨rfl, rfl⟩)⟩
    · rintro ⟨k, hk, (h' | ⟨rfl, rfl⟩) | (h' | ⟨rfl, rfl⟩)⟩
      · exact Or.inl ⟨k, hk, Or.inl h'⟩
      · exact Or.inr ⟨Ne.symm hk, Or.inl rfl⟩
      · exact Or.inl ⟨k, hk, Or.inr h'⟩
      · exact Or.inr ⟨hk, Or.inr rfl⟩

theorem good_mono {s pairs B B' rep} (h : Good s pairs B rep) (hB : B ≤ B') : Good s pairs B' rep :=
  ⟨⟨h.inv.sorted, h.inv.absent, fun e p r he => by
      obtain ⟨a, b⟩ := h.inv.parent e p r he; exact ⟨by omega, b⟩, h.inv.root⟩, h.linked, h.keys⟩

theorem run_spec (fuel : Nat) (ops : List Op) : ∀ (s : UF) (pairs) (B : Nat) (rep),
    Good s pairs B rep → B + ops.length < fuel →
    ∃ s' rep', ops.foldlM (fun s op => match op with
      | .union a b => unionSets fuel s a b
      | .find a => (findSet fuel s a).map Prod.fst) s = some s' ∧
      Good s' (pairs ++ unions ops) (B + ops.length) rep' := by
  induction ops with
  | nil => intro s pairs B rep h hB; exact ⟨s, rep, rfl, by simpa [unions] using h⟩
  | cons op ops ih =>
    intro s pairs B rep h hB
    simp only [List.length_cons] at hB
    cases op with
    | union a b =>
      obtain ⟨s1, rep1, h1, h2⟩ := good_union (fuel := fuel) h (by omega) a b
      obtain ⟨s2, rep2, h3, h4⟩ := ih s1 _ _ _ h2 (by omega)
      refine ⟨s2, rep2, ?_, ?_⟩
      · simp only [List.foldlM_cons, h1, Option.bind_eq_bind, Option.bind_some]; exact h3
      · rw [List.append_assoc] at h4
        refine good_mono h4 (by simp only [List.length_cons]; omega)
    | find a =>
      obtain ⟨s1, h1, h2⟩ := good_find (fuel := fuel) h (by omega) a
      obtain ⟨s2, rep2, h3, h4⟩ := ih s1 _ _ _ h2 (by omega)
      refine ⟨s2, rep2, ?_, ?_⟩
      · simp only [List.foldlM_cons, h1, Option.bind_eq_bind, Option.bind_some, Option.map_some]; exact h3
      · exact good_mono h4 (by simp only [List.length_cons]; omega)

theorem unionAll_spec (fuel : Nat) (l : List (Nat × Nat)) : ∀ (s : UF) (pairs) (B : Nat) (rep),
    Good s pairs B rep → B + l.length < fuel →
    ∃ s' rep', l.foldlM (fun s p => unionSets fuel s p.1 p.2) s = some s' ∧
      Good s' (pairs ++ l) (B + l.length) rep' := by
  induction l with
  | nil => intro s pairs B rep h hB; exact ⟨s, rep, rfl, by simpa using h⟩
  | cons p l ih =>
    intro s pairs B rep h hB
    simp only [List.length_cons] at hB
    obtain ⟨s1, rep1, h1, h2⟩ := good_union (fuel := fuel) h (by omega) p.1 p.2
    obtain ⟨s2, rep2, h3, h4⟩ := ih s1 _ _ _ h2 (by omega)
    refine ⟨s2, rep2, ?_, ?_⟩
    · simp only [List.foldlM_cons, h1, Option.bind_eq_bind, Option.bind_some]; exact h3
    · rw [List.append_assoc] at h4
      exact good_mono h4 (by simp only [List.length_cons]; omega)

/-! ## Grouping -/

structure GInv (g : Groups) (rep : Nat → Nat) (done : List Nat) : Prop where
  perm : g.merges.flatten.Perm done
  hasRep : ∀ i, i < g.merges.length → ∃ r, g.mergeGroup.find r = some i
  group : ∀ r i, g.mergeGroup.find r = some i →
    ∃ l, g.merges[i]? = some l ∧ l ≠ [] ∧ ∀ x ∈ l, rep x = r
  sub : ∀ (i : Nat) (l : List Nat), g.merges[i]? = some l → l.Sublist done

theorem flatten_modify_perm (l : List (List Nat)) (i : Nat) (x : Nat) (h : i < l.length) :
    (l.modify i (· ++ [x])).flatten.Perm (l.flatten ++ [x]) := by
  induction l generalizing i with
  | nil => simp at h
  | cons a l ih =>
    cases i with
    | zero =>
      simp only [List.modify_zero_cons, List.flatten_cons, List.append_assoc]
      exact List.Perm.append_left _ List.perm_append_comm
    | succ i =>
      simp only [List.modify_succ_cons, List.flatten_cons, List.append_assoc]
      exact List.Perm.append_left _ (ih i (by simpa using h))

theorem groupStep_spec {g : Groups} {rep done pairs B fuel} (hg : Good g.uf pairs B rep)
    (hB : B < fuel) (h : GInv g rep done) (e : Nat) :
    ∃ g', groupStep fuel g e = some g' ∧ Good g'.uf pairs B rep ∧ GInv g' rep (done ++ [e]) := by
  obtain ⟨uf, h1, h2⟩ := good_find hg hB e
  unfold groupStep
  rw [h1]
  simp only [Option.bind_eq_bind, Option.bind_some]
  cases hm : g.mergeGroup.find (rep e) with
  | some i =>
    refine ⟨_, rfl, h2, ?_⟩
    obtain ⟨l, hl, hne, hall⟩ := h.group _ _ hm
    have hi : i < g.merges.length := (List.getElem?_eq_some_iff.1 hl).1
    refine ⟨(flatten_modify_perm _ _ _ hi).trans (h.perm.append_right _), ?_, ?_, ?_⟩
    · intro j hj; simp only [List.length_modify] at hj; exact h.hasRep j hj
    · intro r j hj
      obtain ⟨l', hl', hne', hall'⟩ := h.group _ _ hj
      simp only [List.getElem?_modify, hl']
      by_cases hij : i = j
      · subst hij
        rw [hl] at hl'
        obtain rfl := Option.some.inj hl'
        simp only [if_true, Option.map_eq_map, Option.map_some, Option.some.injEq, exists_eq_left']
        refine ⟨by simp, ?_⟩
        intro x hx
        rcases List.mem_append.1 hx with hx | hx
        · exact hall' x hx
        · simp only [List.mem_singleton] at hx
          subst hx
          obtain ⟨y, hy⟩ := List.exists_mem_of_ne_nil _ hne
          rw [← hall' y hy, hall y hy]
      · simp only [if_neg hij, Option.map_eq_map, Option.map_some, Option.some.injEq, exists_eq_left', id]
        exact ⟨hne', hall'⟩
    · intro j l' hj
      simp only [List.getElem?_modify] at hj
      cases hg' : g.merges[j]? with
      | none => rw [hg'] at hj; simp at hj
      | some l0 =>
        rw [hg'] at hj
        have hs := h.sub j l0 hg'
        by_cases hij : i = j
        · simp [hij] at hj
          rw [← hj]; exact hs.append (List.Sublist.refl _)
        · simp [hij] at hj
          rw [← hj]; exact hs.trans (List.sublist_append_left _ _)
  | none =>
    refine ⟨_, rfl, h2, ?_⟩
    refine ⟨by simpa using h.perm.append_right [e], ?_, ?_, ?_⟩
    · intro j hj
      simp only [List.length_append, List.length_singleton] at hj
      by_cases hj' : j < g.merges.length
      · obtain ⟨r, hr⟩ := h.hasRep j hj'
        refine ⟨r, ?_⟩
        rw [find_insert, if_neg]
        · exact hr
        · rintro rfl; rw [hm] at hr; simp at hr
      · exact ⟨rep e, by rw [find_insert, if_pos rfl]; congr 1; omega⟩
    · intro r j hj
      simp only at hj
      rw [find_insert] at hj
      split_ifs at hj with hr
      · simp only [Option.some.injEq] at hj
        subst hj
        exact ⟨[e], by simp, by simp, by simp [hr]⟩
      · obtain ⟨l, hl, hne, hall⟩ := h.group _ _ hj
        have hi := (List.getElem?_eq_some_iff.1 hl).1
        exact ⟨l, by simp only; rw [List.getElem?_append_left hi]; exact hl, hne, hall⟩
    · intro j l' hj
      simp only at hj
      by_cases hj' : j < g.merges.length
      · rw [List.getElem?_append_left hj'] at hj
        exact (h.sub j l' hj).trans (List.sublist_append_left _ _)
      · rw [List.getElem?_append_right (by omega)] at hj
        have : l' = [e] := by
          have := List.mem_of_getElem? hj
          simpa using this
        rw [this]; exact List.sublist_append_right _ _

theorem groupLoop_spec {rep pairs B fuel} (hB : B < fuel) (l : List Nat) :
    ∀ (g : Groups) (done), Good g.uf pairs B rep → GInv g rep done →
    ∃ g', l.foldlM (groupStep fuel) g = some g' ∧ GInv g' rep (done ++ l) := by
  induction l with
  | nil => intro g done _ h; exact ⟨g, rfl, by simpa using h⟩
  | cons e l ih =>
    intro g done hg h
    obtain ⟨g1, h1, h2, h3⟩ := groupStep_spec hg hB h e
    obtain ⟨g2, h4, h5⟩ := ih g1 _ h2 h3
    refine ⟨g2, ?_, by simpa using h5⟩
    simp only [List.foldlM_cons, h1, Option.bind_eq_bind, Option.bind_some]; exact h4

end Verif.UnionFind
