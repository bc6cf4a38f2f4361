import Verif.UnionFind.Lemmas

/-!
# C19, C20: union-find and merge groups
-/
namespace Verif.UnionFind

/-- C19. After any sequence of `unionSets` and `findSet` calls, with enough calls allowed for the
recursion (one per operation is enough): no call runs out, `findSet` of two items gives the same
representative exactly when a chain of the performed unions links them, the representative is
itself linked to the item, and a `findSet` does not change any later answer. -/
theorem findSet_eq_iff_linked (ops : List Op) (fuel : Nat) (hf : ops.length < fuel) :
    ∃ s, run fuel ops = some s ∧ ∃ rep : Nat → Nat,
      (∀ a b, rep a = rep b ↔ Linked (unions ops) a b) ∧
      (∀ a, Linked (unions ops) a (rep a)) ∧
      (∀ a, ∃ s', findSet fuel s a = some (s', rep a) ∧
        ∀ b, ∃ s'', findSet fuel s' b = some (s'', rep b)) := by
  obtain ⟨s, rep, h1, h2⟩ := run_spec fuel ops [] [] 0 id good_nil (by omega)
  simp only [List.nil_append, Nat.zero_add] at h2
  refine ⟨s, h1, rep, h2.linked, fun a => (h2.linked _ _).1 (h2.inv.repRep a).symm, fun a => ?_⟩
  obtain ⟨s', h3, h4⟩ := good_find h2 hf a
  refine ⟨s', h3, fun b => ?_⟩
  obtain ⟨s'', h5, _⟩ := good_find h4 hf b
  exact ⟨s'', h5⟩

/-- C19, `inSameSet` answers whether the unions performed so far link the two items. -/
theorem inSameSet_iff_linked (ops : List Op) (fuel : Nat) (hf : ops.length < fuel) (a b : Nat) :
    ∃ s s' r, run fuel ops = some s ∧ inSameSet fuel s a b = some (s', r) ∧
      (r = true ↔ Linked (unions ops) a b) := by
  obtain ⟨s, h1, rep, h2, _, h3⟩ := findSet_eq_iff_linked ops fuel hf
  obtain ⟨s', h4, h5⟩ := h3 a
  obtain ⟨s'', h6⟩ := h5 b
  refine ⟨s, s'', rep a == rep b, h1, by simp [inSameSet, h4, h6], ?_⟩
  rw [beq_iff_eq, h2]

/-- C19, iteration: the items visited are in increasing order, and are exactly those linked to at
least one other item. -/
theorem iteration_visits_nontrivial (ops : List Op) (fuel : Nat) (hf : ops.length < fuel) :
    ∃ s, run fuel ops = some s ∧ (SMap.keys s).Pairwise (· < ·) ∧
      ∀ a, a ∈ SMap.keys s ↔ ∃ b, b ≠ a ∧ Linked (unions ops) a b := by
  obtain ⟨s, rep, h1, h2⟩ := run_spec fuel ops [] [] 0 id good_nil (by omega)
  simp only [List.nil_append, Nat.zero_add] at h2
  refine ⟨s, h1, h2.inv.sorted, fun a => ?_⟩
  rw [h2.keys]
  constructor
  · rintro ⟨k, hk, h | h⟩
    · exact ⟨k, hk, Relation.EqvGen.rel _ _ h⟩
    · exact ⟨k, hk, (Relation.EqvGen.rel _ _ h).symm⟩
  · rintro ⟨b, hb, h⟩
    rw [← h2.keys]
    by_contra hn
    have hb2 : rep a = rep b := (h2.linked _ _).2 h
    have ha : rep a = a := h2.inv.absent a (by
      cases h3 : SMap.find s a with
      | none => rfl
      | some v => exact absurd ((SMap.mem_keys _ _).2 ⟨v, h3⟩) hn)
    cases h3 : SMap.find s b with
    | none => exact hb (by rw [← h2.inv.absent b h3, ← hb2, ha])
    | some v =>
      obtain ⟨r, h4, _⟩ := h2.inv.root b v.1 v.2 h3
      rw [← hb2, ha] at h4
      exact hn ((SMap.mem_keys _ _).2 ⟨_, h4⟩)

/-- C19, `findSet` leaves the iterated items and hence the partition alone. -/
theorem findSet_keeps_items (ops : List Op) (fuel : Nat) (hf : ops.length < fuel) (a : Nat) :
    ∃ s s' r, run fuel ops = some s ∧ findSet fuel s a = some (s', r) ∧
      SMap.keys s' = SMap.keys s := by
  obtain ⟨s, rep, h1, h2⟩ := run_spec fuel ops [] [] 0 id good_nil (by omega)
  simp only [List.nil_append, Nat.zero_add] at h2
  obtain ⟨s', h3, h4, h5⟩ := findSet_spec h2.inv hf a
  exact ⟨s, s', rep a, h1, h3, h5.keys h2.inv.sorted h4.sorted⟩

/-- C20. For every list of pairs (self merges, repetitions and cycles included) `groupMerges`
returns groups such that: no entity occurs twice, in one group or in two; the entities that occur
are exactly those merged with another one; two of them share a group exactly when a chain of merges
links them; every group has at least two entities, in increasing order. -/
theorem groupMerges_correct (pairs : List (Nat × Nat)) (fuel : Nat) (hf : pairs.length < fuel) :
    ∃ groups, groupMerges fuel pairs = some groups ∧
      groups.flatten.Nodup ∧
      (∀ a, a ∈ groups.flatten ↔ ∃ b, b ≠ a ∧ ((a, b) ∈ pairs ∨ (b, a) ∈ pairs)) ∧
      (∀ a ∈ groups.flatten, ∀ b ∈ groups.flatten,
        (∃ g ∈ groups, a ∈ g ∧ b ∈ g) ↔ Linked pairs a b) ∧
      (∀ g ∈ groups, 2 ≤ g.length ∧ g.Pairwise (· < ·)) := by
  obtain ⟨s, rep, h1, h2⟩ := unionAll_spec fuel pairs [] [] 0 id good_nil (by omega)
  simp only [List.nil_append, Nat.zero_add] at h2
  obtain ⟨g, h3, h4⟩ := groupLoop_spec hf (SMap.keys s) ⟨s, [], []⟩ [] h2
    ⟨by simp, by simp, by simp [SMap.find], by simp⟩
  simp only [List.nil_append] at h4
  have hmem : ∀ a, a ∈ g.merges.flatten ↔ ∃ b, b ≠ a ∧ ((a, b) ∈ pairs ∨ (b, a) ∈ pairs) :=
    fun a => (h4.perm.mem_iff).trans (h2.keys a)
  have hnd : g.merges.flatten.Nodup := (h4.perm.nodup_iff).2 h2.inv.sorted.nodup
  have hrep : ∀ l ∈ g.merges, ∃ i r, g.merges[i]? = some l ∧ g.mergeGroup.find r = some i ∧
      ∀ x ∈ l, rep x = r := by
    intro l hl
    obtain ⟨i, hi⟩ := List.getElem?_of_mem hl
    obtain ⟨r, hr⟩ := h4.hasRep i (List.getElem?_eq_some_iff.1 hi).1
    obtain ⟨l', hl', _, hall⟩ := h4.group r i hr
    rw [hi] at hl'
    obtain rfl := Option.some.inj hl'
    exact ⟨i, r, hi, hr, hall⟩
  have hsame : ∀ a ∈ g.merges.flatten, ∀ b ∈ g.merges.flatten,
      (∃ l ∈ g.merges, a ∈ l ∧ b ∈ l) ↔ Linked pairs a b := by
    intro a ha b hb
    rw [← h2.linked]
    constructor
    · rintro ⟨l, hl, hal, hbl⟩
      obtain ⟨_, r, _, _, hall⟩ := hrep l hl
      rw [hall a hal, hall b hbl]
    · intro hab
      obtain ⟨l, hl, hal⟩ := List.mem_flatten.1 ha
      obtain ⟨l', hl', hbl⟩ := List.mem_flatten.1 hb
      obtain ⟨i, r, k1, k2, k3⟩ := hrep l hl
      obtain ⟨i', r', k1', k2', k3'⟩ := hrep l' hl'
      have : r = r' := by rw [← k3 a hal, ← k3' b hbl, hab]
      subst this
      rw [k2] at k2'
      obtain rfl := Option.some.inj k2'
      rw [k1] at k1'
      obtain rfl := Option.some.inj k1'
      exact ⟨l, hl, hal, hbl⟩
  refine ⟨g.merges, by simp [groupMerges, h1, h3], hnd, hmem, hsame, ?_⟩
  intro l hl
  obtain ⟨i, r, k1, k2, k3⟩ := hrep l hl
  refine ⟨?_, (h2.inv.sorted).sublist (h4.sub i l k1)⟩
  obtain ⟨l', hl', hne, _⟩ := h4.group r i k2
  rw [k1] at hl'
  obtain rfl := Option.some.inj hl'
  obtain ⟨a, ha⟩ := List.exists_mem_of_ne_nil _ hne
  have haf : a ∈ g.merges.flatten := List.mem_flatten.2 ⟨l, hl, ha⟩
  obtain ⟨b, hba, hb⟩ := (hmem a).1 haf
  have hbf : b ∈ g.merges.flatten := (hmem b).2 ⟨a, Ne.symm hba, hb.symm⟩
  have hlink : Linked pairs a b := by
    rcases hb with hb | hb
    · exact Relation.EqvGen.rel _ _ hb
    · exact (Relation.EqvGen.rel _ _ hb).symm
  obtain ⟨l'', hl'', ha'', hb''⟩ := (hsame a haf b hbf).2 hlink
  -- both lists carry the representative of `a`, so they are the same list
  obtain ⟨i'', r'', q1, q2, q3⟩ := hrep l'' hl''
  have : r = r'' := by rw [← k3 a ha, q3 a ha'']
  subst this
  rw [k2] at q2
  obtain rfl := Option.some.inj q2
  rw [k1] at q1
  obtain rfl := Option.some.inj q1
  match l, ha, hb'' with
  | [x], ha, hb'' =>
    simp only [List.mem_singleton] at ha hb''
    exact absurd (hb''.trans ha.symm) hba
  | x :: y :: t, _, _ => simp

/-! ## Concrete cases -/

/-- Two unions, a self union and a search. -/
example : (run 5 [.union 7 3, .union 4 4, .union 3 9, .find 7]).map SMap.keys = some [3, 7, 9] := by
  decide

example : ((run 5 [.union 7 3, .union 1 2, .union 3 9]).bind
    (fun s => (inSameSet 5 s 7 9).map Prod.snd)) = some true := by decide

example : ((run 5 [.union 7 3, .union 1 2, .union 3 9]).bind
    (fun s => (inSameSet 5 s 7 2).map Prod.snd)) = some false := by decide

/-- A chain, a repeated pair, a cycle and a self merge. -/
example : groupMerges 9 [(1, 5), (5, 8), (2, 4), (2, 4), (8, 1), (6, 6)] =
    some [[1, 5, 8], [2, 4]] := by decide

end Verif.UnionFind
