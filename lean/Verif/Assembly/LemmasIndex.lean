import Verif.Assembly.Spec
import Verif.GlobalIndexing.Props
set_option linter.all false
namespace Verif.Assembly
open GlobalIndexing

theorem order_mem (m : Mesh) (unk) (u : Nat) : u ∈ order m unk ↔ u ∈ requested m unk := by
  simp [order]

theorem order_nodup {m : Mesh} {unk} (h : (requested m unk).Nodup) : (order m unk).Nodup :=
  (List.mergeSort_perm _ _).nodup_iff.2 h

theorem mem_localDofs {m : Mesh} {unk} {e : Nat} {d : Dof} : d ∈ localDofs m unk e ↔
    d.obj ∈ objects m e ∧ d.unknown ∈ requested m unk ∧ d.index < m.count d.obj d.unknown := by
  simp only [localDofs, List.mem_flatMap, List.mem_map, List.mem_range, order_mem]
  constructor
  · rintro ⟨u, hu, o, ho, i, hi, rfl⟩; exact ⟨ho, hu, hi⟩
  · rintro ⟨ho, hu, hi⟩; exact ⟨_, hu, _, ho, _, hi, rfl⟩

/-- What the later proofs use of the indices. -/
structure Facts (m : Mesh) (unk : Option (List Nat)) (s : Nat → State) (g : Dof → Nat) : Prop where
  nodup : (requested m unk).Nodup
  included : ∀ p < m.ranks, (s p).included = order m unk
  get : ∀ p < m.ranks, ∀ e, m.Has p e → ∀ o ∈ objects m e, ∀ u ∈ requested m unk,
    (s p).getGlobalIndex o u = some (g ⟨o, u, 0⟩)
  start : ∀ d, g d = g ⟨d.obj, d.unknown, 0⟩ + d.index
  inj : ∀ d d', AllDofs m unk d → AllDofs m unk d' → g d = g d' → d = d'
  owner : ∀ p < m.ranks, ∀ e, m.Has p e → ∀ o ∈ objects m e, ∃ q < m.ranks, m.Owns q o
  indices : ∀ p < m.ranks, ∀ e, m.Has p e → (s p).getGlobalIndices m e = some ((localDofs m unk e).map g)
  global : ∀ p < m.ranks, ∀ d ∈ m.dofs (requested m unk) p, (s p).global d = g d
  locals : ∀ p < m.ranks, Set.BijOn (s p).local (m.dofs (requested m unk) p) {l : Int | 0 ≤ l ∧ l < (s p).localNumber}
  getLocal : ∀ p < m.ranks, ∀ o, m.Owns p o → ∀ u ∈ requested m unk, ∃ l, (s p).getProcessorLocalIndex o u = some l
  surj : ∀ n, n < (if 0 < m.ranks then (s 0).globalNumber else 0) → ∃ d, AllDofs m unk d ∧ g d = n

theorem Indexing.facts {m : Mesh} (hm : m.Valid) (hg : m.Ghosts) (h0 : 0 < m.unknowns) {layout unk s}
    (h : Indexing m layout unk s) : ∃ g, Facts m unk s g := by
  obtain ⟨hn, S, strict, c, hS, hc, hd, hs⟩ := h
  refine ⟨fun d => ownerValue m S d.obj d.unknown + d.index, ?_⟩
  rcases Nat.eq_zero_or_pos m.ranks with hr | hr
  · refine ⟨hn, ?_, ?_, fun d => by simp, ?_, ?_, ?_, ?_, ?_, ?_, ?_⟩
    all_goals try (intro p hp; omega)
    · rintro d d' ⟨p, hp, _⟩; omega
    · intro n hn'; simp [hr] at hn'
  obtain ⟨inc, h1, h2, h3, h4, h5⟩ := resets_spec hm h0 hn hS hr
  have hinv := reachable_inv hm hg h3 h5 hc
  obtain ⟨K, hb⟩ := hinv.base
  have hinc : inc = order m unk := by
    have hp : inc.Perm (order m unk) := by
      rw [List.perm_ext_iff_of_nodup h1 (order_nodup hn)]
      intro a; rw [order_mem]; exact h4 a
    refine hp.eq_of_pairwise (le := (· ≤ ·)) (fun a b _ _ h1 h2 => Nat.le_antisymm h1 h2) h2 ?_
    have := List.pairwise_mergeSort (le := fun a b : Nat => decide (a ≤ b)) (by simp; omega) (by simp; omega) (requested m unk)
    simpa [order] using this
  have hget : ∀ p < m.ranks, ∀ e, m.Has p e → ∀ o ∈ objects m e, ∀ u ∈ requested m unk,
      (c.rank p).st.getGlobalIndex o u = some (ownerValue m S o u) ∧ ∃ q < m.ranks, m.Owns q o := by
    intro p hp e he o ho u hu
    obtain ⟨q, hq, how, v, hv, hv'⟩ := exchange_complete m hm h0 layout unk hn S hS hg strict c hc p hp (hd p hp) e he o ho u hu
    refine ⟨?_, q, hq, how⟩
    have := ownerValue_eq hm h5 q hq o how u ((h4 u).2 hu)
    unfold State.getGlobalIndex at hv
    split_ifs at hv
    rw [hv', ← hv, this]
  have hown : ∀ p < m.ranks, ∀ o, m.Owns p o → ∀ u ∈ requested m unk, (c.rank p).st.getGlobalIndex o u = some (ownerValue m S o u)
      ∧ (S p).getGlobalIndex o u = some (ownerValue m S o u) := by
    intro p hp o ho u hu
    have e2 : (S p).getGlobalIndex o u = some (ownerValue m S o u) := by
      unfold State.getGlobalIndex
      rw [if_pos ⟨by rw [(h5 p hp).unknowns]; exact h3 u ((h4 u).2 hu), by rw [(h5 p hp).flag]; simpa using (h4 u).2 hu⟩]
      exact ownerValue_eq hm h5 p hp o ho u ((h4 u).2 hu)
    exact ⟨by rw [(exchange_sound m hm h0 layout unk hn S hS hg strict c hc p hp o u).2 ho, e2], e2⟩
  have hloc : ∀ p < m.ranks, ∀ d ∈ m.dofs (requested m unk) p, (s p).local d = (S p).local d := by
    rintro p hp d ⟨ho, hu, hi⟩
    obtain ⟨a1, a2, a3, a4⟩ := (hb.knows p hp).same d.unknown
    rw [hs p hp]
    unfold State.local State.getProcessorLocalIndex
    rw [(hown p hp _ ho _ hu).1, (hown p hp _ ho _ hu).2, a1, a2]
  have hkeep := fun p hp => exchange_keeps m hm h0 layout unk hn S hS hg strict c hc p hp
  have hglob : ∀ p < m.ranks, ∀ d ∈ m.dofs (requested m unk) p, (S p).global d = ownerValue m S d.obj d.unknown + d.index := by
    rintro p hp d ⟨ho, hu, hi⟩
    unfold State.global
    rw [(hown p hp _ ho _ hu).2]; rfl
  refine ⟨hn, ?_, ?_, fun d => by simp, ?_, ?_, ?_, ?_, ?_, ?_, ?_⟩
  · intro p hp; rw [hs p hp, (hb.knows p hp).included, hinc]
  · intro p hp e he o ho u hu; rw [hs p hp, (hget p hp e he o ho u hu).1]; simp
  · rintro d d' ⟨p, hp, hdp⟩ ⟨q, hq, hdq⟩ he
    obtain ⟨N, -, hbij⟩ := global_indices_fill m hm h0 layout unk hn S hS
    have := hbij.injOn (x₁ := (p, d)) (x₂ := (q, d')) ⟨hp, hdp⟩ ⟨hq, hdq⟩ (by
      show (S p).global d = (S q).global d'
      rw [hglob p hp d hdp, hglob q hq d' hdq]; exact he)
    exact congrArg Prod.snd this
  · intro p hp e he o ho
    obtain ⟨u, hu⟩ : ∃ u, u ∈ requested m unk := by
      obtain ⟨old, hold⟩ := hS p hp
      cases unk with
      | none => exact ⟨0, by simpa [requested] using h0⟩
      | some l =>
        have hne : l ≠ [] := by
          rintro rfl
          simp [reset, includedUnknowns] at hold
        exact List.exists_mem_of_ne_nil l hne
    exact (hget p hp e he o ho u hu).2
  · intro p hp e he
    obtain ⟨l, hl, -, hl'⟩ := element_indices m hm h0 layout unk hn S hS hg strict c hc p hp (hd p hp) e he
    rw [hs p hp, hl, hl']
    congr 1
    simp only [localDofs, List.map_flatMap, List.map_map, order]
    refine List.flatMap_congr fun u hu => List.flatMap_congr fun o ho => List.map_congr_left fun i hi => ?_
    unfold State.global
    rw [(hget p hp e he o ho u (by simpa using hu)).1]; rfl
  · intro p hp d hdp
    obtain ⟨ho, hu, hi⟩ := id hdp
    rw [hs p hp]
    unfold State.global
    rw [(hown p hp _ ho _ hu).1]; rfl
  · intro p hp
    have := local_indices_fill m hm h0 layout unk hn S hS p hp
    have e : (s p).localNumber = (S p).localNumber := by rw [hs p hp]; exact (hkeep p hp).1
    rw [e]
    exact this.congr fun d hd' => (hloc p hp d hd').symm
  · intro p hp o ho u hu
    rw [hs p hp]
    unfold State.getProcessorLocalIndex
    rw [(hown p hp _ ho _ hu).1]
    exact ⟨_, rfl⟩
  · intro n hn'
    rw [if_pos hr, hs 0 hr, (hkeep 0 hr).2.1] at hn'
    obtain ⟨N, hN, hbij⟩ := global_indices_fill m hm h0 layout unk hn S hS
    rw [hN 0 hr] at hn'
    obtain ⟨⟨p, d⟩, ⟨hp, hdp⟩, hx⟩ := hbij.surjOn (show n ∈ Set.Iio N from hn')
    exact ⟨d, ⟨p, hp, hdp⟩, by rw [← hx]; exact (hglob p hp d hdp).symm⟩

end Verif.Assembly
