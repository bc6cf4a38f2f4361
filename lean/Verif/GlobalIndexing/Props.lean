import Verif.GlobalIndexing.LemmasOrder
import Mathlib.Tactic.IntervalCases

/-!
# C17, C18: the global numbering of basis functions and its exchange

In all statements `S p` is the state of rank `p` after `reset` with a mesh.
-/
namespace Verif.GlobalIndexing

theorem resets_spec {m : Mesh} (hm : m.Valid) (h0 : 0 < m.unknowns) {layout : Layout}
    {unk : Option (List Nat)} (hn : (requested m unk).Nodup) {S : Nat → State} (h : Resets m layout unk S) :
    0 < m.ranks → ∃ inc, inc.Nodup ∧ inc.Pairwise (· ≤ ·) ∧ (∀ u ∈ inc, u < m.unknowns) ∧
      (∀ u, u ∈ inc ↔ u ∈ requested m unk) ∧ ∀ p < m.ranks, ResetSpec layout m inc p (S p) := by
  intro hr
  have hn' : ∀ l, unk = some l → l.Nodup := by rintro l rfl; exact hn
  obtain ⟨old, ho⟩ := h 0 hr
  obtain ⟨inc, i1, i2, i3, _⟩ := reset_spec m hm h0 layout unk hn' old 0 hr _ ho
  obtain ⟨_, _, j1, j2⟩ := included_spec _ _ _ i1
  refine ⟨inc, i2, j2, i3, ?_, ?_⟩
  · intro u; rw [j1]; cases unk <;> simp [requested]
  · intro p hp
    obtain ⟨old, ho⟩ := h p hp
    obtain ⟨inc', i1', _, _, hs⟩ := reset_spec m hm h0 layout unk hn' old p hp _ ho
    rw [i1] at i1'
    simp only [Option.some.injEq] at i1'
    subst i1'
    exact hs

private theorem dofs_congr {m : Mesh} {a b : List Nat} (h : ∀ u, u ∈ a ↔ u ∈ b) (p : Nat) : m.dofs a p = m.dofs b p := by
  unfold Mesh.dofs; simp only [h]

/-- C17. `reset` fails exactly if an empty selection or an unknown that does not exist is requested. -/
theorem reset_rejects (m : Mesh) (layout : Layout) (unk : Option (List Nat)) (old : State) (p : Nat) :
    reset m layout unk old p = none ↔ ∃ l, unk = some l ∧ (l = [] ∨ ∃ u ∈ l, m.unknowns ≤ u) := by
  cases unk with
  | none => simp [reset, includedUnknowns]
  | some l =>
    by_cases hc : l.length > 0 ∧ ∀ u ∈ l, u < m.unknowns
    · simp only [reset, includedUnknowns, if_pos hc]
      simp only [Option.bind_eq_bind, Option.bind_some, reduceCtorEq, Option.some.injEq, false_iff]
      rintro ⟨l', rfl, rfl | ⟨u, hu, hle⟩⟩
      · simp at hc
      · have := hc.2 u hu; omega
    · simp only [reset, includedUnknowns, if_neg hc]
      simp only [Option.bind_eq_bind, Option.bind_none, Option.some.injEq, true_iff]
      refine ⟨l, rfl, ?_⟩
      by_contra hh
      simp only [not_or, not_exists, not_and, Nat.not_le] at hh
      exact hc ⟨List.length_pos_iff.2 hh.1, hh.2⟩

/-- C17. After `reset` without a mesh no index is known and there are no local basis functions, but the
number of global basis functions and the list of included unknowns of the previous mesh remain. -/
theorem reset_null (old : State) :
    (∀ o u, old.resetNull.getGlobalIndex o u = none) ∧
    (∀ g, old.resetNull.globalToProcessorLocalIndex g = -1) ∧ old.resetNull.localNumber = 0 ∧
    old.resetNull.globalNumber = old.globalNumber ∧ old.resetNull.included = old.included := by
  refine ⟨fun o u => by simp [State.resetNull, State.getGlobalIndex], fun g => ?_, rfl, rfl, rfl⟩
  simp [State.resetNull, State.globalToProcessorLocalIndex]

section
variable (m : Mesh) (hm : m.Valid) (h0 : 0 < m.unknowns) (layout : Layout) (unk : Option (List Nat))
  (hn : (requested m unk).Nodup) (S : Nat → State) (h : Resets m layout unk S)
include hm h0 hn h

/-- C17. The owned basis functions of all ranks together get the global indices `0, …, N - 1`, each exactly
once; `N` is the total number every rank reports. -/
theorem global_indices_fill : ∃ N, (∀ p < m.ranks, (S p).globalNumber = N) ∧
    Set.BijOn (fun x : Nat × Dof => (S x.1).global x.2)
      {x | x.1 < m.ranks ∧ x.2 ∈ m.dofs (requested m unk) x.1} (Set.Iio N) := by
  rcases Nat.eq_zero_or_pos m.ranks with hr | hr
  · refine ⟨0, by omega, ?_, ?_, ?_⟩
    · rintro x ⟨hx, _⟩; omega
    · rintro x ⟨hx, _⟩; omega
    · intro x hx; simp at hx
  obtain ⟨inc, h1, h2, h3, h4, h5⟩ := resets_spec hm h0 hn h hr
  refine ⟨_, fun p hp => (h5 p hp).globalNumber, ?_⟩
  have := bijGlobal (layout := layout) hm h1 h3 S h5
  simpa only [dofs_congr h4] using this

/-- C17. On every rank the local indices of the owned basis functions are `0, …, n - 1`, each exactly once;
`n` is the local number the rank reports. -/
theorem local_indices_fill (p : Nat) (hp : p < m.ranks) :
    Set.BijOn (S p).local (m.dofs (requested m unk) p) {l : Int | 0 ≤ l ∧ l < (S p).localNumber} := by
  obtain ⟨inc, h1, h2, h3, h4, h5⟩ := resets_spec hm h0 hn h (by omega)
  have := bijLocal (layout := layout) hm h1 h3 (h5 p hp) hp
  rw [(h5 p hp).localNumber, ← dofs_congr h4]
  exact this

/-- C17. In the layouts without global blocks every rank owns a contiguous range of indices, one rank after
the other, in the order of the local indices. -/
theorem ranks_contiguous (hl : layout ≠ .blockedGlobal) (p : Nat) (hp : p < m.ranks) (d : Dof)
    (hd : d ∈ m.dofs (requested m unk) p) :
    ((S p).global d : Int) = ((List.range p).map fun q => (S q).localNumber).sum + (S p).local d := by
  obtain ⟨inc, h1, h2, h3, h4, h5⟩ := resets_spec hm h0 hn h (by omega)
  rw [← dofs_congr h4] at hd
  rw [contiguous hl h3 (h5 p hp) hp d hd]
  congr 3
  apply List.map_congr_left
  intro q hq
  exact (h5 q (by simp at hq; omega)).localNumber.symm

/-- C17. With global blocks all basis functions of an unknown, on any rank, come before those of a larger
unknown. -/
theorem unknowns_blocked (hl : layout = .blockedGlobal) (p q : Nat) (hp : p < m.ranks) (hq : q < m.ranks)
    (d d' : Dof) (hd : d ∈ m.dofs (requested m unk) p) (hd' : d' ∈ m.dofs (requested m unk) q)
    (hu : d.unknown < d'.unknown) : (S p).global d < (S q).global d' := by
  obtain ⟨inc, h1, h2, h3, h4, h5⟩ := resets_spec hm h0 hn h (by omega)
  rw [← dofs_congr h4] at hd hd'
  subst hl
  exact blocked_order h1 h2 h3 h5 p q hp hq d d' hd hd' hu

/-- C17. With blocks per processor, on one rank all basis functions of an unknown come before those of a
larger unknown. -/
theorem unknowns_blocked_on_rank (hl : layout = .blockedProcessor) (p : Nat) (hp : p < m.ranks)
    (d d' : Dof) (hd : d ∈ m.dofs (requested m unk) p) (hd' : d' ∈ m.dofs (requested m unk) p)
    (hu : d.unknown < d'.unknown) : (S p).global d < (S p).global d' := by
  obtain ⟨inc, h1, h2, h3, h4, h5⟩ := resets_spec hm h0 hn h (by omega)
  rw [← dofs_congr h4] at hd hd'
  subst hl
  exact blocked_order' h1 h2 h3 (h5 p hp) hp d d' hd hd' hu

/-- C17. In the sequential layout the basis functions of an object, for all unknowns, are consecutive: an
index between two of them belongs to the same object. -/
theorem objects_consecutive (hl : layout = .sequential) (p : Nat) (hp : p < m.ranks)
    (d d' d'' : Dof) (hd : d ∈ m.dofs (requested m unk) p) (hd' : d' ∈ m.dofs (requested m unk) p)
    (hd'' : d'' ∈ m.dofs (requested m unk) p) (ho : d.obj = d''.obj)
    (hb : (S p).global d < (S p).global d') (hb' : (S p).global d' < (S p).global d'') : d'.obj = d.obj := by
  obtain ⟨inc, h1, h2, h3, h4, h5⟩ := resets_spec hm h0 hn h (by omega)
  rw [← dofs_congr h4] at hd hd' hd''
  subst hl
  exact seq_consecutive h1 h3 (h5 p hp) hp d d' d'' hd hd' hd'' ho hb hb'

/-- C17. Local and global indices are in the same order on every rank. -/
theorem local_order (p : Nat) (hp : p < m.ranks) (d d' : Dof) (hd : d ∈ m.dofs (requested m unk) p)
    (hd' : d' ∈ m.dofs (requested m unk) p) :
    (S p).global d < (S p).global d' ↔ (S p).local d < (S p).local d' := by
  obtain ⟨inc, h1, h2, h3, h4, h5⟩ := resets_spec hm h0 hn h (by omega)
  rw [← dofs_congr h4] at hd hd'
  exact ordered h3 h1 (h5 p hp) hp d d' hd hd'

/-- C17. The conversion of a global index gives the local index if the rank owns it, and -1 for all other
integers. -/
theorem conversion (p : Nat) (hp : p < m.ranks) (g : Int) :
    (∀ d ∈ m.dofs (requested m unk) p, ((S p).global d : Int) = g →
      (S p).globalToProcessorLocalIndex g = (S p).local d) ∧
    ((¬ ∃ d ∈ m.dofs (requested m unk) p, ((S p).global d : Int) = g) →
      (S p).globalToProcessorLocalIndex g = -1) := by
  obtain ⟨inc, h1, h2, h3, h4, h5⟩ := resets_spec hm h0 hn h (by omega)
  have := toLocal hm h3 h1 (h5 p hp) hp g
  simpa only [dofs_congr h4] using this

/-! ### The exchange -/

/-- C18. In no execution an `at` throws or a message has a wrong length, whatever the order of arrival. -/
theorem exchange_never_fails (hg : m.Ghosts) (strict : Bool) (c : Config) (hr : Reachable m strict S c)
    (p : Nat) (hp : p < m.ranks) : (c.rank p).pc ≠ .error := by
  obtain ⟨inc, h1, h2, h3, h4, h5⟩ := resets_spec hm h0 hn h (by omega)
  exact (reachable_inv hm hg h3 h5 hr).noError p hp

/-- C18. At any moment every index a rank knows is the one that the owner of the object gave it, and a rank
keeps the indices of its own objects. -/
theorem exchange_sound (hg : m.Ghosts) (strict : Bool) (c : Config) (hr : Reachable m strict S c)
    (p : Nat) (hp : p < m.ranks) (o : Obj) (u : Nat) :
    (∀ v, (c.rank p).st.getGlobalIndex o u = some v →
      ∃ q < m.ranks, m.Owns q o ∧ (S q).getGlobalIndex o u = some v) ∧
    (m.Owns p o → (c.rank p).st.getGlobalIndex o u = (S p).getGlobalIndex o u) := by
  obtain ⟨inc, h1, h2, h3, h4, h5⟩ := resets_spec hm h0 hn h (by omega)
  obtain ⟨K, hb⟩ := (reachable_inv hm hg h3 h5 hr).base
  have hk := hb.knows p hp
  have ownv : ∀ q < m.ranks, m.Owns q o → u ∈ inc → (S q).getGlobalIndex o u = some (ownerValue m S o u) := by
    intro q hq ho hu
    unfold State.getGlobalIndex
    rw [if_pos ⟨by rw [(h5 q hq).unknowns]; exact h3 u hu, by rw [(h5 q hq).flag]; simpa using hu⟩]
    exact ownerValue_eq hm h5 q hq o ho u hu
  have excl : u ∉ inc → ∀ q < m.ranks, (S q).getGlobalIndex o u = none := by
    intro hu q hq
    unfold State.getGlobalIndex
    rw [if_neg]
    rintro ⟨_, hf⟩
    rw [(h5 q hq).flag] at hf
    simp at hf; exact hu hf
  by_cases hu : u ∈ inc
  · obtain ⟨g1, g2⟩ := hk.get h3 o u hu
    refine ⟨?_, ?_⟩
    · intro v hv
      by_cases hK : o ∈ K p
      · rw [g1 hK] at hv
        obtain ⟨q, hq, ho⟩ := hb.known p hp o hK
        exact ⟨q, hq, ho, by rw [ownv q hq ho hu]; exact hv⟩
      · rw [g2 hK] at hv; simp at hv
    · intro ho
      rw [g1 (hb.owned p hp o ho), ownv p hp ho hu]
  · have hx := hk.excluded (h5 p hp).flag o u hu
    refine ⟨?_, ?_⟩
    · intro v hv; rw [hx] at hv; simp at hv
    · intro _; rw [hx, excl hu p hp]

/-- C18. The exchange changes neither the numbers of basis functions nor the conversion of indices. -/
theorem exchange_keeps (hg : m.Ghosts) (strict : Bool) (c : Config) (hr : Reachable m strict S c)
    (p : Nat) (hp : p < m.ranks) :
    (c.rank p).st.localNumber = (S p).localNumber ∧ (c.rank p).st.globalNumber = (S p).globalNumber ∧
    ∀ g, (c.rank p).st.globalToProcessorLocalIndex g = (S p).globalToProcessorLocalIndex g := by
  obtain ⟨inc, h1, h2, h3, h4, h5⟩ := resets_spec hm h0 hn h (by omega)
  obtain ⟨K, hb⟩ := (reachable_inv hm hg h3 h5 hr).base
  have hk := hb.knows p hp
  refine ⟨hk.numbers.1, hk.numbers.2, fun g => ?_⟩
  have hown : ∀ u, ((c.rank p).st.table u).owns g = ((S p).table u).owns g := by
    intro u
    obtain ⟨a1, a2, a3, a4⟩ := hk.same u
    unfold Offsets.owns
    rw [a1, a3, a4]
  unfold State.globalToProcessorLocalIndex
  simp only [hown, hk.unknowns, (h5 p hp).unknowns]
  cases (List.range m.unknowns).find? (fun u => ((S p).table u).owns g) with
  | none => rfl
  | some u => simp only [(hk.same u).1, (hk.same u).2.1]

/-- C18. When a rank has finished it knows, for every element it owns or has as ghost element and every face,
edge and node of it, the index given by the owner. -/
theorem exchange_complete (hg : m.Ghosts) (strict : Bool) (c : Config) (hr : Reachable m strict S c)
    (p : Nat) (hp : p < m.ranks) (hd : (c.rank p).pc = .done) (e : Nat) (he : m.Has p e) (o : Obj)
    (ho : o ∈ objects m e) (u : Nat) (hu : u ∈ requested m unk) :
    ∃ q < m.ranks, m.Owns q o ∧ ∃ v, (S q).getGlobalIndex o u = some v ∧
      (c.rank p).st.getGlobalIndex o u = some v := by
  obtain ⟨inc, h1, h2, h3, h4, h5⟩ := resets_spec hm h0 hn h (by omega)
  obtain ⟨K, hf⟩ := (reachable_inv hm hg h3 h5 hr).final p hp hd
  have hK := hf.complete hg p hp e he o ho
  have hk := ((hf.knows p hp).get h3 o u ((h4 u).2 hu)).1 hK
  obtain ⟨q, hq, v, hv⟩ := (exchange_sound m hm h0 layout unk hn S h hg strict c hr p hp o u).1 _ hk
  exact ⟨q, hq, v, _, hv, hk⟩

/-- C18. After the exchange the indices of an element a rank has are those of its basis functions, ordered by
unknown, then by object; no index occurs twice. -/
theorem element_indices (hg : m.Ghosts) (strict : Bool) (c : Config) (hr : Reachable m strict S c)
    (p : Nat) (hp : p < m.ranks) (hd : (c.rank p).pc = .done) (e : Nat) (he : m.Has p e) :
    ∃ l, (c.rank p).st.getGlobalIndices m e = some l ∧ l.Nodup ∧
      l = ((requested m unk).mergeSort (· ≤ ·)).flatMap fun u => (objects m e).flatMap fun o =>
        (List.range (m.count o u)).map fun i => (c.rank p).st.global ⟨o, u, i⟩ := by
  obtain ⟨inc, h1, h2, h3, h4, h5⟩ := resets_spec hm h0 hn h (by omega)
  exact element_indices_aux hm hg h1 h2 h3 h4 hn h5 hr p hp hd e he

/-- C18. The exchange cannot deadlock: as long as a rank is not done some rank can go on, even if
`MPI_Waitall` waits until all messages of the rank are received. -/
theorem exchange_progress (hg : m.Ghosts) (strict : Bool) (c : Config) (hr : Reachable m strict S c)
    (hd : ∃ p < m.ranks, (c.rank p).pc ≠ .done) : ∃ c', Step m true c c' := by
  obtain ⟨p, hp, _⟩ := id hd
  obtain ⟨inc, h1, h2, h3, h4, h5⟩ := resets_spec hm h0 hn h (by omega)
  exact (reachable_inv hm hg h3 h5 hr).progress hd

omit hm h0 hn h in
/-- C18. The exchange ends: there is a bound on the length of all executions. -/
theorem exchange_terminates (strict : Bool) : ∃ N, ∀ n c, Run m strict n (Config.start m S) c → n ≤ N :=
  ⟨total m (Config.start m S), fun n c hr => by have := run_le hr; omega⟩

end

/-! ### Examples -/

/-- Three elements in a row on three ranks, as in GlobalIndexing.cpp:721-737: element `i` has the nodes `i`
and `i + 1`. -/
def threeRanks : Mesh where
  dim := 2
  ranks := 3
  unknowns := 2
  owned p := [p]
  owner e := e
  sub k e := if k = .node then [e, e + 1] else []
  adj k x := if k = .node then (if x = 0 then [0] else if x = 3 then [2] else [x - 1, x]) else []
  count o u := if o.kind = .node then 1 else if u = 0 then 2 else 0
  push p := if p = 0 then [(1, [0])] else if p = 1 then [(0, [1]), (2, [1])] else [(1, [2])]
  pulls p := if p = 1 then 2 else 1

example : threeRanks.Valid := by
  refine ⟨?_, ?_, ?_⟩
  · intro p _; simp [threeRanks]
  · intro p _ e he; simpa [threeRanks] using he
  · intro p _ e _ k; cases k <;> simp [threeRanks]

example : threeRanks.Ghosts := by
  have hadj : ∀ e < 3, ∀ x ∈ [e, e + 1], e ∈ threeRanks.adj .node x := by decide
  have hsub : ∀ e < 3, ∀ x ∈ [e, e + 1], ∀ e' ∈ threeRanks.adj .node x, e' < 3 ∧ x ∈ [e', e' + 1] := by decide
  have hclosed : ∀ p < 3, ∀ q < 3, p ≠ q → ∀ x ∈ [p, p + 1], x ∈ [q, q + 1] →
      (threeRanks.push p).find q = some [p] := by
    intro p hp q hq
    interval_cases p <;> interval_cases q <;> decide
  have hfind : ∀ p < 3, ∀ x ∈ threeRanks.push p, x.1 < 3 ∧ x.1 ≠ p := by decide
  refine ⟨?_, ?_, ?_, ?_, ?_, ?_, ?_⟩
  · intro p hp e he k x hx
    cases k <;> simp only [threeRanks, List.mem_singleton, reduceCtorEq, if_false, if_true, List.not_mem_nil] at he hx
    subst he; exact hadj e hp x hx
  · intro p hp e he k x hx e' he'
    cases k <;> simp only [threeRanks, List.mem_singleton, reduceCtorEq, if_false, if_true, List.not_mem_nil] at he hx
    subst he
    obtain ⟨a, b⟩ := hsub e hp x hx e' he'
    exact ⟨a, by simp [threeRanks], by simpa [threeRanks] using b⟩
  · intro p hp q hq hpq e he e' he' k x hx hx'
    cases k <;> simp only [threeRanks, List.mem_singleton, reduceCtorEq, if_false, if_true, List.not_mem_nil] at he he' hx hx'
    subst he; subst he'
    exact ⟨_, hclosed e hp e' hq hpq x hx hx', by simp⟩
  · intro p hp q e hpush
    obtain ⟨els, h1, h2⟩ := hpush
    change p < 3 at hp
    interval_cases p <;> simp [threeRanks, SMap.find] at h1 <;> simp [threeRanks] <;> grind
  · intro p hp q hq
    obtain ⟨x, hx, rfl⟩ := List.mem_map.1 hq
    exact hfind p hp x hx
  · intro p hp
    change p < 3 at hp
    interval_cases p <;> simp [threeRanks, SMap.Sorted, SMap.keys]
  · intro q hq
    change q < 3 at hq
    interval_cases q <;> decide

/-- All layouts number the 2 + 2 basis functions of an owned element and node on rank 0, for example. -/
example : ∀ layout ∈ [Layout.sequential, .blockedProcessor, .blockedGlobal],
    ((reset threeRanks layout none ⟨0, fun _ => {}, [], 0, 0⟩ 1).map fun s => (s.localNumber, s.globalNumber)) =
      some (4, 14) := by decide

example : (reset threeRanks .blockedGlobal none ⟨0, fun _ => {}, [], 0, 0⟩ 2).bind
    (·.getGlobalIndex ⟨.node, 3⟩ 1) = some 13 := by decide

/-- Rank 1 must tell rank 2 about node 1, which rank 0 owns, in the second round. -/
example : (((reset threeRanks .sequential none ⟨0, fun _ => {}, [], 0, 0⟩ 1).bind
    (·.createInitialMessage threeRanks 1 [1] 2)).map (·.secondRoundTags.keys)) = some [7] := by decide

/-! ### Violations -/

/-- One element on one rank. -/
def oneElement (faces : List Nat) : Mesh where
  dim := 2
  ranks := 1
  unknowns := 1
  owned _ := [0]
  owner _ := 0
  sub k _ := if k = .face then faces else []
  adj k _ := if k = .face then [0, 0] else []
  count _ _ := 1
  push _ := []
  pulls _ := 0

/-- C17, violation: if an unknown is requested twice, `reset` does not fail but counts its basis functions
twice; the indices have holes. -/
theorem repeated_unknown_leaves_holes (layout : Layout) :
    ∃ S : Nat → State, (oneElement []).Valid ∧ Resets (oneElement []) layout (some [0, 0]) S ∧
      (S 0).globalNumber = 2 ∧
      ¬ ∃ d ∈ (oneElement []).dofs [0, 0] 0, (S 0).global d = 0 := by
  have hv : (oneElement []).Valid := by
    refine ⟨fun p _ => by simp [oneElement], fun p hp e he => ?_, fun p _ e _ k => by simp [oneElement]⟩
    change p < 1 at hp
    simp only [oneElement]; omega
  obtain ⟨s, hs⟩ : ∃ s, reset (oneElement []) layout (some [0, 0]) ⟨0, fun _ => {}, [], 0, 0⟩ 0 = some s := by
    cases hh : reset (oneElement []) layout (some [0, 0]) ⟨0, fun _ => {}, [], 0, 0⟩ 0 with
    | some s => exact ⟨s, rfl⟩
    | none => rw [reset_rejects] at hh; obtain ⟨l, h1, h2⟩ := hh; simp at h1; subst h1; simp [oneElement] at h2
  have hn : s.globalNumber = 2 ∧ s.getGlobalIndex ⟨.element, 0⟩ 0 = some 1 := by
    have e : (reset (oneElement []) layout (some [0, 0]) ⟨0, fun _ => {}, [], 0, 0⟩ 0).map
        (fun s => (s.globalNumber, s.getGlobalIndex ⟨.element, 0⟩ 0)) = some (2, some 1) := by
      have hi : includedUnknowns (oneElement []).unknowns (some [0, 0]) = some [0, 0] := by
        rw [includedUnknowns, if_pos (by simp [oneElement]), List.mergeSort_of_pairwise (by simp)]
      unfold reset
      rw [hi]
      cases layout <;> decide +kernel
    rw [hs] at e
    simpa using e
  refine ⟨fun _ => s, hv, ?_, hn.1, ?_⟩
  · intro p hp
    change p < 1 at hp
    obtain rfl : p = 0 := by omega
    exact ⟨_, hs⟩
  · rintro ⟨⟨⟨k, i⟩, u, j⟩, ⟨h1, h2, h3⟩, h4⟩
    simp only [List.mem_cons, List.not_mem_nil, or_false, or_self] at h2
    subst h2
    cases k <;> simp [Mesh.Owns, oneElement] at h1
    subst h1
    simp [State.global, hn.2] at h4

/-- C17, violation: if an element has the same face on two sides (a periodic mesh of one element) the basis
functions of that face are counted twice and the indices have holes. -/
theorem repeated_face_leaves_holes (layout : Layout) :
    ∃ S : Nat → State, Resets (oneElement [0, 0]) layout none S ∧ (S 0).globalNumber = 3 ∧
      ¬ ∃ d ∈ (oneElement [0, 0]).dofs [0] 0, (S 0).global d = 1 := by
  obtain ⟨s, hs⟩ : ∃ s, reset (oneElement [0, 0]) layout none ⟨0, fun _ => {}, [], 0, 0⟩ 0 = some s := by
    cases hh : reset (oneElement [0, 0]) layout none ⟨0, fun _ => {}, [], 0, 0⟩ 0 with
    | some s => exact ⟨s, rfl⟩
    | none => rw [reset_rejects] at hh; obtain ⟨l, h1, h2⟩ := hh; simp at h1
  have hn : s.globalNumber = 3 ∧ s.getGlobalIndex ⟨.element, 0⟩ 0 = some 0 ∧
      s.getGlobalIndex ⟨.face, 0⟩ 0 = some 2 := by
    have e : (reset (oneElement [0, 0]) layout none ⟨0, fun _ => {}, [], 0, 0⟩ 0).map
        (fun s => (s.globalNumber, s.getGlobalIndex ⟨.element, 0⟩ 0, s.getGlobalIndex ⟨.face, 0⟩ 0)) =
        some (3, some 0, some 2) := by
      cases layout <;> decide +kernel
    rw [hs] at e
    simpa using e
  refine ⟨fun _ => s, ?_, hn.1, ?_⟩
  · intro p hp
    change p < 1 at hp
    obtain rfl : p = 0 := by omega
    exact ⟨_, hs⟩
  · rintro ⟨⟨⟨k, i⟩, u, j⟩, ⟨h1, h2, h3⟩, h4⟩
    simp only [List.mem_cons, List.not_mem_nil, or_false] at h2
    subst h2
    cases k <;> simp [Mesh.Owns, oneElement, Mesh.first] at h1 h3
    · subst h1; subst h3
      simp [State.global, hn.2.1] at h4
    · subst h1
      simp [State.global, hn.2.2] at h4
      omega

end Verif.GlobalIndexing
