import Verif.GlobalIndexing.LemmasInv2
import Verif.GlobalIndexing.LemmasBij

set_option linter.all false
namespace Verif.GlobalIndexing

/-- The index the owner of an object gives to it. -/
noncomputable def ownerValue (m : Mesh) (S : Nat → State) (o : Obj) (u : Nat) : Nat := by
  classical
  exact if h : ∃ q, q < m.ranks ∧ m.Owns q o then ((S h.choose).table.find o u).getD 0 else 0

section
variable {layout : Layout} {m : Mesh} {inc : List Nat} {S : Nat → State}

theorem ownerValue_eq (hm : m.Valid) (h : ∀ p < m.ranks, ResetSpec layout m inc p (S p)) (q : Nat) (hq : q < m.ranks)
    (o : Obj) (ho : m.Owns q o) (u : Nat) (hu : u ∈ inc) : (S q).table.find o u = some (ownerValue m S o u) := by
  classical
  have hex : ∃ q, q < m.ranks ∧ m.Owns q o := ⟨q, hq, ho⟩
  unfold ownerValue
  rw [dif_pos hex]
  have : hex.choose = q := owns_unique m hm _ _ hex.choose_spec.1 hq o hex.choose_spec.2 ho
  rw [this, (h q hq).find u hu o ho]
  rfl

theorem length_filter_sum (n : Nat) (P : Nat → Bool) :
    ((List.range n).filter P).length = ((List.range n).map fun q => if P q then 1 else 0).sum := by
  induction n with
  | zero => rfl
  | succ n ih =>
    simp only [List.range_succ, List.filter_append, List.length_append, ih, List.map_append, List.sum_append]
    by_cases h : P n = true <;> simp [h]

theorem inv_start (hm : m.Valid) (hg : m.Ghosts) (h : ∀ p < m.ranks, ResetSpec layout m inc p (S p)) :
    Inv m inc (ownerValue m S) S (Config.start m S) := by
  refine ⟨fun p => {o | m.Owns p o}, Or.inl ?_⟩
  have htodo : ∀ q, cTodo (Config.start m S) q = (m.push q).keys := fun q => rfl
  refine { knows := ?_, owned := fun p hp o ho => ho, known := fun p hp o ho => ⟨p, hp, ho⟩, pcs := ?_, ents := ?_,
           comm := ?_, rem := ?_, flags := ?_, sorted := ?_, second := ?_ }
  · intro p hp
    refine { included := (h p hp).included, unknowns := (h p hp).unknowns, flag := ?_, same := ?_,
             numbers := ⟨rfl, rfl⟩, find := ?_, none := ?_ }
    · intro u hu
      show ((S p).table u).included = true
      rw [(h p hp).flag]; simpa using hu
    · intro u; simp [SameBlock, Config.start]
    · intro u hu o ho
      exact ownerValue_eq hm h p hp o ho u hu
    · intro u hu o ho
      exact (h p hp).none u o (fun hh => ho hh.1)
  · intro p hp; exact Or.inl ⟨_, rfl⟩
  · intro p hp l hl
    simp only [Config.start, Pc.send1.injEq] at hl
    subst hl
    have hn := (hg.push_sorted p hp).nodup
    exact ⟨fun x hx => find_of_mem _ hn x.1 x.2 hx, hn⟩
  · refine ⟨by simp [Config.start], ?_⟩
    intro q hq p ht
    exact Or.inl ht
  · intro p hp
    show m.pulls p = _
    rw [hg.pulls_eq p hp, length_filter_sum]
    unfold pend
    simp [Config.start, htodo]
    rfl
  · intro p hp
    show 0 + pend m _ [] _ p = _
    unfold pend tot
    simp [htodo]
  · intro p hp; exact SMap.sorted_nil
  · intro p hp q T
    show SMap.find [] q = some T ↔ _
    rw [htodo]
    simp [SMap.find, tgt2]
    intro a _ hh
    exact absurd a hh

theorem reachable_inv (hm : m.Valid) (hg : m.Ghosts) (hlt : ∀ u ∈ inc, u < m.unknowns)
    (h : ∀ p < m.ranks, ResetSpec layout m inc p (S p)) {strict c}
    (hr : Reachable m strict S c) : Inv m inc (ownerValue m S) S c := by
  induction hr with
  | start => exact inv_start hm hg h
  | step c c' _ hs ih => exact ih.step hm hg hlt hs

theorem Inv.base {V c} (h : Inv m inc V S c) : ∃ K, Base m inc V S c K := by
  obtain ⟨K, h | h | h⟩ := h <;> exact ⟨K, h.toBase⟩

theorem Inv.noError {V c} (h : Inv m inc V S c) (p : Nat) (hp : p < m.ranks) : (c.rank p).pc ≠ .error := by
  intro he
  obtain ⟨K, h | h | h⟩ := h
  · rcases h.pcs p hp with ⟨_, e⟩ | ⟨_, e⟩ | e <;> simp [he] at e
  · rcases h.pcs p hp with ⟨_, e⟩ | ⟨_, e⟩ | e <;> simp [he] at e
  · have := h.pcs p hp; simp [he] at this

theorem Inv.final {V c} (h : Inv m inc V S c) (p : Nat) (hp : p < m.ranks) (hd : (c.rank p).pc = .done) :
    ∃ K, Final m inc V S c K := by
  obtain ⟨K, h | h | h⟩ := h
  · rcases h.pcs p hp with ⟨_, e⟩ | ⟨_, e⟩ | e <;> simp [hd] at e
  · rcases h.pcs p hp with ⟨_, e⟩ | ⟨_, e⟩ | e <;> simp [hd] at e
  · exact ⟨K, h⟩

/-- `getGlobalIndex` in terms of what the rank knows. -/
theorem Knows.get {V s0 s K} (h : Knows m inc V s0 K s) (hlt : ∀ u ∈ inc, u < m.unknowns)
    (o u) (hu : u ∈ inc) : (o ∈ K → s.getGlobalIndex o u = some (V o u)) ∧ (o ∉ K → s.getGlobalIndex o u = Option.none) := by
  unfold State.getGlobalIndex
  rw [if_pos ⟨by rw [h.unknowns]; exact hlt u hu, h.flag u hu⟩]
  exact ⟨fun ho => h.find u hu o ho, fun ho => h.none u hu o ho⟩

theorem Knows.excluded {V s0 s K} (h : Knows m inc V s0 K s) (h0 : ∀ u, (s0.table u).included = decide (u ∈ inc))
    (o u) (hu : u ∉ inc) : s.getGlobalIndex o u = Option.none := by
  unfold State.getGlobalIndex
  rw [if_neg]
  rintro ⟨_, hf⟩
  have := (h.same u).2.2.2
  rw [this, h0] at hf
  simp at hf; exact hu hf

/-- The objects of an element are different. -/
theorem objects_nodup (hm : m.Valid) (p : Nat) (hp : p < m.ranks) (e : Nat) (he : e ∈ m.owned p) :
    (objects m e).Nodup := by
  have h1 : ∀ k, ((m.sub k e).map (fun i => (⟨k, i⟩ : Obj))).Nodup := fun k =>
    (hm.sub_nodup p hp e he k).map (fun a b h => by simpa using h)
  unfold objects
  split_ifs with hd
  · simp only [List.cons_append, List.nodup_cons, List.mem_append, List.nodup_append, h1, List.mem_map]
    simp
    grind
  · simp only [List.cons_append, List.nodup_cons, List.mem_append, List.nodup_append, h1, List.mem_map]
    simp

theorem filter_range_inc (h : inc.Nodup) (hs : inc.Pairwise (· ≤ ·)) (hlt : ∀ u ∈ inc, u < m.unknowns) :
    (List.range m.unknowns).filter (fun u => decide (u ∈ inc)) = inc := by
  have hp : ((List.range m.unknowns).filter (fun u => decide (u ∈ inc))).Perm inc := by
    rw [List.perm_ext_iff_of_nodup (List.nodup_range.filter _) h]
    intro a; simp; exact fun ha => hlt a ha
  refine hp.eq_of_pairwise (le := (· ≤ ·)) (fun a b _ _ h1 h2 => Nat.le_antisymm h1 h2) ?_ hs
  exact (List.pairwise_lt_range.imp (fun h => Nat.le_of_lt h)).filter _

theorem mapM_none {α β : Type} (f : α → Option β) (l : List α) (a : α) (ha : a ∈ l) (h : f a = none) :
    l.mapM f = none := by
  induction l with
  | nil => simp at ha
  | cons b l ih =>
    rw [List.mapM_cons]
    rcases List.mem_cons.1 ha with rfl | ha
    · rw [h]; rfl
    · cases f b with
      | none => rfl
      | some v => rw [ih ha]; rfl

end
end Verif.GlobalIndexing
