import Verif.MeshFile.Lemmas

/-! # Helper lemmas: the loops of the reader -/
set_option linter.all false
namespace Verif.MeshFile
open Verif.PreMesh

/-- How many entries below `n` are here. -/
def rankOf (p : Nat → Bool) (n : Nat) : Nat := ((List.range n).filter p).length

theorem rankOf_succ (p : Nat → Bool) (n : Nat) : rankOf p (n + 1) = rankOf p n + if p n then 1 else 0 := by
  unfold rankOf
  rw [List.range_succ, List.filter_append]
  by_cases h : p n <;> simp [h]

theorem rankOf_mono (p : Nat → Bool) {a b : Nat} (h : a ≤ b) : rankOf p a ≤ rankOf p b := by
  induction b with
  | zero => simp at h; subst h; exact Nat.le_refl _
  | succ b ih =>
    rcases Nat.eq_or_lt_of_le h with rfl | h
    · exact Nat.le_refl _
    · rw [rankOf_succ]; have := ih (by omega); omega

theorem rankOf_lt (p : Nat → Bool) {a b : Nat} (h : a < b) (ha : p a = true) : rankOf p a < rankOf p b := by
  have := rankOf_mono p (show a + 1 ≤ b by omega)
  rw [rankOf_succ, ha] at this
  simp at this
  omega

theorem filter_range_get (p : Nat → Bool) {a b : Nat} (h : a < b) (ha : p a = true) :
    ((List.range b).filter p)[rankOf p a]? = some a := by
  induction b with
  | zero => omega
  | succ b ih =>
    rw [List.range_succ, List.filter_append]
    rcases Nat.eq_or_lt_of_le h with h | h
    · have : a = b := by omega
      subst this
      rw [List.getElem?_append_right (by simp [rankOf]), show rankOf p a - ((List.range a).filter p).length = 0 by simp [rankOf]]
      simp [ha]
    · have hab : a < b := by omega
      rw [List.getElem?_append_left]
      · exact ih hab
      · exact rankOf_lt p hab ha

theorem rankOf_inj (p : Nat → Bool) {a b : Nat} (ha : p a = true) (hb : p b = true) (h : rankOf p a = rankOf p b) : a = b := by
  rcases Nat.lt_trichotomy a b with h' | h' | h'
  · have := rankOf_lt p h' ha; omega
  · exact h'
  · have := rankOf_lt p h' hb; omega

variable {R : Type} [LinearOrder R]

/-- The lines of a node. -/
def nodeToks (ps : List Nat) (cs : List (List R)) : List (Tok R) :=
  .nat ps.length :: ps.map .nat ++ .eol :: .nat cs.length :: cs.flatten.map .real ++ [.eol]

/-- The reader's step for a node. -/
def nodeStep (i : Nat) (here : Bool) (cs : List (List R)) (s : NodeState R) : NodeState R :=
  if here then ⟨s.coords ++ cs, s.start ++ [(i, s.coords.length)], s.index ++ [(i, s.nodes.length)], s.nodes ++ [s.next], s.next + 1⟩
  else { s with next := s.next + 1 }

theorem readNode_toks (rank dim i : Nat) (s : NodeState R) (ps : List Nat) (cs : List (List R)) (hcs : ∀ x ∈ cs, x.length = dim)
    (t rest : List (Tok R)) (ht : Same t (nodeToks ps cs ++ rest)) :
    ∃ t', readNode rank dim i s t = some (nodeStep i (decide (rank ∈ ps)) cs s, t') ∧ Same t' rest := by
  unfold readNode
  rw [readNat_same ht]
  by_cases h : rank ∈ ps
  · obtain ⟨l', hl'⟩ := findRank_mem rank ps (.eol :: .nat cs.length :: (cs.flatten.map .real ++ .eol :: rest)) h
    refine ⟨.eol :: rest, ?_, same_eol rest⟩
    have e1 : nodeToks ps cs ++ rest = .nat ps.length :: (ps.map .nat ++ .eol :: .nat cs.length :: (cs.flatten.map .real ++ .eol :: rest)) := by
      simp [nodeToks]
    have e2 := readPoints_map dim cs hcs (.eol :: rest)
    rw [e1, readNat_nat]
    simp only [Option.bind_eq_bind, Option.bind_some, hl', ignoreLine_nats, readNat_nat, e2, if_true]
    simp [nodeStep, h]
  · have hl' := findRank_not_mem rank ps (.eol :: .nat cs.length :: (cs.flatten.map .real ++ .eol :: rest)) h
    refine ⟨rest, ?_, Same.rfl⟩
    have e1 : nodeToks ps cs ++ rest = .nat ps.length :: (ps.map .nat ++ .eol :: .nat cs.length :: (cs.flatten.map .real ++ .eol :: rest)) := by
      simp [nodeToks]
    rw [e1, readNat_nat]
    have e3 : ignoreLine (.nat cs.length :: (cs.flatten.map .real ++ .eol :: rest)) = rest := by
      rw [ignoreLine]
      · exact ignoreLine_reals _ _
      · simp
    simp only [Option.bind_eq_bind, Option.bind_some, hl', ignoreLine_eol, e3]
    simp [nodeStep, h]

theorem mapAt_append_ne (l : List (Nat × Nat)) (i v k : Nat) (h : k ≠ i) : mapAt (l ++ [(i, v)]) k = mapAt l k := by
  unfold mapAt
  rw [List.find?_append]
  simp [Ne.symm h]

theorem mapAt_append_new (l : List (Nat × Nat)) (i v : Nat) (h : ∀ q ∈ l, q.1 < i) : mapAt (l ++ [(i, v)]) i = v := by
  unfold mapAt
  rw [List.find?_append, List.find?_eq_none.2]
  · simp
  · intro q hq
    have := h q hq
    simp; omega

/-- What the reader knows after `k` nodes. -/
structure NodeInv (off : Nat) (here : Nat → Bool) (cs : Nat → List (List R)) (k : Nat) (s : NodeState R) : Prop where
  coords : s.coords = ((List.range k).filter here).flatMap cs
  nodes : s.nodes = ((List.range k).filter here).map (· + off)
  next : s.next = k + off
  start : ∀ n < k, here n = true → mapAt s.start n = (((List.range n).filter here).flatMap cs).length
  index : ∀ n < k, here n = true → mapAt s.index n = rankOf here n
  startKeys : ∀ q ∈ s.start, q.1 < k
  indexKeys : ∀ q ∈ s.index, q.1 < k

theorem nodeInv_step (off : Nat) (here : Nat → Bool) (cs : Nat → List (List R)) (k : Nat) (s : NodeState R)
    (h : NodeInv off here cs k s) : NodeInv off here cs (k + 1) (nodeStep k (here k) (cs k) s) := by
  cases hk : here k
  · have e : nodeStep k false (cs k) s = { s with next := s.next + 1 } := by simp [nodeStep]
    rw [e]
    refine ⟨?_, ?_, ?_, ?_, ?_, ?_, ?_⟩
    · simp [List.range_succ, List.filter_append, hk, h.coords]
    · simp [List.range_succ, List.filter_append, hk, h.nodes]
    · simp [h.next]; omega
    · intro n hn hh
      have : n ≠ k := by rintro rfl; simp [hk] at hh
      exact h.start n (by omega) hh
    · intro n hn hh
      have : n ≠ k := by rintro rfl; simp [hk] at hh
      exact h.index n (by omega) hh
    · intro q hq; have := h.startKeys q hq; omega
    · intro q hq; have := h.indexKeys q hq; omega
  · have e : nodeStep k true (cs k) s = ⟨s.coords ++ cs k, s.start ++ [(k, s.coords.length)], s.index ++ [(k, s.nodes.length)], s.nodes ++ [s.next], s.next + 1⟩ := by simp [nodeStep]
    rw [e]
    refine ⟨?_, ?_, ?_, ?_, ?_, ?_, ?_⟩
    · simp [List.range_succ, List.filter_append, hk, h.coords]
    · simp [List.range_succ, List.filter_append, hk, h.nodes, h.next]
    · simp [h.next]; omega
    · intro n hn hh
      by_cases hnk : n = k
      · subst hnk
        rw [mapAt_append_new _ _ _ h.startKeys, h.coords]
      · rw [mapAt_append_ne _ _ _ _ hnk]
        exact h.start n (by omega) hh
    · intro n hn hh
      by_cases hnk : n = k
      · subst hnk
        rw [mapAt_append_new _ _ _ h.indexKeys, h.nodes]
        simp [rankOf]
      · rw [mapAt_append_ne _ _ _ _ hnk]
        exact h.index n (by omega) hh
    · intro q hq
      rcases List.mem_append.1 hq with hq | hq
      · have := h.startKeys q hq; omega
      · simp at hq; subst hq; simp
    · intro q hq
      rcases List.mem_append.1 hq with hq | hq
      · have := h.indexKeys q hq; omega
      · simp at hq; subst hq; simp

theorem readNodes_toks (rank dim off : Nat) (ps : Nat → List Nat) (cs : Nat → List (List R))
    (hcs : ∀ n, ∀ x ∈ cs n, x.length = dim) (rest : List (Tok R)) : ∀ (n k : Nat) (s : NodeState R) (t : List (Tok R)),
    NodeInv off (fun i => decide (rank ∈ ps i)) cs k s →
    Same t (((List.range' k n).map fun i => nodeToks (ps i) (cs i)).flatten ++ rest) →
    ∃ s' t', readNodes rank dim n k s t = some (s', t') ∧ NodeInv off (fun i => decide (rank ∈ ps i)) cs (k + n) s' ∧ Same t' rest
  | 0, k, s, t, hs, ht => ⟨s, t, rfl, hs, by simpa using ht⟩
  | n + 1, k, s, t, hs, ht => by
    rw [List.range'_succ, List.map_cons, List.flatten_cons, List.append_assoc] at ht
    obtain ⟨t1, h1, h2⟩ := readNode_toks rank dim k s (ps k) (cs k) (hcs k) t _ ht
    obtain ⟨s', t', h3, h4, h5⟩ := readNodes_toks rank dim off ps cs hcs rest n (k + 1) _ t1 (nodeInv_step off _ cs k s hs) h2
    refine ⟨s', t', ?_, by rw [show k + (n + 1) = k + 1 + n by omega]; exact h4, h5⟩
    simp only [readNodes, h1, Option.bind_eq_bind, Option.bind_some]
    exact h3

theorem NodeInv.zero (off : Nat) (here : Nat → Bool) (cs : Nat → List (List R)) : NodeInv off here cs 0 (⟨[], [], [], [], off⟩ : NodeState R) :=
  ⟨by simp, by simp, by simp, by simp, by simp, by simp, by simp⟩

/-- Looking up a node. -/
theorem NodeInv.node {off : Nat} {here : Nat → Bool} {cs : Nat → List (List R)} {k : Nat} {s : NodeState R}
    (h : NodeInv off here cs k s) (n : Nat) (hn : n < k) (hh : here n = true) : s.nodes[mapAt s.index n]? = some (n + off) := by
  rw [h.nodes, h.index n hn hh, List.getElem?_map, filter_range_get here hn hh]
  rfl

/-- Looking up a coordinate. -/
theorem NodeInv.coord {off : Nat} {here : Nat → Bool} {cs : Nat → List (List R)} {k : Nat} {s : NodeState R}
    (h : NodeInv off here cs k s) (n : Nat) (hn : n < k) (hh : here n = true) (o : Nat) (ho : o < (cs n).length) :
    s.coords[mapAt s.start n + o]? = (cs n)[o]? := by
  rw [h.coords, h.start n hn hh]
  obtain ⟨d, rfl⟩ : ∃ d, k = n + 1 + d := ⟨k - (n + 1), by omega⟩
  rw [List.range_add, List.range_succ, List.filter_append, List.filter_append, List.flatMap_append, List.flatMap_append]
  rw [List.append_assoc, List.getElem?_append_right (by omega), Nat.add_sub_cancel_left]
  simp only [List.filter_cons, hh, if_true, List.filter_nil, List.flatMap_cons, List.flatMap_nil, List.append_nil]
  rw [List.getElem?_append_left ho]

/-- Different nodes have different coordinates. -/
theorem NodeInv.coord_inj {off : Nat} {here : Nat → Bool} {cs : Nat → List (List R)} {k : Nat} {s : NodeState R}
    (h : NodeInv off here cs k s) (n n' : Nat) (hn : n < k) (hn' : n' < k) (hh : here n = true) (hh' : here n' = true) (o o' : Nat)
    (ho : o < (cs n).length) (ho' : o' < (cs n').length) (e : mapAt s.start n + o = mapAt s.start n' + o') : n = n' ∧ o = o' := by
  have key : ∀ a b : Nat, a < b → here a = true →
      (((List.range a).filter here).flatMap cs).length + (cs a).length ≤ (((List.range b).filter here).flatMap cs).length := by
    intro a b hab ha
    obtain ⟨d, rfl⟩ : ∃ d, b = a + 1 + d := ⟨b - (a + 1), by omega⟩
    rw [List.range_add, List.range_succ, List.filter_append, List.filter_append, List.flatMap_append, List.flatMap_append]
    simp only [List.filter_cons, ha, if_true, List.filter_nil, List.flatMap_cons, List.flatMap_nil, List.append_nil, List.length_append]
    omega
  rw [h.start n hn hh, h.start n' hn' hh'] at e
  rcases Nat.lt_trichotomy n n' with hlt | heq | hlt
  · have := key n n' hlt hh; omega
  · subst heq; exact ⟨rfl, by omega⟩
  · have := key n' n hlt hh'; omega

end Verif.MeshFile
