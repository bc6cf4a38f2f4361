import Verif.LocalIndexing.Lemmas

/-! # Properties of the local indices (C15, C16) -/
namespace Verif.LocalIndexing

/-- C15. After any sequence of calls the (included unknown, basis function) pairs are numbered
bijectively by `[0, getNumberOfDoFs())`. -/
theorem element_bijection (h : List Op) (hv : Valid h) :
    Set.BijOn (fun p : Nat × Nat => (run h).getDoFOffset p.1 + p.2)
      {p | p.1 ∈ (asked h).1 ∧ p.2 < dofs (asked h).2 p.1} (Set.Iio (run h).total) :=
  (inv_run h hv).bijOn

/-- C15. The observable values depend on the last unknowns and element only: unknowns are numbered
in increasing order, those that are not included have offset `UNKNOWN_NOT_INCLUDED` and size 0. -/
theorem element_values (h : List Op) (hv : Valid h) (u : Nat) :
    (run h).getNumberOfDoFs u = (if u ∈ (asked h).1 then dofs (asked h).2 u else 0) ∧
    (run h).total = ((asked h).1.map (dofs (asked h).2)).sum ∧
    (∀ e, (asked h).2 = some e → u ∈ (asked h).1 →
      (run h).getDoFOffset u = (((asked h).1.filter (· < u)).map e).sum) ∧
    (u ∉ (asked h).1 ∨ (asked h).2 = none → (run h).getDoFOffset u = UNKNOWN_NOT_INCLUDED) := by
  have hi := inv_run h hv
  refine ⟨hi.getSize u, hi.total_eq, fun e he hu => ?_, fun hn => ?_⟩
  · rw [he] at hi; exact hi.offset_eq hu
  · rw [hi.getOffset, if_neg]
    rintro ⟨h1, h2⟩
    rcases hn with hn | hn
    · exact hn (hi.perm.mem_iff.1 h2)
    · rw [hn] at h1; simp at h1

/-- C15. The list of included unknowns is sorted and consists of the unknowns given last; both
tables have the same length (`validateInternalState` never fails). -/
theorem element_valid (h : List Op) (hv : Valid h) :
    (run h).included.Perm (asked h).1 ∧ (run h).included.Pairwise (· < ·) ∧
      (run h).offsets.length = (run h).sizes.length :=
  ⟨(inv_run h hv).perm, (inv_run h hv).sorted, (inv_run h hv).len⟩

/-- C15. `createFullIndexing(n)` includes the unknowns below `n`. -/
theorem createFullIndexing_included (n : Nat) :
    (ELI.createFullIndexing n).included = List.range n := by
  have := element_valid [.unknowns (List.range n)]
    (by intro l hl; simp at hl; subst hl; exact List.nodup_range)
  refine this.1.eq_of_pairwise (fun a b _ _ h1 h2 => by omega) (this.2.1) ?_
  exact List.pairwise_lt_range

/-- Instance: unknowns {3, 1}, after a history with other unknowns and another element. -/
example :
    let h : List Op := [.unknowns [0, 5], .element (some fun _ => 7), .element none,
      .unknowns [3, 1], .element (some fun u => u + 1), .unknowns [1, 3]]
    Valid h ∧ (run h).getDoFOffset 3 = 2 ∧ (run h).getDoFOffset 5 = UNKNOWN_NOT_INCLUDED ∧
      (run h).total = 6 := by
  refine ⟨?_, ?_, ?_, ?_⟩
  · intro l hl; simp at hl; rcases hl with rfl | rfl | rfl <;> decide
  all_goals
    have hv : Valid [.unknowns [0, 5], .element (some fun _ => 7), .element none,
        .unknowns [3, 1], .element (some fun u => u + 1), .unknowns [1, 3]] := by
      intro l hl; simp at hl; rcases hl with rfl | rfl | rfl <;> decide
  · exact (element_values _ hv 3).2.2.1 (fun u => u + 1) rfl (by simp [asked])
  · exact (element_values _ hv 5).2.2.2 (Or.inl (by simp [asked]))
  · exact (element_values _ hv 0).2.1

/-- C16. After any sequence of calls with non-null faces, (side, included unknown, basis function) is
numbered bijectively by `[0, getNumberOfDoFs())`, provided that number fits in a `size_t`. On a
boundary face there is no right part, since the absent element has no degrees of freedom. -/
theorem face_bijection (h : List FOp) (hv : ValidFace h) :
    ∃ s, runFace h = some s ∧ (s.total < 2 ^ 64 →
      Set.BijOn (fun p : Side × Nat × Nat => s.getDoFOffset p.2.1 p.1 + p.2.2)
        {p | p.2.1 ∈ (askedFace h).1 ∧ p.2.2 < dofs (sideElement (askedFace h).2 p.1) p.2.1}
        (Set.Iio s.total)) := by
  obtain ⟨s, hs, hl, hr⟩ := invFace_run h hv
  refine ⟨s, hs, fun hlt => ?_⟩
  obtain ⟨l1, l2, l3⟩ := hl.bijOn
  obtain ⟨r1, r2, r3⟩ := hr.bijOn
  have ht : s.total = s.left.total + s.right.total := rfl
  have hoff : ∀ u k, u ∈ (askedFace h).1 → k < dofs (sideElement (askedFace h).2 .right) u →
      s.getDoFOffset u .right + k = s.left.total + (s.right.getDoFOffset u + k) ∧
        s.right.getDoFOffset u + k < s.right.total := by
    intro u k hu hk
    have := r1 (x := (u, k)) ⟨hu, hk⟩
    simp only [Set.mem_Iio] at this
    refine ⟨?_, this⟩
    simp only [FLI.getDoFOffset]
    rw [Nat.mod_eq_of_lt (by omega)]
    omega
  refine ⟨?_, ?_, ?_⟩
  · rintro ⟨sd, u, k⟩ ⟨hu, hk⟩
    cases sd with
    | left =>
      have := l1 (x := (u, k)) ⟨hu, hk⟩
      simp only [Set.mem_Iio] at this
      simp only [FLI.getDoFOffset, Set.mem_Iio]; omega
    | right =>
      obtain ⟨a, b⟩ := hoff u k hu hk
      simp only [Set.mem_Iio]; omega
  · rintro ⟨sd, u, k⟩ ⟨hu, hk⟩ ⟨sd', u', k'⟩ ⟨hu', hk'⟩ he
    dsimp only at hu hk hu' hk' he
    cases sd <;> cases sd'
    · have := l2 (x₁ := (u, k)) ⟨hu, hk⟩ (x₂ := (u', k')) ⟨hu', hk'⟩ he
      rw [Prod.mk.injEq] at this ⊢
      exact ⟨rfl, Prod.ext this.1 this.2⟩
    · have h1 := l1 (x := (u, k)) ⟨hu, hk⟩
      obtain ⟨a, b⟩ := hoff u' k' hu' hk'
      simp only [Set.mem_Iio, FLI.getDoFOffset] at h1 he a
      omega
    · have h1 := l1 (x := (u', k')) ⟨hu', hk'⟩
      obtain ⟨a, b⟩ := hoff u k hu hk
      simp only [Set.mem_Iio, FLI.getDoFOffset] at h1 he a
      omega
    · obtain ⟨a, b⟩ := hoff u k hu hk
      obtain ⟨a', b'⟩ := hoff u' k' hu' hk'
      have := r2 (x₁ := (u, k)) ⟨hu, hk⟩ (x₂ := (u', k')) ⟨hu', hk'⟩ (by dsimp only; omega)
      rw [Prod.mk.injEq] at this ⊢
      exact ⟨rfl, Prod.ext this.1 this.2⟩
  · intro x hx
    simp only [Set.mem_Iio] at hx
    by_cases hxl : x < s.left.total
    · obtain ⟨⟨u, k⟩, ⟨hu, hk⟩, he⟩ := l3 (show x ∈ Set.Iio s.left.total from hxl)
      exact ⟨(.left, u, k), ⟨hu, hk⟩, he⟩
    · obtain ⟨⟨u, k⟩, ⟨hu, hk⟩, he⟩ := r3 (show x - s.left.total ∈ Set.Iio s.right.total by
        simp only [Set.mem_Iio]; omega)
      dsimp only at hu hk he
      refine ⟨(.right, u, k), ⟨hu, hk⟩, ?_⟩
      have := (hoff u k hu hk).1
      dsimp only
      omega

/-- C16. The left degrees of freedom come first: they are numbered as by the left element alone, and
every right number is at least the number of left degrees of freedom. -/
theorem face_left_first (h : List FOp) (hv : ValidFace h) :
    ∃ s, runFace h = some s ∧ (s.total < 2 ^ 64 →
      (∀ u k, u ∈ (askedFace h).1 → k < dofs (sideElement (askedFace h).2 .left) u →
        s.getDoFOffset u .left + k < s.sideTotal .left) ∧
      (∀ u k, u ∈ (askedFace h).1 → k < dofs (sideElement (askedFace h).2 .right) u →
        s.sideTotal .left ≤ s.getDoFOffset u .right + k)) := by
  obtain ⟨s, hs, hl, hr⟩ := invFace_run h hv
  refine ⟨s, hs, fun hlt => ⟨fun u k hu hk => ?_, fun u k hu hk => ?_⟩⟩
  · have := hl.bijOn.1 (x := (u, k)) ⟨hu, hk⟩
    simpa [FLI.getDoFOffset, FLI.sideTotal] using this
  · have := hr.bijOn.1 (x := (u, k)) ⟨hu, hk⟩
    simp only [Set.mem_Iio] at this
    have ht : s.total = s.left.total + s.right.total := rfl
    simp only [FLI.getDoFOffset, FLI.sideTotal]
    rw [Nat.mod_eq_of_lt (by omega)]
    omega

/-- C16. `getDoFMapping` lists the numbers of an included unknown: first the left ones, then the
right ones, each in the order of the basis functions. -/
theorem face_mapping (h : List FOp) (hv : ValidFace h) (u : Nat) (hu : u ∈ (askedFace h).1) :
    ∃ s, runFace h = some s ∧
      s.getDoFMapping u =
        (List.range (dofs (sideElement (askedFace h).2 .left) u)).map
          (s.getDoFOffset u .left + ·) ++
        (List.range (dofs (sideElement (askedFace h).2 .right) u)).map
          (s.getDoFOffset u .right + ·) := by
  obtain ⟨s, hs, hl, hr⟩ := invFace_run h hv
  refine ⟨s, hs, ?_⟩
  have e1 : s.getNumberOfDoFs u .left = dofs (sideElement (askedFace h).2 .left) u := by
    simp only [FLI.getNumberOfDoFs]; rw [hl.getSize, if_pos hu]
  have e2 : s.getNumberOfDoFs u .right = dofs (sideElement (askedFace h).2 .right) u := by
    simp only [FLI.getNumberOfDoFs]; rw [hr.getSize, if_pos hu]
  unfold FLI.getDoFMapping
  simp only [e1, e2, List.range'_eq_map_range]
  split_ifs with hn
  · rw [hr.elem] at hn
    have : sideElement (askedFace h).2 .right = none := by simpa using hn
    rw [this]
    simp [dofs]
  · rfl

/-- C16, partial: a non-included unknown has offset `UNKNOWN_NOT_INCLUDED` on the left. Missing: the
right side, see `face_notIncluded_fails`. -/
theorem face_notIncluded_partial (h : List FOp) (hv : ValidFace h) (u : Nat)
    (hu : u ∉ (askedFace h).1) :
    ∃ s, runFace h = some s ∧ s.getDoFOffset u .left = UNKNOWN_NOT_INCLUDED ∧
      s.getDoFMapping u = [] := by
  obtain ⟨s, hs, hl, hr⟩ := invFace_run h hv
  refine ⟨s, hs, ?_, ?_⟩
  · simp only [FLI.getDoFOffset]
    rw [hl.getOffset, if_neg]
    rintro ⟨_, h2⟩
    exact hu (hl.perm.mem_iff.1 h2)
  · have e1 : s.left.getNumberOfDoFs u = 0 := by rw [hl.getSize, if_neg hu]
    have e2 : s.right.getNumberOfDoFs u = 0 := by rw [hr.getSize, if_neg hu]
    simp [FLI.getDoFMapping, FLI.getNumberOfDoFs, e1, e2]

/-- The documentation promises `UNKNOWN_NOT_INCLUDED` for a non-included unknown on either side. On
the right the code returns the number of the last left degree of freedom instead, for every history
in which the left element has degrees of freedom. -/
theorem face_notIncluded_fails (h : List FOp) (hv : ValidFace h) (u : Nat)
    (hu : u ∉ (askedFace h).1) :
    ∃ s, runFace h = some s ∧ (0 < s.sideTotal .left → s.total < 2 ^ 64 →
      s.getDoFOffset u .right = s.sideTotal .left - 1 ∧
      s.getDoFOffset u .right ≠ UNKNOWN_NOT_INCLUDED) := by
  obtain ⟨s, hs, hl, hr⟩ := invFace_run h hv
  refine ⟨s, hs, fun hpos hlt => ?_⟩
  have e : s.right.getDoFOffset u = UNKNOWN_NOT_INCLUDED := by
    rw [hr.getOffset, if_neg]
    rintro ⟨_, h2⟩
    exact hu (hr.perm.mem_iff.1 h2)
  have ht : s.total = s.left.total + s.right.total := rfl
  simp only [FLI.sideTotal] at hpos ⊢
  simp only [FLI.getDoFOffset, e, UNKNOWN_NOT_INCLUDED]
  omega

/-- The documentation of `reinit(face)` allows a null pointer; the code dereferences it. -/
theorem face_null_fails (s : FLI) : s.reinitFace none = none := rfl

/-- Instance: an internal face with different elements after a boundary face. -/
example :
    let h : List FOp := [.unknowns [2, 0], .face (some ⟨fun _ => 9, none⟩),
      .face (some ⟨fun u => u + 1, some fun u => 2 * u + 2⟩)]
    ValidFace h ∧ (runFace h).map (fun s => (s.getDoFMapping 2, s.total)) =
      some ([1, 2, 3, 6, 7, 8, 9, 10, 11], 12) := by
  refine ⟨⟨?_, by simp⟩, ?_⟩
  · intro l hl; simp at hl; subst hl; decide
  · have : ([2, 0] : List Nat).mergeSort (fun a b => decide (a ≤ b)) = [0, 2] := by
      simp [List.mergeSort, List.MergeSort.Internal.splitInTwo]
    simp [runFace, FLI.reinitUnknowns, FLI.reinitFace, ELI.reinitUnknowns, this, FLI.init, ELI.init,
      ELI.reinitElement, ELI.loop, ELI.clear, ELI.extend, FLI.getDoFMapping, FLI.total, ELI.total,
      FLI.getDoFOffset, ELI.getDoFOffset, FLI.getNumberOfDoFs, ELI.getNumberOfDoFs, List.range',
      List.replicate]

end Verif.LocalIndexing
