import Verif.ElementData.LemmasBasis

set_option linter.all false
namespace Verif.ElementData
variable {α : Type}

theorem BRep.number {sets : List BSet} {n : Nat} {b : EBF} {h : List BasisOp} (r : BRep sets n b h)
    (u : Nat) (hu : u < n) : b.number sets u =
      some (before sets h u (b.positions.getD u []).length) := by
  obtain ⟨h1, h2⟩ := r.get u hu
  unfold EBF.number
  rw [h1]
  dsimp only
  rw [sizes_eq sets _ h2, r.pre u hu]

theorem BRep.number_of {sets : List BSet} {n : Nat} {b : EBF} {h : List BasisOp}
    (r : BRep sets n b h) (u : Nat) (hu : u < n) (p : Nat)
    (hp : ∀ q, p ≤ q → registered h u q = none) : b.number sets u = some (before sets h u p) := by
  rw [r.number u hu, ← r.pre u hu, ← r.pre u hu]
  rcases Nat.le_total p (b.positions.getD u []).length with hl | hl
  · rw [pre_eq_of_none sets _ p _ hl fun q hq => by rw [r.reg u hu q, hp q hq]]
  · rw [← pre_eq_of_none sets _ _ p hl fun q hq => reg_none_of_length _ _ hq]

theorem BRep.localNumber {sets : List BSet} {n : Nat} {b : EBF} {h : List BasisOp}
    (r : BRep sets n b h) (u : Nat) (hu : u < n) :
    b.localNumber sets u = some (sizeAt sets (registered h u 0)) := by
  obtain ⟨h1, h2⟩ := r.get u hu
  have hr := r.reg u hu 0
  unfold EBF.localNumber
  rw [h1]
  cases hl : b.positions.getD u [] with
  | nil => rw [hl] at hr; simp only [ElementData.reg, List.getElem?_nil] at hr; rw [← hr]; rfl
  | cons a l =>
    rw [hl] at hr h2
    rw [reg_cons_zero] at hr
    cases a with
    | none => rw [← hr]; rfl
    | some p =>
      have hp := h2 p (by simp)
      have hs : sets[p]? = some sets[p] := List.getElem?_eq_getElem hp
      dsimp only
      rw [hs, ← hr, sizeAt_some sets p _ hs]

theorem BRep.totalLocalFrom {sets : List BSet} {n : Nat} {b : EBF} {h : List BasisOp}
    (r : BRep sets n b h) : ∀ k i, i + k ≤ n → EBF.totalLocalFrom sets b k i =
      some (((List.range' i k).map fun u => sizeAt sets (registered h u 0)).sum) := by
  intro k
  induction k with
  | zero => intro i _; rfl
  | succ k ih =>
    intro i hi
    rw [EBF.totalLocalFrom, r.localNumber i (by omega), ih (i + 1) (by omega), List.range'_succ]
    rfl

theorem BRep.totalLocal {sets : List BSet} {n : Nat} {b : EBF} {h : List BasisOp}
    (r : BRep sets n b h) : b.totalLocal sets =
      some (((List.range n).map fun u => sizeAt sets (registered h u 0)).sum) := by
  unfold EBF.totalLocal
  rw [r.length, r.totalLocalFrom n 0 (by omega), List.range_eq_range']

theorem before_one (sets : List BSet) (h : List BasisOp) (u : Nat) :
    before sets h u 1 = sizeAt sets (registered h u 0) := by simp [before]

theorem before_mono (sets : List BSet) (h : List BasisOp) (u : Nat) {q r : Nat} (hq : q ≤ r) :
    before sets h u q ≤ before sets h u r :=
  Finset.sum_le_sum_of_subset (by intro x; simp; omega)

theorem sum_eq_range (l : List Nat) : l.sum = ((List.range l.length).map fun u => l.getD u 0).sum := by
  induction l with
  | nil => rfl
  | cons a l ih =>
    rw [List.length_cons, List.range_succ_eq_map, List.sum_cons, ih]
    simp [List.map_map, Function.comp_def]

theorem sum_map_le (l : List Nat) (f g : Nat → Nat) (h : ∀ x ∈ l, f x ≤ g x) :
    (l.map f).sum ≤ (l.map g).sum := by
  induction l with
  | nil => simp
  | cons a l ih =>
    simp only [List.map_cons, List.sum_cons]
    have := h a (by simp)
    have := ih fun x hx => h x (List.mem_cons_of_mem _ hx)
    omega

theorem sum_map_lt (l : List Nat) (f g : Nat → Nat) (h : ∀ x ∈ l, f x ≤ g x)
    (h' : ∃ x ∈ l, f x < g x) : (l.map f).sum < (l.map g).sum := by
  induction l with
  | nil => obtain ⟨x, hx, _⟩ := h'; simp at hx
  | cons a l ih =>
    simp only [List.map_cons, List.sum_cons]
    have h1 := h a (by simp)
    have h2 := sum_map_le l f g fun x hx => h x (List.mem_cons_of_mem _ hx)
    obtain ⟨x, hx, hl⟩ := h'
    rcases List.mem_cons.1 hx with rfl | hx
    · omega
    · have := ih (fun x hx => h x (List.mem_cons_of_mem _ hx)) ⟨x, hx, hl⟩
      omega

variable [Zero α]

/-- An element with the registered sets. -/
structure ERep (sets : List BSet) (n f e k : Nat) (el : Elem α) (h : List BasisOp) : Prop where
  basis : BRep sets n el.basis h
  length : el.data.counts.length = n
  counts : ∀ u < n, el.basis.number sets u = some (el.data.counts.getD u 0)
  faces : el.faces = f
  edges : el.edges = e
  nodes : el.nodes = k

theorem ERep.init (sets : List BSet) (t n f e k : Nat) :
    ERep (α := α) sets n f e k (Elem.init t n f e k) [] where
  basis := BRep.init sets n
  length := by simp [Elem.init, Data.init]
  counts := by
    intro u hu
    show (EBF.init n).number sets u = _
    rw [(BRep.init sets n).number_of u hu 0 fun q _ => rfl]
    simp [before, Elem.init, Data.init, List.getD, List.getElem?_replicate, hu]
  faces := rfl
  edges := rfl
  nodes := rfl

theorem number_congr (sets : List BSet) (b c : EBF) (u : Nat)
    (h : b.positions[u]? = c.positions[u]?) : b.number sets u = c.number sets u := by
  unfold EBF.number; rw [h]

theorem recount_rep (sets : List BSet) (n f e k : Nat) (el : Elem α) (b : EBF) (h : List BasisOp)
    (u : Nat) (hu : u < n) (hb : BRep sets n b h) (hl : el.data.counts.length = n)
    (hc : ∀ v < n, v ≠ u → b.number sets v = some (el.data.counts.getD v 0))
    (h1 : el.faces = f) (h2 : el.edges = e) (h3 : el.nodes = k) :
    ∃ el', Elem.recount sets { el with basis := b } u = some el' ∧ ERep sets n f e k el' h ∧
      el'.basis = b := by
  have hn := hb.number u hu
  refine ⟨Elem.mk (Data.mk (el.data.counts.set u (before sets h u (b.positions.getD u []).length))
    el.data.levels (el.data.vectors.map fun v => resize v ((el.data.counts.set u
      (before sets h u (b.positions.getD u []).length)).foldl (· + ·) 0))) b el.faces el.edges el.nodes, ?_, ?_, rfl⟩
  · unfold Elem.recount
    simp only [hn, bind, Option.bind, Data.setNumber]
    rw [if_pos (by rw [hl]; exact hu)]
    rfl
  · refine ⟨hb, by simp [hl], ?_, h1, h2, h3⟩
    intro v hv
    dsimp only
    by_cases ev : v = u
    · subst ev
      rw [hn]
      simp [List.getD, List.getElem?_set, hl, hu]
    · rw [hc v hv ev]
      simp [List.getD, List.getElem?_set, Ne.symm ev]

theorem clear_number (sets : List BSet) (b b' : EBF) (u v : Nat) (h : b.clear u = some b')
    (hv : v ≠ u) : b'.number sets v = b.number sets v := by
  unfold EBF.clear at h
  split at h
  · cases h
    apply number_congr
    simp [List.getElem?_set, Ne.symm hv]
  · exact absurd h (by simp)

theorem register_number (sets : List BSet) (b b' : EBF) (u p pos v : Nat)
    (h : b.register sets u p pos = some b') (hv : v ≠ u) : b'.number sets v = b.number sets v := by
  unfold EBF.register at h
  split at h
  · exact absurd h (by simp)
  · split at h
    · cases h
      apply number_congr
      simp [List.getElem?_set, Ne.symm hv]
    · exact absurd h (by simp)

theorem ERep.exec {sets : List BSet} {n f e k : Nat} {el : Elem α} {h : List BasisOp}
    (r : ERep sets n f e k el h) (op : ElemOp) (hv : op.Valid sets n f e k) :
    ∃ el', op.exec sets el = some el' ∧ ERep sets n f e k el' (h ++ op.basis f e) := by
  have one : ∀ u p pos, u < n → pos < sets.length →
      ∃ el', (do
        let b ← el.basis.register sets u p pos
        Elem.recount sets { el with basis := b } u) = some el' ∧
        ERep sets n f e k el' (h ++ [.register u p pos]) := by
    intro u p pos hu hp
    obtain ⟨b, h1, h2⟩ := r.basis.register u p pos hu hp
    obtain ⟨el', h3, h4, _⟩ := recount_rep sets n f e k el b _ u hu h2 r.length
      (fun v hv hne => by rw [register_number sets _ _ u p pos v h1 hne, r.counts v hv])
      r.faces r.edges r.nodes
    exact ⟨el', by rw [h1]; exact h3, h4⟩
  cases op with
  | default pos u =>
    obtain ⟨hp, hu⟩ := hv
    obtain ⟨b, h1, h2⟩ := r.basis.clear u hu
    obtain ⟨b', h3, h4⟩ := h2.register u 0 pos hu hp
    obtain ⟨el', h5, h6, _⟩ := recount_rep sets n f e k el b' _ u hu h4 r.length
      (fun v hv hne => by
        rw [register_number sets _ _ u 0 pos v h3 hne, clear_number sets _ _ u v h1 hne, r.counts v hv])
      r.faces r.edges r.nodes
    refine ⟨el', ?_, by simpa [ElemOp.basis] using h6⟩
    simp only [ElemOp.exec, Elem.setDefault, h1, bind, Option.bind, h3]
    exact h5
  | face pos i u =>
    obtain ⟨hp, hu, hi⟩ := hv
    obtain ⟨el', h1, h2⟩ := one u (1 + i) pos hu hp
    refine ⟨el', ?_, h2⟩
    simp only [ElemOp.exec, Elem.setFace]
    rw [if_pos (by rw [r.faces]; exact hi)]
    exact h1
  | edge pos i u =>
    obtain ⟨hp, hu, hi⟩ := hv
    obtain ⟨el', h1, h2⟩ := one u (1 + f + i) pos hu hp
    rw [← r.faces] at h1
    refine ⟨el', ?_, h2⟩
    simp only [ElemOp.exec, Elem.setEdge]
    rw [if_pos (by rw [r.edges]; exact hi)]
    exact h1
  | vertex pos i u =>
    obtain ⟨hp, hu, hi⟩ := hv
    obtain ⟨el', h1, h2⟩ := one u (1 + f + e + i) pos hu hp
    rw [← r.faces, ← r.edges] at h1
    refine ⟨el', ?_, h2⟩
    simp only [ElemOp.exec, Elem.setVertex]
    rw [if_pos (by rw [r.nodes]; exact hi)]
    exact h1

theorem ERep.run {sets : List BSet} {n f e k : Nat} {el : Elem α} {h : List BasisOp}
    (r : ERep sets n f e k el h) (ops : List ElemOp) (hv : ∀ op ∈ ops, op.Valid sets n f e k) :
    ∃ el', ops.foldlM (ElemOp.exec sets) el = some el' ∧
      ERep sets n f e k el' (h ++ ops.flatMap (ElemOp.basis f e)) := by
  induction ops generalizing el h with
  | nil => exact ⟨el, rfl, by simpa using r⟩
  | cons op ops ih =>
    obtain ⟨el1, h1, h2⟩ := r.exec op (hv op (by simp))
    obtain ⟨el2, h3, h4⟩ := ih h2 fun op hop => hv op (List.mem_cons_of_mem _ hop)
    refine ⟨el2, ?_, by simpa [List.append_assoc] using h4⟩
    rw [List.foldlM_cons, h1]
    exact h3

theorem ERep.total {sets : List BSet} {n f e k : Nat} {el : Elem α} {h : List BasisOp}
    (r : ERep sets n f e k el h) (p : Nat) (hp : ∀ u < n, ∀ q, p ≤ q → registered h u q = none) :
    el.data.total = ((List.range n).map fun u => before sets h u p).sum := by
  rw [total_eq, sum_eq_range, r.length]
  congr 1
  apply List.map_congr_left
  intro u hu
  rw [List.mem_range] at hu
  have := r.counts u hu
  rw [r.basis.number_of u hu p (hp u hu)] at this
  exact (Option.some.inj this).symm

/-- A bound on the places. -/
theorem exists_bound {sets : List BSet} {n : Nat} {b : EBF} {h : List BasisOp} (r : BRep sets n b h) :
    ∃ p, 1 ≤ p ∧ ∀ u < n, ∀ q, p ≤ q → registered h u q = none := by
  refine ⟨(b.positions.map List.length).sum + 1, by omega, fun u hu q hq => ?_⟩
  rw [← r.reg u hu q]
  apply reg_none_of_length
  have hm := List.mem_of_getElem? (r.get u hu).1
  have := List.single_le_sum (l := b.positions.map List.length) (by simp) _
    (List.mem_map_of_mem (f := List.length) hm)
  omega

/-- The calls on an element make the registrations. -/
theorem run_basis (sets : List BSet) (faces edges : Nat) : ∀ (ops : List ElemOp) (e0 e1 : Elem α), e0.faces = faces → e0.edges = edges →
    ops.foldlM (ElemOp.exec sets) e0 = some e1 →
    (ops.flatMap (ElemOp.basis faces edges)).foldlM (BasisOp.exec sets) e0.basis = some e1.basis := by
  intro ops
  induction ops with
  | nil => intro e0 e1 _ _ h; cases h; rfl
  | cons op ops ih =>
    intro e0 e1 hf he h
    rw [List.foldlM_cons] at h
    cases hx : op.exec sets e0 with
    | none => rw [hx] at h; simp [bind, Option.bind] at h
    | some e2 =>
      rw [hx] at h
      have h : ops.foldlM (ElemOp.exec sets) e2 = some e1 := h
      have re : ∀ (b : EBF) u e3, Elem.recount sets { e0 with basis := b } u = some e3 →
          e3.basis = b ∧ e3.faces = faces ∧ e3.edges = edges := by
        intro b u e3 hr
        unfold Elem.recount at hr
        simp only [bind, Option.bind] at hr
        split at hr
        · exact absurd hr (by simp)
        · dsimp only at hr
          split at hr
          · exact absurd hr (by simp)
          · cases hr; exact ⟨rfl, hf, he⟩
      have one : ∀ u p pos, (do
          let b ← e0.basis.register sets u p pos
          Elem.recount sets { e0 with basis := b } u) = some e2 →
          e0.basis.register sets u p pos = some e2.basis ∧ e2.faces = faces ∧ e2.edges = edges := by
        intro u p pos hr
        simp only [bind, Option.bind] at hr
        split at hr
        · exact absurd hr (by simp)
        · rename_i b hb
          obtain ⟨h1, h2, h3⟩ := re b u e2 hr
          rw [h1]; exact ⟨hb, h2, h3⟩
      rw [List.flatMap_cons, List.foldlM_append]
      cases op with
      | default pos u =>
        simp only [ElemOp.exec, Elem.setDefault, bind, Option.bind] at hx
        split at hx
        · exact absurd hx (by simp)
        rename_i b1 hb1
        dsimp only at hx
        split at hx
        · exact absurd hx (by simp)
        rename_i b2 hb2
        obtain ⟨h1, h2, h3⟩ := re b2 u e2 hx
        simp only [ElemOp.basis, List.foldlM_cons, List.foldlM_nil, BasisOp.exec, bind, Option.bind, hb1, hb2, pure]
        rw [← h1]
        exact ih e2 e1 h2 h3 h
      | face pos i u =>
        simp only [ElemOp.exec, Elem.setFace] at hx
        split at hx
        · obtain ⟨h1, h2, h3⟩ := one _ _ _ hx
          simp only [ElemOp.basis, List.foldlM_cons, List.foldlM_nil, BasisOp.exec, bind, Option.bind, h1, pure]
          exact ih e2 e1 h2 h3 h
        · exact absurd hx (by simp)
      | edge pos i u =>
        simp only [ElemOp.exec, Elem.setEdge] at hx
        split at hx
        · obtain ⟨h1, h2, h3⟩ := one _ _ _ hx
          rw [hf] at h1
          simp only [ElemOp.basis, List.foldlM_cons, List.foldlM_nil, BasisOp.exec, bind, Option.bind, h1, pure]
          exact ih e2 e1 h2 h3 h
        · exact absurd hx (by simp)
      | vertex pos i u =>
        simp only [ElemOp.exec, Elem.setVertex] at hx
        split at hx
        · obtain ⟨h1, h2, h3⟩ := one _ _ _ hx
          rw [hf, he] at h1
          simp only [ElemOp.basis, List.foldlM_cons, List.foldlM_nil, BasisOp.exec, bind, Option.bind, h1, pure]
          exact ih e2 e1 h2 h3 h
        · exact absurd hx (by simp)

end Verif.ElementData
