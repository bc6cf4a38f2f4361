import Verif.Bloch.Spec
import Mathlib.Tactic.Ring
import Mathlib.Tactic.Linarith

set_option linter.all false

namespace Verif.Bloch

open Verif.DenseMatrix (Mat)
open Spec

variable {d : ℕ}

theorem copyInto_spec (off : ℕ) (src : List ℂ) (n : ℕ) (s : List ℂ) (h : n + off ≤ s.length) :
    (copyInto off src n s).length = s.length ∧
    ∀ p, (copyInto off src n s).getD p 0 =
      if off ≤ p ∧ p < n + off then src.getD (p - off) 0 else s.getD p 0 := by
  induction n with
  | zero =>
    refine ⟨by simp [copyInto], fun p => ?_⟩
    rw [if_neg (by omega)]; simp [copyInto]
  | succ n ih =>
    obtain ⟨h1, h2⟩ := ih (by omega)
    have e : copyInto off src (n + 1) s = (copyInto off src n s).set (n + off) (src.getD n 0) := by
      simp [copyInto, List.range_succ]
    rw [e]
    refine ⟨by simp [h1], fun p => ?_⟩
    by_cases hp : p = n + off
    · subst hp
      rw [if_pos (by omega)]
      rw [List.getD_eq_getElem?_getD, List.getElem?_set_self (by omega)]
      simp
    · rw [List.getD_eq_getElem?_getD, List.getElem?_set_ne (by omega),
        ← List.getD_eq_getElem?_getD, h2]
      by_cases hq : off ≤ p ∧ p < n + off
      · rw [if_pos hq, if_pos (by omega)]
      · rw [if_neg hq, if_neg (by omega)]

theorem scaleRange_spec (off : ℕ) (c : ℂ) (n : ℕ) (s : List ℂ) (h : n + off ≤ s.length) :
    (scaleRange off c n s).length = s.length ∧
    ∀ p, (scaleRange off c n s).getD p 0 =
      if off ≤ p ∧ p < n + off then s.getD p 0 * c else s.getD p 0 := by
  induction n with
  | zero =>
    refine ⟨by simp [scaleRange], fun p => ?_⟩
    rw [if_neg (by omega)]; simp [scaleRange]
  | succ n ih =>
    obtain ⟨h1, h2⟩ := ih (by omega)
    have e : scaleRange off c (n + 1) s = (scaleRange off c n s).set (n + off)
        ((scaleRange off c n s).getD (n + off) 0 * c) := by
      simp [scaleRange, List.range_succ]
    rw [e]
    refine ⟨by simp [h1], fun p => ?_⟩
    by_cases hp : p = n + off
    · subst hp
      rw [if_pos (by omega)]
      rw [List.getD_eq_getElem?_getD, List.getElem?_set_self (by omega)]
      have := h2 (n + off)
      rw [if_neg (by omega)] at this
      simp only [Option.getD_some, this]
    · rw [List.getD_eq_getElem?_getD, List.getElem?_set_ne (by omega),
        ← List.getD_eq_getElem?_getD, h2]
      by_cases hq : off ≤ p ∧ p < n + off
      · rw [if_pos hq, if_pos (by omega)]
      · rw [if_neg hq, if_neg (by omega)]

/-- The storage after loading: what it held before does not matter. -/
theorem load_spec (b : Blocks) (st : List ℂ) :
    (if b.block2.isSome then 2 else 1) * b.size ≤ (b.load st).length ∧
    (∀ p < b.size, (b.load st).getD p 0 = b.block1.data.getD p 0) ∧
    (∀ m, b.block2 = some m → ∀ p < b.size,
      (b.load st).getD (b.size + p) 0 = m.data.getD p 0) := by
  set need := (if b.block2.isSome then 2 else 1) * b.size with hn
  set s0 := (if st.length < need then Mat.vecResize st need else st) with hs0
  have hl : need ≤ s0.length := by
    rw [hs0]
    split
    · simp only [Mat.vecResize, List.length_append, List.length_take, List.length_replicate]; omega
    · omega
  have hsz : b.size ≤ need := by
    rw [hn]; split <;> omega
  obtain ⟨c1, c2⟩ := copyInto_spec 0 b.block1.data b.size s0 (by omega)
  cases hb : b.block2 with
  | none =>
    have e : b.load st = copyInto 0 b.block1.data b.size s0 := by
      unfold Blocks.load; rw [hs0, hn]; simp only [hb]
    rw [e]
    refine ⟨by rw [c1]; exact hl, fun p hp => ?_, fun m hm => by simp at hm⟩
    rw [c2, if_pos (by omega)]; simp
  | some m =>
    have hn2 : need = 2 * b.size := by rw [hn, hb]; simp
    have e : b.load st = copyInto b.size m.data b.size (copyInto 0 b.block1.data b.size s0) := by
      unfold Blocks.load; rw [hs0, hn]; simp only [hb]
    obtain ⟨d1, d2⟩ := copyInto_spec b.size m.data b.size (copyInto 0 b.block1.data b.size s0)
      (by omega)
    rw [e]
    refine ⟨by rw [d1, c1]; exact hl, fun p hp => ?_, fun m' hm p hp => ?_⟩
    · rw [d2, if_neg (by omega), c2, if_pos (by omega)]; simp
    · obtain rfl : m = m' := by simpa using hm
      rw [d2, if_pos (by omega)]
      congr 1; omega

/-- One insertion. -/
noncomputable def insT (m : PMat) (t : ℕ × ℕ × ℂ) : PMat :=
  open Classical in if t.2.2 = 0 then m else m.insert t.1 t.2.1 t.2.2

/-- The insertions of the first block. -/
noncomputable def trip1 (b : Blocks) (c : ℂ) : List (ℕ × ℕ × ℂ) :=
  (List.range b.rows.length).flatMap fun i => (List.range b.cols.length).map fun j =>
    (b.rows.getD i 0, b.cols.getD j 0, b.block1.data.getD (b.rows.length * j + i) 0 * c)

/-- The insertions of the second block. -/
noncomputable def trip2 (b : Blocks) (m : Mat ℂ) (c : ℂ) : List (ℕ × ℕ × ℂ) :=
  (List.range b.rows.length).flatMap fun i => (List.range b.cols.length).map fun j =>
    (b.cols.getD j 0, b.rows.getD i 0, m.data.getD (b.cols.length * i + j) 0 * c)

/-- All insertions of a block. -/
noncomputable def triples (b : ShiftBlock d) (k : Vec d) : List (ℕ × ℕ × ℂ) :=
  trip1 b.blocks (phase (dot k b.dx)) ++
    match b.blocks.block2 with
    | some m => trip2 b.blocks m (phase (-dot k b.dx))
    | none => []

theorem foldl_congr_mem {α β : Type} (f g : β → α → β) (l : List α) (b : β)
    (h : ∀ b, ∀ a ∈ l, f b a = g b a) : l.foldl f b = l.foldl g b := by
  induction l generalizing b with
  | nil => rfl
  | cons a l ih =>
    simp only [List.foldl_cons]
    rw [h b a (by simp)]
    exact ih _ (fun b a' ha => h b a' (by simp [ha]))

theorem idx_lt {i j n m : ℕ} (hi : i < n) (hj : j < m) : n * j + i < n * m := by
  calc n * j + i < n * j + n := by omega
    _ = n * (j + 1) := by ring
    _ ≤ n * m := Nat.mul_le_mul_left _ hj

theorem insertBlock_false (b : Blocks) (st : List ℂ) (c : ℂ) (m : PMat)
    (h : ∀ p < b.size, st.getD p 0 = b.block1.data.getD p 0 * c) :
    b.insertBlock st false m = (trip1 b c).foldl insT m := by
  unfold Blocks.insertBlock trip1
  rw [List.foldl_flatMap]
  refine foldl_congr_mem _ _ _ _ fun m i hi => ?_
  rw [List.foldl_map]
  refine foldl_congr_mem _ _ _ _ fun m j hj => ?_
  have := h (b.rows.length * j + i) (idx_lt (List.mem_range.1 hi) (List.mem_range.1 hj))
  simp only [Bool.false_eq_true, if_false, this, insT]

theorem insertBlock_true (b : Blocks) (st : List ℂ) (c : ℂ) (m : PMat) (B : Mat ℂ)
    (h : ∀ p < b.size, st.getD (b.size + p) 0 = B.data.getD p 0 * c) :
    b.insertBlock st true m = (trip2 b B c).foldl insT m := by
  unfold Blocks.insertBlock trip2
  rw [List.foldl_flatMap]
  refine foldl_congr_mem _ _ _ _ fun m i hi => ?_
  rw [List.foldl_map]
  refine foldl_congr_mem _ _ _ _ fun m j hj => ?_
  have := h (b.cols.length * i + j) (by
    rw [Blocks.size, Nat.mul_comm b.rows.length]
    exact idx_lt (List.mem_range.1 hj) (List.mem_range.1 hi))
  rw [← Nat.add_assoc] at this
  simp only [if_true, this, insT]

theorem apply_eq (b : ShiftBlock d) (k : Vec d) (s : List ℂ × PMat) :
    (b.apply k s).2 = (triples b k).foldl insT s.2 := by
  obtain ⟨l1, l2, l3⟩ := load_spec b.blocks s.1
  have hsz : b.blocks.size ≤ (b.blocks.load s.1).length := by
    refine le_trans ?_ l1; split <;> omega
  obtain ⟨s1, s2⟩ := scaleRange_spec 0 (phase (dot k b.dx)) b.blocks.size (b.blocks.load s.1)
    (by omega)
  cases hb : b.blocks.block2 with
  | none =>
    unfold ShiftBlock.apply Blocks.insertBlocks triples
    simp only [hb, Option.isSome_none, Bool.false_eq_true, if_false, List.append_nil]
    refine insertBlock_false _ _ _ _ fun p hp => ?_
    rw [s2, if_pos (by omega), l2 p hp]
  | some B =>
    have l1' : 2 * b.blocks.size ≤ (b.blocks.load s.1).length := by
      rw [hb] at l1; simpa using l1
    obtain ⟨t1, t2⟩ := scaleRange_spec b.blocks.size (phase (-dot k b.dx)) b.blocks.size
      (scaleRange 0 (phase (dot k b.dx)) b.blocks.size (b.blocks.load s.1)) (by omega)
    unfold ShiftBlock.apply Blocks.insertBlocks triples
    simp only [hb, Option.isSome_some, if_true, List.foldl_append]
    rw [insertBlock_false b.blocks _ (phase (dot k b.dx)) s.2 ?_,
      insertBlock_true b.blocks _ (phase (-dot k b.dx)) _ B ?_]
    · intro p hp
      rw [t2, if_pos (by omega), s2, if_neg (by omega), l3 B hb p hp]
    · intro p hp
      rw [t2, if_neg (by omega), s2, if_pos (by omega), l2 p hp]

theorem applyShifts_aux (bs : List (ShiftBlock d)) (k : Vec d) (s : List ℂ × PMat) :
    (bs.foldl (fun s b => b.apply k s) s).2 = (bs.flatMap fun b => triples b k).foldl insT s.2 := by
  induction bs generalizing s with
  | nil => rfl
  | cons b bs ih =>
    simp only [List.foldl_cons, List.flatMap_cons, List.foldl_append]
    rw [ih, apply_eq]

theorem applyShifts_eq (bs : List (ShiftBlock d)) (k : Vec d) (m : PMat) :
    applyShifts bs k m = (bs.flatMap fun b => triples b k).foldl insT m :=
  applyShifts_aux bs k ([], m)

/-- What a list of insertions leaves at a position. -/
theorem foldl_insT_none (T : List (ℕ × ℕ × ℂ)) (m : PMat) (r c : ℕ)
    (h : ∀ t ∈ T, ¬ (t.1 = r ∧ t.2.1 = c)) : T.foldl insT m r c = m r c := by
  induction T generalizing m with
  | nil => rfl
  | cons t T ih =>
    rw [List.foldl_cons, ih _ (fun t' h' => h t' (by simp [h']))]
    have := h t (by simp)
    unfold insT
    split
    · rfl
    · unfold PMat.insert; rw [if_neg (fun hh => this ⟨hh.1.symm, hh.2.symm⟩)]

theorem foldl_insT_some (T : List (ℕ × ℕ × ℂ)) (m : PMat) (r c : ℕ) (v : ℂ)
    (hv : v = 0 → m r c = 0)
    (h : ∀ t ∈ T, t.1 = r → t.2.1 = c → t.2.2 = v)
    (hm : m r c = v ∨ ∃ t ∈ T, t.1 = r ∧ t.2.1 = c) : T.foldl insT m r c = v := by
  induction T generalizing m with
  | nil => simpa using hm
  | cons t T ih =>
    rw [List.foldl_cons]
    have h' : ∀ t ∈ T, t.1 = r → t.2.1 = c → t.2.2 = v := fun t' ht => h t' (by simp [ht])
    by_cases ht : t.1 = r ∧ t.2.1 = c
    · have hx := h t (by simp) ht.1 ht.2
      have key : insT m t r c = v := by
        unfold insT
        by_cases h0 : t.2.2 = 0
        · rw [if_pos h0, hv (hx ▸ h0), ← hx, h0]
        · rw [if_neg h0]; unfold PMat.insert; rw [if_pos ⟨ht.1.symm, ht.2.symm⟩, hx]
      exact ih _ (fun h0 => by rw [key, h0]) h' (Or.inl key)
    · have key : insT m t r c = m r c := by
        unfold insT
        split
        · rfl
        · unfold PMat.insert; rw [if_neg (fun hh => ht ⟨hh.1.symm, hh.2.symm⟩)]
      refine ih _ (by rw [key]; exact hv) h' ?_
      rw [key]
      rcases hm with hm | ⟨t', ht', hh⟩
      · exact Or.inl hm
      · rcases List.mem_cons.1 ht' with rfl | ht'
        · exact absurd hh ht
        · exact Or.inr ⟨t', ht', hh⟩

/-! ## Phases -/

theorem phase_add (a b : ℝ) : phase (a + b) = phase a * phase b := by
  unfold phase; rw [← Complex.exp_add]; congr 1; push_cast; ring

theorem phase_zero : phase 0 = 1 := by simp [phase]

theorem phase_ne (a : ℝ) : phase a ≠ 0 := Complex.exp_ne_zero _

theorem conj_phase (a : ℝ) : (starRingEnd ℂ) (phase a) = phase (-a) := by
  unfold phase
  rw [← Complex.exp_conj]
  congr 1
  simp

theorem dot_add (k a b : Vec d) : dot k (fun i => a i + b i) = dot k a + dot k b := by
  unfold dot; rw [← Finset.sum_add_distrib]; exact Finset.sum_congr rfl fun i _ => by ring

theorem dot_neg (k a : Vec d) : dot k (fun i => -a i) = -dot k a := by
  unfold dot; rw [← Finset.sum_neg_distrib]; exact Finset.sum_congr rfl fun i _ => by ring

theorem dot_sub_left (a b x : Vec d) : dot (fun i => a i - b i) x = dot a x - dot b x := by
  unfold dot; rw [← Finset.sum_sub_distrib]; exact Finset.sum_congr rfl fun i _ => by ring

theorem dot_zero_right (k : Vec d) : dot k (fun _ => 0) = 0 := by simp [dot]

theorem dot_zero_left (x : Vec d) : dot (fun _ => 0) x = 0 := by simp [dot]

/-! ## The blocks built -/

/-- The insertion that belongs to a coupling, with an extra factor. -/
noncomputable def trip (w : ℕ → ℕ → ℂ) (k : Vec d) (x : Coupling d) : ℕ × ℕ × ℂ :=
  (x.row, x.col, x.value * phase (dot k x.shift) * w x.row x.col)

/-- The two halves of the couplings of a face. -/
def half1 (idx : ℕ → List ℕ) (f : Face d) : List (Coupling d) :=
  (List.range (idx f.left).length).flatMap fun i =>
    (List.range (idx f.right).length).map fun j =>
      ⟨(idx f.left).getD i 0, (idx f.right).getD j 0, f.shift, f.block1.get i j⟩

def half2 (idx : ℕ → List ℕ) (f : Face d) : List (Coupling d) :=
  (List.range (idx f.left).length).flatMap fun i =>
    (List.range (idx f.right).length).map fun j =>
      ⟨(idx f.right).getD j 0, (idx f.left).getD i 0, fun a => -f.shift a, f.block2.get j i⟩

theorem across_eq (idx : ℕ → List ℕ) (f : Face d) : across idx f = half1 idx f ++ half2 idx f := rfl

/-- A face that can be built into blocks. -/
def Good (idx : ℕ → List ℕ) (f : Face d) : Prop :=
  hasSize f.block1 (idx f.left).length (idx f.right).length = true ∧
  hasSize f.block2 (idx f.right).length (idx f.left).length = true

/-- The extra factor agrees with the extra shift. -/
def Extra (idx : ℕ → List ℕ) (k : Vec d) (w : ℕ → ℕ → ℂ) (f : Face d) : Prop :=
  ∀ r ∈ idx f.left, ∀ c ∈ idx f.right,
    w r c = phase (dot k f.extra) ∧ w c r = phase (-dot k f.extra)

theorem mem_getD {l : List ℕ} {i : ℕ} (h : i < l.length) : l.getD i 0 ∈ l := by
  rw [List.getD_eq_getElem?_getD, List.getElem?_eq_getElem h]; exact List.getElem_mem h

theorem dx_phase (k : Vec d) (f : Face d) :
    phase (dot k (fun i => f.shift i + f.extra i)) = phase (dot k f.shift) * phase (dot k f.extra) := by
  rw [dot_add, phase_add]

theorem dx_phase_neg (k : Vec d) (f : Face d) :
    phase (-dot k (fun i => f.shift i + f.extra i)) =
      phase (-dot k f.shift) * phase (-dot k f.extra) := by
  rw [dot_add, neg_add, phase_add]

theorem map_flatMap_congr {α : Type} (n m : ℕ) (f g : ℕ → ℕ → α)
    (h : ∀ i < n, ∀ j < m, f i j = g i j) :
    ((List.range n).flatMap fun i => (List.range m).map fun j => f i j) =
    ((List.range n).flatMap fun i => (List.range m).map fun j => g i j) := by
  rw [List.flatMap_def, List.flatMap_def]
  congr 1
  refine List.map_congr_left fun i hi => List.map_congr_left fun j hj => ?_
  exact h i (List.mem_range.1 hi) j (List.mem_range.1 hj)

theorem map_flatMap' {α β : Type} (n m : ℕ) (f : ℕ → ℕ → α) (g : α → β) :
    ((List.range n).flatMap fun i => (List.range m).map fun j => f i j).map g =
    ((List.range n).flatMap fun i => (List.range m).map fun j => g (f i j)) := by
  rw [List.map_flatMap]; simp [Function.comp_def]

/-- The insertions for the left rows. -/
theorem trip1_left (idx : ℕ → List ℕ) (f : Face d) (b2 : Option (Mat ℂ)) (k : Vec d)
    (w : ℕ → ℕ → ℂ) (hg : Good idx f) (hw : Extra idx k w f) :
    trip1 ⟨idx f.left, idx f.right, f.block1, b2⟩
      (phase (dot k (fun i => f.shift i + f.extra i))) = (half1 idx f).map (trip w k) := by
  unfold trip1 half1
  rw [map_flatMap']
  refine map_flatMap_congr _ _ _ _ fun i hi j hj => ?_
  simp only [hasSize, Bool.and_eq_true, beq_iff_eq, Good] at hg
  unfold trip
  simp only
  rw [(hw _ (mem_getD hi) _ (mem_getD hj)).1, dx_phase]
  unfold Mat.get
  rw [hg.1.1]
  refine Prod.ext rfl (Prod.ext rfl ?_)
  simp only
  rw [show (idx f.left).length * j + i = i + j * (idx f.left).length from by ring]
  ring

theorem trip2_left (idx : ℕ → List ℕ) (f : Face d) (b2 : Option (Mat ℂ)) (k : Vec d)
    (w : ℕ → ℕ → ℂ) (hg : Good idx f) (hw : Extra idx k w f) :
    trip2 ⟨idx f.left, idx f.right, f.block1, b2⟩ f.block2
      (phase (-dot k (fun i => f.shift i + f.extra i))) = (half2 idx f).map (trip w k) := by
  unfold trip2 half2
  rw [map_flatMap']
  refine map_flatMap_congr _ _ _ _ fun i hi j hj => ?_
  simp only [hasSize, Bool.and_eq_true, beq_iff_eq, Good] at hg
  unfold trip
  simp only
  rw [(hw _ (mem_getD hi) _ (mem_getD hj)).2, dx_phase_neg, dot_neg]
  unfold Mat.get
  rw [hg.2.1]
  refine Prod.ext rfl (Prod.ext rfl ?_)
  simp only
  rw [show (idx f.right).length * i + j = j + i * (idx f.right).length from by ring]
  ring

theorem trip1_right (idx : ℕ → List ℕ) (f : Face d) (b2 : Option (Mat ℂ)) (k : Vec d)
    (w : ℕ → ℕ → ℂ) (hg : Good idx f) (hw : Extra idx k w f) :
    ∀ t, t ∈ trip1 ⟨idx f.right, idx f.left, f.block2, b2⟩
      (phase (dot k (fun a => -(f.shift a + f.extra a)))) ↔ t ∈ (half2 idx f).map (trip w k) := by
  intro t
  rw [dot_neg k (fun a => f.shift a + f.extra a)]
  rw [← trip2_left idx f none k w hg hw]
  unfold trip1 trip2
  simp only [List.mem_flatMap, List.mem_map, List.mem_range]
  constructor
  · rintro ⟨i, hi, j, hj, rfl⟩; exact ⟨j, hj, i, hi, rfl⟩
  · rintro ⟨i, hi, j, hj, rfl⟩; exact ⟨j, hj, i, hi, rfl⟩

/-- A face gives a block with the insertions for the rows that are owned. -/
theorem phaseShift_spec (idx : ℕ → List ℕ) (owned : ℕ → Bool) (f : Face d) (hg : Good idx f)
    (ho : owned f.left = true ∨ owned f.right = true) :
    ∃ b, f.phaseShift idx owned = some b ∧ ∀ k w, Extra idx k w f → ∀ t,
      t ∈ triples b k ↔
        (owned f.left = true ∧ t ∈ (half1 idx f).map (trip w k)) ∨
        (owned f.right = true ∧ t ∈ (half2 idx f).map (trip w k)) := by
  have hg' := hg
  obtain ⟨g1, g2⟩ := hg'
  by_cases hl : owned f.left = true
  · refine ⟨⟨⟨idx f.left, idx f.right, f.block1, if !owned f.right then none else some f.block2⟩,
      fun i => f.shift i + f.extra i⟩, ?_, ?_⟩
    · unfold Face.phaseShift; simp only [hl, g1, g2, if_true, Bool.and_self]
    · intro k w hw t
      unfold triples
      simp only
      rw [List.mem_append, trip1_left idx f _ k w hg hw]
      by_cases hr : owned f.right = true
      · simp only [hr, hl, Bool.not_true, Bool.false_eq_true, if_false, true_and]
        rw [trip2_left idx f _ k w hg hw]
      · simp only [hr, hl, Bool.not_false, if_true, true_and, List.not_mem_nil, false_and,
          Bool.false_eq_true]
  · have hr : owned f.right = true := by tauto
    refine ⟨⟨⟨idx f.right, idx f.left, f.block2, none⟩, fun i => -(f.shift i + f.extra i)⟩, ?_, ?_⟩
    · unfold Face.phaseShift; simp only [hl, g1, g2, if_true, Bool.and_self]; rfl
    · intro k w hw t
      unfold triples
      simp only [List.append_nil, hl, hr, false_and, true_and, false_or, Bool.false_eq_true]
      exact trip1_right idx f _ k w hg hw t

/-- A face that needs no block for want of a mark. -/
def Marked (f : Face d) : Prop :=
  f.internal = true → f.periodic = false → ¬ Real.sqrt (dot f.shift f.shift) > 1e-3

theorem build_spec (idx : ℕ → List ℕ) (owned : ℕ → Bool) (fs : List (Face d))
    (hg : ∀ f ∈ fs, f.internal = true → f.periodic = true → Good idx f)
    (hm : ∀ f ∈ fs, Marked f) :
    ∃ bs, build idx owned fs = some bs ∧ ∀ k w,
      (∀ f ∈ fs, f.internal = true → f.periodic = true → Extra idx k w f) → ∀ t,
      t ∈ (bs.flatMap fun b => triples b k) ↔ ∃ f ∈ fs, f.internal = true ∧ f.periodic = true ∧
        ((owned f.left = true ∧ t ∈ (half1 idx f).map (trip w k)) ∨
         (owned f.right = true ∧ t ∈ (half2 idx f).map (trip w k))) := by
  induction fs with
  | nil => exact ⟨[], rfl, fun k w _ t => by simp⟩
  | cons f l ih =>
    obtain ⟨bs, h1, h2⟩ := ih (fun f' h' => hg f' (by simp [h'])) (fun f' h' => hm f' (by simp [h']))
    have skip : build idx owned (f :: l) = build idx owned l →
        (¬ (f.internal = true ∧ f.periodic = true ∧ (owned f.left = true ∨ owned f.right = true))) →
        ∃ bs, build idx owned (f :: l) = some bs ∧ ∀ k w,
          (∀ f' ∈ f :: l, f'.internal = true → f'.periodic = true → Extra idx k w f') → ∀ t,
          t ∈ (bs.flatMap fun b => triples b k) ↔ ∃ f' ∈ f :: l,
            f'.internal = true ∧ f'.periodic = true ∧
            ((owned f'.left = true ∧ t ∈ (half1 idx f').map (trip w k)) ∨
             (owned f'.right = true ∧ t ∈ (half2 idx f').map (trip w k))) := by
      intro e hn
      refine ⟨bs, by rw [e, h1], fun k w hw t => ?_⟩
      rw [h2 k w (fun f' h' => hw f' (by simp [h'])) t]
      constructor
      · rintro ⟨f', h', hh⟩; exact ⟨f', by simp [h'], hh⟩
      · rintro ⟨f', h', hi, hp, hh⟩
        rcases List.mem_cons.1 h' with rfl | h'
        · exact absurd ⟨hi, hp, hh.imp And.left And.left⟩ hn
        · exact ⟨f', h', hi, hp, hh⟩
    by_cases hi : f.internal = true
    · by_cases hp : f.periodic = true
      · by_cases ho : owned f.left = true ∨ owned f.right = true
        · obtain ⟨b, b1, b2⟩ := phaseShift_spec idx owned f (hg f (by simp) hi hp) ho
          have hc : (!owned f.left && !owned f.right) = false := by
            rcases ho with h | h <;> simp [h]
          refine ⟨b :: bs, ?_, ?_⟩
          · unfold build; simp only [hi, hp, hc, b1, h1]; rfl
          · intro k w hw t
            rw [List.flatMap_cons, List.mem_append, b2 k w (hw f (by simp) hi hp) t,
              h2 k w (fun f' h' => hw f' (by simp [h'])) t]
            constructor
            · rintro (h | ⟨f', h', hh⟩)
              · exact ⟨f, by simp, hi, hp, h⟩
              · exact ⟨f', by simp [h'], hh⟩
            · rintro ⟨f', h', hi', hp', hh⟩
              rcases List.mem_cons.1 h' with rfl | h'
              · exact Or.inl hh
              · exact Or.inr ⟨f', h', hi', hp', hh⟩
        · refine skip ?_ (fun h => ho h.2.2)
          have hc : (!owned f.left && !owned f.right) = true := by
            push Not at ho; simp [ho.1, ho.2]
          rw [build]; simp [hi, hp, hc]
      · refine skip ?_ (fun h => hp h.2.1)
        have hp' : f.periodic = false := by simpa using hp
        have := hm f (by simp) hi hp'
        rw [build]
        simp only [hi, hp', Bool.not_true, Bool.false_eq_true, if_false]
        rw [if_neg this]
    · refine skip ?_ (fun h => hi h.1)
      rw [build]; simp [hi]

/-- Everything all processes insert. -/
theorem applyAll_spec {P : Type} (idx : ℕ → List ℕ) (owned : P → ℕ → Bool)
    (known : P → List (Face d)) (k : Vec d) (w : ℕ → ℕ → ℂ) (procs : List P)
    (hg : ∀ p ∈ procs, ∀ f ∈ known p, f.internal = true → f.periodic = true → Good idx f)
    (hm : ∀ p ∈ procs, ∀ f ∈ known p, Marked f)
    (hw : ∀ p ∈ procs, ∀ f ∈ known p, f.internal = true → f.periodic = true → Extra idx k w f) :
    ∃ T : List (ℕ × ℕ × ℂ), (∀ m, applyAll idx owned known k procs m = some (T.foldl insT m)) ∧
      ∀ t, t ∈ T ↔ ∃ p ∈ procs, ∃ f ∈ known p, f.internal = true ∧ f.periodic = true ∧
        ((owned p f.left = true ∧ t ∈ (half1 idx f).map (trip w k)) ∨
         (owned p f.right = true ∧ t ∈ (half2 idx f).map (trip w k))) := by
  induction procs with
  | nil => exact ⟨[], fun m => rfl, fun t => by simp⟩
  | cons p l ih =>
    obtain ⟨T, h1, h2⟩ := ih (fun p' h' => hg p' (by simp [h'])) (fun p' h' => hm p' (by simp [h']))
      (fun p' h' => hw p' (by simp [h']))
    obtain ⟨bs, b1, b2⟩ := build_spec idx (owned p) (known p) (hg p (by simp)) (hm p (by simp))
    refine ⟨(bs.flatMap fun b => triples b k) ++ T, fun m => ?_, fun t => ?_⟩
    · unfold applyAll
      rw [b1, Option.bind_some, h1, applyShifts_eq, List.foldl_append]
    · rw [List.mem_append, b2 k w (hw p (by simp)) t, h2]
      constructor
      · rintro (h | ⟨p', h', hh⟩)
        · exact ⟨p, by simp, h⟩
        · exact ⟨p', by simp [h'], hh⟩
      · rintro ⟨p', h', hh⟩
        rcases List.mem_cons.1 h' with rfl | h'
        · exact Or.inl hh
        · exact Or.inr ⟨p', h', hh⟩

/-! ## The Bloch matrix -/

theorem bloch_phase (cs : List (Coupling d)) (k : Vec d) (r c : ℕ) :
    bloch cs k r c =
      ((cs.filter fun x => x.at r c).map fun x => x.value * phase (dot k x.shift)).sum := rfl

theorem bloch_alone (cs p : List (Coupling d)) (h : Alone cs p) (x : Coupling d) (hx : x ∈ p)
    (k : Vec d) : bloch cs k x.row x.col = x.value * phase (dot k x.shift) := by
  rw [bloch_phase, h x hx]; simp

theorem mem_periodic (idx : ℕ → List ℕ) (fs : List (Face d)) (x : Coupling d) :
    x ∈ periodicCouplings idx fs ↔ ∃ f ∈ fs, f.internal = true ∧ f.periodic = true ∧
      (x ∈ half1 idx f ∨ x ∈ half2 idx f) := by
  unfold periodicCouplings
  simp only [List.mem_flatMap, List.mem_filter, Bool.and_eq_true, across_eq, List.mem_append]
  constructor
  · rintro ⟨f, ⟨h1, h2, h3⟩, h4⟩; exact ⟨f, h1, h2, h3, h4⟩
  · rintro ⟨f, h1, h2, h3, h4⟩; exact ⟨f, ⟨h1, h2, h3⟩, h4⟩

/-- Away from the periodic couplings the wave vector does not matter. -/
theorem bloch_away (rest p : List (Coupling d)) (hr : ∀ x ∈ rest, x.shift = fun _ => 0)
    (r c : ℕ) (h : ∀ x ∈ p, ¬ (x.row = r ∧ x.col = c)) (k k0 : Vec d) :
    bloch (rest ++ p) k r c = bloch (rest ++ p) k0 r c := by
  rw [bloch_phase, bloch_phase]
  congr 1
  refine List.map_congr_left fun x hx => ?_
  rw [List.mem_filter, List.mem_append] at hx
  obtain ⟨hx | hx, ha⟩ := hx
  · rw [hr x hx, dot_zero_right, dot_zero_right]
  · refine absurd ?_ (h x hx)
    simpa [Coupling.at] using ha

/-- The general form of the main theorem. -/
theorem applyAll_bloch {P : Type} [DecidableEq P] (idx : ℕ → List ℕ) (owner : ℕ → P)
    (known : P → List (Face d)) (fs : List (Face d)) (procs : List P)
    (rest : List (Coupling d)) (k k0 : Vec d) (w : ℕ → ℕ → ℂ) (m : PMat)
    (hg : ∀ f ∈ fs, f.internal = true → f.periodic = true → Good idx f)
    (hm : ∀ f ∈ fs, Marked f)
    (hw : ∀ f ∈ fs, f.internal = true → f.periodic = true → Extra idx k w f)
    (hk : ∀ p ∈ procs, ∀ f ∈ known p, f ∈ fs)
    (hk' : ∀ p ∈ procs, ∀ f ∈ fs, owner f.left = p ∨ owner f.right = p → f ∈ known p)
    (hp : ∀ f ∈ fs, owner f.left ∈ procs ∧ owner f.right ∈ procs)
    (hr : ∀ x ∈ rest, x.shift = fun _ => 0)
    (ha : Alone (rest ++ periodicCouplings idx fs) (periodicCouplings idx fs))
    (h0 : ∀ r c, m r c = bloch (rest ++ periodicCouplings idx fs) k0 r c * w r c) :
    applyAll idx (fun p e => decide (owner e = p)) known k procs m =
      some fun r c => bloch (rest ++ periodicCouplings idx fs) k r c * w r c := by
  obtain ⟨T, h1, h2⟩ := applyAll_spec idx (fun p e => decide (owner e = p)) known k w procs
    (fun p hp f hf => hg f (hk p hp f hf)) (fun p hp f hf => hm f (hk p hp f hf))
    (fun p hp f hf => hw f (hk p hp f hf))
  rw [h1]
  congr 1
  have hT : ∀ t, t ∈ T ↔ ∃ x ∈ periodicCouplings idx fs, trip w k x = t := by
    intro t
    rw [h2]
    constructor
    · rintro ⟨p, hp', f, hf, hi, hpp, hh⟩
      rcases hh with ⟨_, hh⟩ | ⟨_, hh⟩
      · obtain ⟨x, hx, rfl⟩ := List.mem_map.1 hh
        exact ⟨x, (mem_periodic _ _ _).2 ⟨f, hk p hp' f hf, hi, hpp, Or.inl hx⟩, rfl⟩
      · obtain ⟨x, hx, rfl⟩ := List.mem_map.1 hh
        exact ⟨x, (mem_periodic _ _ _).2 ⟨f, hk p hp' f hf, hi, hpp, Or.inr hx⟩, rfl⟩
    · rintro ⟨x, hx, rfl⟩
      obtain ⟨f, hf, hi, hpp, hh⟩ := (mem_periodic _ _ _).1 hx
      rcases hh with hh | hh
      · exact ⟨owner f.left, (hp f hf).1, f, hk' _ (hp f hf).1 f hf (Or.inl rfl), hi, hpp,
          Or.inl ⟨by simp, List.mem_map_of_mem hh⟩⟩
      · exact ⟨owner f.right, (hp f hf).2, f, hk' _ (hp f hf).2 f hf (Or.inr rfl), hi, hpp,
          Or.inr ⟨by simp, List.mem_map_of_mem hh⟩⟩
  funext r c
  by_cases hx : ∃ x ∈ periodicCouplings idx fs, x.row = r ∧ x.col = c
  · obtain ⟨x, hx, rfl, rfl⟩ := hx
    have hb := bloch_alone _ _ ha x hx
    refine foldl_insT_some T m _ _ _ ?_ ?_ ?_
    · intro hz
      rw [h0, hb k0]
      rw [hb k] at hz
      rcases mul_eq_zero.1 hz with hz | hz
      · rcases mul_eq_zero.1 hz with hz | hz
        · simp [hz]
        · exact absurd hz (phase_ne _)
      · simp [hz]
    · intro t ht e1 e2
      obtain ⟨y, hy, rfl⟩ := (hT t).1 ht
      have e1' : y.row = x.row := e1
      have e2' : y.col = x.col := e2
      have := hb k
      rw [← e1', ← e2', bloch_alone _ _ ha y hy k]
      rfl
    · exact Or.inr ⟨trip w k x, (hT _).2 ⟨x, hx, rfl⟩, rfl, rfl⟩
  · rw [foldl_insT_none]
    · rw [h0, bloch_away rest _ hr r c (fun x hx' hh => hx ⟨x, hx', hh⟩) k0 k]
    · intro t ht hh
      obtain ⟨y, hy, rfl⟩ := (hT t).1 ht
      exact hx ⟨y, hy, hh⟩

end Verif.Bloch
