import Verif.DenseMatrix.Lemmas
import Mathlib.Data.Int.Basic

/-! # Properties of dense matrices and face matrices (C14, C43) -/
namespace Verif.DenseMatrix
variable {α : Type}

/-! ## C43: MiddleSizeMatrix -/

/-- A matrix is determined by its entries. -/
theorem mat_ext [Zero α] {M N : Mat α} {n m : Nat} (hM : M.Is n m) (hN : N.Is n m)
    (h : ∀ i < n, ∀ j < m, M.get i j = N.get i j) : M = N := Mat.ext_get hM hN h

/-- C43. Assigning one entry changes that entry and no other. -/
theorem mat_set [Zero α] {M : Mat α} {n m : Nat} (h : M.Is n m) (i j : Nat) (v : α) (hi : i < n)
    (hj : j < m) :
    (M.set i j v).Entries n m fun i' j' => if i' = i ∧ j' = j then v else M.get i' j' :=
  ⟨h.set _ _ _, fun _ hi' _ _ => Mat.get_set h v hi hj hi'⟩

/-- C43. Sum, difference, scaling and `axpy` work entry by entry. -/
theorem mat_linear [Ring α] {M N : Mat α} {n m : Nat} (hM : M.Is n m) (hN : N.Is n m) (a : α) :
    (M.add N).Entries n m (fun i j => M.get i j + N.get i j) ∧
    (M.sub N).Entries n m (fun i j => M.get i j - N.get i j) ∧
    (M.scale a).Entries n m (fun i j => M.get i j * a) ∧
    (M.axpy a N).Entries n m (fun i j => a * N.get i j + M.get i j) := by
  have hM' := hM
  have hN' := hN
  obtain ⟨h1, h2, h3⟩ := hM
  obtain ⟨h1', h2', h3'⟩ := hN
  refine ⟨⟨⟨h1, h2, by simp [Mat.add, h3, h3']⟩, fun i hi j hj => ?_⟩,
    ⟨⟨h1, h2, by simp [Mat.sub, h3, h3']⟩, fun i hi j hj => ?_⟩,
    ⟨⟨h1, h2, by simp [Mat.scale, h3]⟩, fun i hi j hj => ?_⟩,
    ⟨⟨h1, h2, by simp [Mat.axpy, h3, h3']⟩, fun i hi j hj => ?_⟩⟩
  all_goals
    have f1 := hM'.flat hi hj
    have f2 := hN'.flat hi hj
    have e : N.rows = M.rows := by omega
  · simp only [Mat.get, Mat.add]; rw [Mat.getD_zipWith _ _ _ _ f1 (e ▸ f2), e]
  · simp only [Mat.get, Mat.sub]; rw [Mat.getD_zipWith _ _ _ _ f1 (e ▸ f2), e]
  · simp only [Mat.get, Mat.scale]
    simp [List.getD_eq_getElem?_getD, f1]
  · simp only [Mat.get, Mat.axpy]; rw [Mat.getD_zipWith _ _ _ _ (e ▸ f2) f1, e]

/-- C43. `transpose` swaps the indices. -/
theorem mat_transpose [Zero α] {M : Mat α} {n m : Nat} (hM : M.Is n m) :
    M.transpose.Entries m n fun i j => M.get j i := by
  obtain ⟨h1, h2, h3⟩ := hM
  subst h1 h2
  obtain ⟨a, b⟩ := Mat.transpose_aux (n := M.cols) (m := M.rows) (fun i j => M.get i j) M.rows
    (Mat.zero M.cols M.rows) (Mat.Is.zero _ _) le_rfl
  refine ⟨a, fun i hi j hj => ?_⟩
  have := b i hi j hj
  rw [if_pos hj] at this
  exact this

/-- C43. Transposing twice gives the matrix back. -/
theorem mat_transpose_transpose [Zero α] {M : Mat α} {n m : Nat} (hM : M.Is n m) :
    M.transpose.transpose = M := by
  obtain ⟨a, b⟩ := mat_transpose hM
  obtain ⟨c, d⟩ := mat_transpose a
  refine Mat.ext_get c hM fun i hi j hj => ?_
  rw [d i hi j hj]; exact b j hj i hi

/-- C43. The matrix product is the usual sum, also when the inner dimension is zero. -/
theorem mat_mul [Semiring α] {M N : Mat α} {n k m : Nat} (hM : M.Is n k) (hN : N.Is k m) :
    (M.mul N).Entries n m fun i j => ((List.range k).map fun l => M.get i l * N.get l j).sum := by
  obtain ⟨h1, h2, h3⟩ := hM
  obtain ⟨h1', h2', h3'⟩ := hN
  unfold Mat.mul
  split_ifs with h
  · refine ⟨⟨h1, h2', by simp [Mat.zero, Mat.const, h1, h2']⟩, fun i hi j hj => ?_⟩
    have : k = 0 := by omega
    subst this
    rw [Mat.zero, Mat.get_const _ _ _ (by omega) (by omega)]
    simp
  · refine ⟨⟨h1, h2', by simp [Mat.gemm, h1, h2', Nat.mul_comm]⟩, fun i hi j hj => ?_⟩
    simp only [Mat.get, Mat.gemm, h1, h2, h2', h1']
    rw [Mat.get_ofFn n m _ hi hj]
    have e1 : (i + j * n) % n = i := by rw [Nat.add_mul_mod_self_right, Nat.mod_eq_of_lt hi]
    have e2 : (i + j * n) / n = j := by
      rw [Nat.add_mul_div_right _ _ (by omega), Nat.div_eq_of_lt hi]; omega
    rw [e1, e2]

/-- C43. `getColumn` and `getRow` read a column and a row. -/
theorem mat_column_row [Zero α] {M : Mat α} {n m : Nat} (hM : M.Is n m) (i j : Nat) :
    M.getColumn j = (List.range n).map (fun i => M.get i j) ∧
    M.getRow i = (List.range m).map (fun j => M.get i j) := by
  obtain ⟨rfl, rfl, _⟩ := hM
  simp [Mat.getColumn, Mat.getRow, Mat.get, Nat.add_comm]

/-- C43. `concatenate` puts the rows of the other matrix below the rows of this one. -/
theorem mat_concatenate [Zero α] {M N : Mat α} {n n' m : Nat} (hM : M.Is n m) (hN : N.Is n' m) :
    (M.concatenate N).Entries (n + n') m fun i j =>
      if i < n then M.get i j else N.get (i - n) j := by
  obtain ⟨rfl, rfl, h3⟩ := hM
  obtain ⟨rfl, h2', h3'⟩ := hN
  have key : ∀ c ≤ M.cols, ∀ d : List α, d.length = M.cols * (M.rows + N.rows) →
      let r := (List.range c).foldl (fun d col =>
        let d := (List.range M.rows).foldl (fun d row =>
          d.set (row + col * (M.rows + N.rows)) (M.data.getD (row + col * M.rows) 0)) d
        (List.range' M.rows N.rows).foldl (fun d row =>
          d.set (row + col * (M.rows + N.rows))
            (N.data.getD ((row - M.rows) + col * N.rows) 0)) d) d
      r.length = d.length ∧ ∀ i < M.rows + N.rows, ∀ j < c,
        r.getD (i + j * (M.rows + N.rows)) 0 =
          if i < M.rows then M.get i j else N.get (i - M.rows) j := by
    intro c
    induction c with
    | zero => intro _ d _; exact ⟨by simp, fun i _ j hj => by omega⟩
    | succ c ih =>
      intro hc d hd
      obtain ⟨a1, a2⟩ := ih (by omega) d hd
      rw [List.range_succ, List.foldl_append]
      simp only [List.foldl_cons, List.foldl_nil]
      generalize (List.range c).foldl _ d = d1 at a1 a2 ⊢
      have hlen : c * (M.rows + N.rows) + (M.rows + N.rows) ≤ d1.length := by
        rw [a1, hd]
        calc c * (M.rows + N.rows) + (M.rows + N.rows) = (c + 1) * (M.rows + N.rows) := by ring
          _ ≤ _ := Nat.mul_le_mul_right _ hc
      obtain ⟨b1, b2⟩ := Mat.setRange0 (c * (M.rows + N.rows))
        (fun row => M.data.getD (row + c * M.rows) 0) M.rows d1 (by omega)
      generalize (List.range M.rows).foldl _ d1 = d2 at b1 b2 ⊢
      obtain ⟨e1, e2⟩ := Mat.setRange (c * (M.rows + N.rows))
        (fun row => N.data.getD ((row - M.rows) + c * N.rows) 0) M.rows N.rows d2 (by omega)
      refine ⟨by omega, fun i hi j hj => ?_⟩
      rw [e2, b2]
      by_cases hjc : j = c
      · subst hjc
        by_cases hin : i < M.rows
        · rw [if_neg (by omega), if_pos (by omega), if_pos hin]
          simp [Mat.get]
        · rw [if_pos (by omega), if_neg hin]
          simp [Mat.get]
      · have hlt : i + j * (M.rows + N.rows) < c * (M.rows + N.rows) := by
          rw [Nat.mul_comm c]
          exact flat_lt hi (by omega)
        rw [if_neg (by omega), if_neg (by omega)]
        exact a2 i hi j (by omega)
  obtain ⟨k1, k2⟩ := key M.cols le_rfl (List.replicate (M.cols * (M.rows + N.rows)) 0) (by simp)
  refine ⟨⟨rfl, rfl, ?_⟩, fun i hi j hj => k2 i hi j hj⟩
  simp only [Mat.concatenate]
  rw [k1]
  simp [Nat.mul_comm]

/-- C43. The list constructor places the matrices next to each other; two matrices suffice to
describe it because the data of the rest is appended in the same way. -/
theorem mat_glue [Zero α] {M N : Mat α} {n m m' : Nat} (hM : M.Is n m) (hN : N.Is n m') :
    ∃ R, Mat.glue [M, N] = some R ∧ R.Entries n (m + m') fun i j =>
      if j < m then M.get i j else N.get i (j - m) := by
  obtain ⟨rfl, rfl, h3⟩ := hM
  obtain ⟨h1', rfl, h3'⟩ := hN
  refine ⟨_, rfl, ⟨rfl, by simp, by simp [h3, h3', Nat.mul_add]⟩, fun i hi j hj => ?_⟩
  simp only [Mat.get, List.map_cons, List.map_nil, List.flatten_cons, List.flatten_nil,
    List.append_nil, List.getD_eq_getElem?_getD, h1']
  split_ifs with h
  · rw [List.getElem?_append_left (by rw [h3]; exact flat_lt hi h)]
  · have e : i + j * M.rows = M.data.length + (i + (j - M.cols) * M.rows) := by
      obtain ⟨t, rfl⟩ := Nat.exists_eq_add_of_le (Nat.le_of_not_lt h)
      rw [h3, Nat.add_sub_cancel_left]; ring
    rw [e, List.getElem?_append_right (by omega), Nat.add_sub_cancel_left]

/-- C43. Gluing more than two matrices is the same as gluing one after the other. -/
theorem mat_glue_cons (M N : Mat α) (l : List (Mat α)) :
    (Mat.glue (M :: N :: l)) = (Mat.glue (N :: l)).bind fun R => Mat.glue [M, R] := by
  simp [Mat.glue]

/-- C43, partial: `resize` keeps the entries only as long as the number of rows is unchanged
(columns may be added, filled with zero, or removed). Missing: a changed number of rows, for which
the entries move, see `resize_scrambles`. -/
theorem mat_resize_partial [Zero α] {M : Mat α} {n m : Nat} (hM : M.Is n m) (m' : Nat) :
    (M.resize n m').Entries n m' fun i j => if j < m then M.get i j else 0 := by
  obtain ⟨rfl, rfl, h3⟩ := hM
  have hlen : (M.resize M.rows m').Is M.rows m' := by
    refine ⟨rfl, rfl, ?_⟩
    simp only [Mat.resize, Mat.vecResize]
    split_ifs with h
    · simp only [List.length_append, List.length_take, List.length_replicate]; omega
    · omega
  refine ⟨hlen, fun i hi j hj => ?_⟩
  have hk : i + j * M.rows < M.rows * m' := flat_lt hi hj
  simp only [Mat.get, Mat.resize, Mat.vecResize, List.getD_eq_getElem?_getD]
  split_ifs with h1 h2 h2
  · have : i + j * M.rows < M.rows * M.cols := flat_lt hi h2
    rw [List.getElem?_append_left (by simp; omega), List.getElem?_take_of_lt hk]
  · have : M.rows * M.cols ≤ i + j * M.rows := by
      rw [Nat.mul_comm]
      exact le_trans (Nat.mul_le_mul_right _ (Nat.le_of_not_lt h2)) (Nat.le_add_left _ _)
    rw [List.getElem?_append_right (by simp; omega)]
    rw [List.getElem?_replicate]
    split_ifs <;> rfl
  · rfl
  · have : M.rows * M.cols ≤ i + j * M.rows := by
      rw [Nat.mul_comm]
      exact le_trans (Nat.mul_le_mul_right _ (Nat.le_of_not_lt h2)) (Nat.le_add_left _ _)
    omega

/-- `resize` to a different number of rows moves entries: growing the identity of size 2 to 3 by 3
does not keep entry (1, 1). -/
theorem resize_scrambles :
    ∃ M : Mat Int, M.Is 2 2 ∧ M.get 1 1 = 1 ∧ (M.resize 3 3).get 1 1 = 0 :=
  ⟨⟨2, 2, [1, 0, 0, 1]⟩, by decide, by decide, by decide⟩

/-- C43. `operator=(scalar)` makes a 1 by 1 matrix of that scalar, for every previous content. -/
theorem mat_assignScalar [Zero α] {M : Mat α} {n m : Nat} (hM : M.Is n m) (c : α) :
    (M.assignScalar c).Entries 1 1 fun _ _ => c := by
  obtain ⟨rfl, rfl, h3⟩ := hM
  unfold Mat.assignScalar Mat.size
  by_cases h : M.rows * M.cols ≠ 1
  · simp only [h, if_true, ne_eq, not_false_eq_true]
    refine ⟨⟨rfl, rfl, ?_⟩, fun i hi j hj => ?_⟩
    · simp [Mat.vecResize_length]
    · obtain rfl : i = 0 := by omega
      obtain rfl : j = 0 := by omega
      simp only [Mat.get]
      rw [getD_set _ _ _ _ (by simp [Mat.vecResize_length])]
      simp
  · have h' : M.rows * M.cols = 1 := not_not.1 h
    have a : M.rows = 1 := Nat.eq_one_of_mul_eq_one_right h'
    have b : M.cols = 1 := Nat.eq_one_of_mul_eq_one_left h'
    simp only [h', ne_eq, not_true_eq_false, if_false]
    refine ⟨⟨a, b, by simp [h3, h']⟩, fun i hi j hj => ?_⟩
    obtain rfl : i = 0 := by omega
    obtain rfl : j = 0 := by omega
    simp only [Mat.get]
    rw [getD_set _ _ _ _ (by omega)]
    simp

/-- Instance: a 2 by 3 matrix is transposed and multiplied. -/
example : let M : Mat Int := ⟨2, 3, [1, 2, 3, 4, 5, 6]⟩
    M.Is 2 3 ∧ M.transpose.data = [1, 3, 5, 2, 4, 6] ∧ (M.mul M.transpose).data = [35, 44, 44, 56] := by
  decide

/-! ## C14: FaceMatrix -/

/-- C14. A new face matrix is zero. -/
theorem face_zero [Zero α] (nL nR : Nat) : (FaceMat.zero nL nR : FaceMat α).Entries nL nR fun _ _ => 0 := by
  refine ⟨⟨Mat.Is.zero _ _, Mat.Is.zero _ _, Mat.Is.zero _ _, Mat.Is.zero _ _⟩, fun i hi j hj => ?_⟩
  simp only [FaceMat.get, FaceMat.zero]
  have : (Mat.zero nL nL : Mat α).rows = nL := rfl
  simp only [this]
  split_ifs <;> exact Mat.get_const _ _ _ (by omega) (by omega)

/-- C14. Access by side and access by number agree. -/
theorem face_side_get [Zero α] {F : FaceMat α} {nL nR : Nat} (hF : F.Is nL nR) (iS jS : Side) (i j : Nat)
    (hi : i < count nL nR iS) (hj : j < count nL nR jS) :
    F.getSide iS jS i j = F.get (position nL iS i) (position nL jS j) := by
  obtain ⟨⟨h1, _, _⟩, _⟩ := hF
  cases iS <;> cases jS <;> simp_all [FaceMat.getSide, FaceMat.get, FaceMat.block, position, count]

/-- C14. Assigning through either access changes exactly that entry of the entire matrix. -/
theorem face_put [Zero α] {F : FaceMat α} {nL nR : Nat} (hF : F.Is nL nR) (i j : Nat) (v : α)
    (hi : i < nL + nR) (hj : j < nL + nR) :
    (F.put i j v).Entries nL nR fun i' j' => if i' = i ∧ j' = j then v else F.get i' j' := by
  obtain ⟨h1, h2, h3, h4⟩ := hF
  have hr := h1.1
  unfold FaceMat.put
  simp only [hr]
  refine ⟨?_, fun i' hi' j' hj' => ?_⟩
  · split_ifs
    · exact ⟨h1.set _ _ _, h2, h3, h4⟩
    · exact ⟨h1, h2.set _ _ _, h3, h4⟩
    · exact ⟨h1, h2, h3.set _ _ _, h4⟩
    · exact ⟨h1, h2, h3, h4.set _ _ _⟩
  · have hrs : ∀ a b w, (F.ll.set a b w).rows = nL := fun _ _ _ => hr
    split_ifs <;>
      simp only [FaceMat.get, hr, hrs] <;>
      by_cases p : i' < nL <;> by_cases q : j' < nL <;>
      simp only [p, q, if_true, if_false] <;> try omega
    all_goals
      first
      | rw [Mat.get_set h1 _ (by omega) (by omega) (by omega)]
      | rw [Mat.get_set h2 _ (by omega) (by omega) (by omega)]
      | rw [Mat.get_set h3 _ (by omega) (by omega) (by omega)]
      | rw [Mat.get_set h4 _ (by omega) (by omega) (by omega)]
      | rw [if_neg (by omega)]
    all_goals
      first
      | rfl
      | (congr 1; apply propext; constructor <;> intro _ <;> omega)

/-- C14. The same for access by side. -/
theorem face_putSide [Zero α] {F : FaceMat α} {nL nR : Nat} (hF : F.Is nL nR) (iS jS : Side) (i j : Nat)
    (v : α) (hi : i < count nL nR iS) (hj : j < count nL nR jS) :
    F.putSide iS jS i j v = F.put (position nL iS i) (position nL jS j) v := by
  obtain ⟨⟨h1, _, _⟩, _⟩ := hF
  cases iS <;> cases jS <;>
    simp_all [FaceMat.putSide, FaceMat.put, FaceMat.block, FaceMat.setBlock, position, count]

/-- C14. Setting a block replaces exactly the entries of that block. -/
theorem face_setBlock [Zero α] {F : FaceMat α} {nL nR : Nat} (hF : F.Is nL nR) (iS jS : Side) (M : Mat α)
    (hM : M.Is (count nL nR iS) (count nL nR jS)) :
    (F.setBlock M iS jS).Is nL nR ∧ (F.setBlock M iS jS).block iS jS = M ∧
      ∀ iS' jS', (iS', jS') ≠ (iS, jS) → (F.setBlock M iS jS).block iS' jS' = F.block iS' jS' := by
  obtain ⟨h1, h2, h3, h4⟩ := hF
  cases iS <;> cases jS <;> refine ⟨⟨?_, ?_, ?_, ?_⟩, rfl, fun iS' jS' h => ?_⟩ <;>
    first
    | assumption
    | (cases iS' <;> cases jS' <;> first | rfl | exact absurd rfl h)

/-- C14. The entire matrix has the entries that scalar access shows. -/
theorem face_getEntire [Zero α] {F : FaceMat α} {nL nR : Nat} (hF : F.Is nL nR) :
    F.getEntire.Entries (nL + nR) (nL + nR) fun i j => F.get i j := by
  obtain ⟨⟨h1, -⟩, -, -, ⟨h4, -⟩⟩ := hF
  unfold FaceMat.getEntire
  simp only [h1, h4]
  obtain ⟨a1, b1⟩ := Mat.fillBlock_spec 0 0 nL F.ll.get (by omega : 0 + nL ≤ nL + nR) nL
    (Mat.zero (nL + nR) (nL + nR)) (Mat.Is.zero _ _) (by omega)
  obtain ⟨a2, b2⟩ := Mat.fillBlock_spec 0 nL nR F.lr.get le_rfl nL _ a1 (by omega)
  obtain ⟨a3, b3⟩ := Mat.fillBlock_spec nL 0 nL F.rl.get (by omega : 0 + nL ≤ nL + nR) nR _ a2
    (by omega)
  obtain ⟨a4, b4⟩ := Mat.fillBlock_spec nL nL nR F.rr.get le_rfl nR _ a3 (by omega)
  refine ⟨a4, fun i hi j hj => ?_⟩
  rw [b4 i hi j hj, b3 i hi j hj, b2 i hi j hj, b1 i hi j hj]
  simp only [FaceMat.get, h1]
  by_cases p : i < nL <;> by_cases q : j < nL <;> simp only [p, q, if_true, if_false]
  · rw [if_neg (by omega), if_neg (by omega), if_neg (by omega), if_pos (by omega)]; rfl
  · rw [if_neg (by omega), if_neg (by omega), if_pos (by omega)]; rfl
  · rw [if_neg (by omega), if_pos (by omega)]; rfl
  · rw [if_pos (by omega)]

/-- C14. After `setEntireMatrix` scalar access shows the entries of the given matrix, whatever was
stored before. -/
theorem face_setEntire [Zero α] {F : FaceMat α} {nL nR : Nat} (hF : F.Is nL nR) {M : Mat α}
    (_hM : M.Is (nL + nR) (nL + nR)) : (F.setEntire M).Entries nL nR fun i j => M.get i j := by
  obtain ⟨h1, h2, h3, h4⟩ := hF
  unfold FaceMat.setEntire
  simp only [h1.1, h4.1]
  obtain ⟨a1, b1⟩ := Mat.fillBlock_spec 0 0 nL (fun i j => M.get i j) (by omega : 0 + nL ≤ nL) nL
    F.ll h1 (by omega)
  obtain ⟨a2, b2⟩ := Mat.fillBlock_spec 0 0 nR (fun i j => M.get i (nL + j)) (by omega : 0 + nR ≤ nR)
    nL F.lr h2 (by omega)
  obtain ⟨a3, b3⟩ := Mat.fillBlock_spec 0 0 nL (fun i j => M.get (nL + i) j) (by omega : 0 + nL ≤ nL)
    nR F.rl h3 (by omega)
  obtain ⟨a4, b4⟩ := Mat.fillBlock_spec 0 0 nR (fun i j => M.get (nL + i) (nL + j))
    (by omega : 0 + nR ≤ nR) nR F.rr h4 (by omega)
  refine ⟨⟨a1, a2, a3, a4⟩, fun i hi j hj => ?_⟩
  simp only [FaceMat.get, a1.1]
  by_cases p : i < nL <;> by_cases q : j < nL <;> simp only [p, q, if_true, if_false]
  · rw [b1 i p j q, if_pos (by omega)]; rfl
  · rw [b2 i p _ (by omega), if_pos (by omega)]; congr 1; omega
  · rw [b3 _ (by omega) j q, if_pos (by omega)]; congr 1; omega
  · rw [b4 _ (by omega) _ (by omega), if_pos (by omega)]; congr 1 <;> omega

/-- C14. Round trip: storing an entire matrix and reading it back gives the same matrix. -/
theorem face_roundtrip [Zero α] {F : FaceMat α} {nL nR : Nat} (hF : F.Is nL nR) {M : Mat α}
    (hM : M.Is (nL + nR) (nL + nR)) : (F.setEntire M).getEntire = M := by
  obtain ⟨a, b⟩ := face_setEntire hF hM
  obtain ⟨c, d⟩ := face_getEntire a
  exact Mat.ext_get c hM fun i hi j hj => (d i hi j hj).trans (b i hi j hj)

/-- C14. And the other way around: writing back what was read changes nothing. -/
theorem face_roundtrip' [Zero α] {F G : FaceMat α} {nL nR : Nat} (hF : F.Is nL nR) (hG : G.Is nL nR) :
    (G.setEntire F.getEntire) = F := by
  obtain ⟨a, b⟩ := face_getEntire hF
  obtain ⟨c, d⟩ := face_setEntire hG a
  have e : ∀ i < nL + nR, ∀ j < nL + nR, (G.setEntire F.getEntire).get i j = F.get i j :=
    fun i hi j hj => (d i hi j hj).trans (b i hi j hj)
  generalize G.setEntire F.getEntire = H at c e
  obtain ⟨h1, h2, h3, h4⟩ := c
  obtain ⟨k1, k2, k3, k4⟩ := hF
  obtain ⟨ll, lr, rl, rr⟩ := H
  obtain ⟨ll', lr', rl', rr'⟩ := F
  have r1 := h1.1
  have r2 := k1.1
  dsimp only at h1 h2 h3 h4 k1 k2 k3 k4 r1 r2
  simp only [FaceMat.get, r1, r2] at e
  congr 1
  · refine Mat.ext_get h1 k1 fun i hi j hj => ?_
    simpa [hi, hj] using e i (by omega) j (by omega)
  · refine Mat.ext_get h2 k2 fun i hi j hj => ?_
    simpa [hi] using e i (by omega) (nL + j) (by omega)
  · refine Mat.ext_get h3 k3 fun i hi j hj => ?_
    simpa [hj] using e (nL + i) (by omega) j (by omega)
  · refine Mat.ext_get h4 k4 fun i hi j hj => ?_
    simpa using e (nL + i) (by omega) (nL + j) (by omega)

/-- C14. `+=`, `*=` and `axpy` act entry by entry on the entire matrix. -/
theorem face_linear [Ring α] {F G : FaceMat α} {nL nR : Nat} (hF : F.Is nL nR) (hG : G.Is nL nR) (a : α) :
    (F.add G).Entries nL nR (fun i j => F.get i j + G.get i j) ∧
    (F.scale a).Entries nL nR (fun i j => F.get i j * a) ∧
    (F.axpy a G).Entries nL nR (fun i j => a * G.get i j + F.get i j) := by
  obtain ⟨h1, h2, h3, h4⟩ := hF
  obtain ⟨k1, k2, k3, k4⟩ := hG
  obtain ⟨a1, -, b1, c1⟩ := mat_linear h1 k1 a
  obtain ⟨a2, -, b2, c2⟩ := mat_linear h2 k2 a
  obtain ⟨a3, -, b3, c3⟩ := mat_linear h3 k3 a
  obtain ⟨a4, -, b4, c4⟩ := mat_linear h4 k4 a
  refine ⟨⟨⟨a1.1, a2.1, a3.1, a4.1⟩, fun i hi j hj => ?_⟩,
    ⟨⟨b1.1, b2.1, b3.1, b4.1⟩, fun i hi j hj => ?_⟩,
    ⟨⟨c1.1, c2.1, c3.1, c4.1⟩, fun i hi j hj => ?_⟩⟩
  · simp only [FaceMat.get, FaceMat.add, a1.1.1, h1.1, k1.1]
    split_ifs
    · exact a1.2 _ (by omega) _ (by omega)
    · exact a2.2 _ (by omega) _ (by omega)
    · exact a3.2 _ (by omega) _ (by omega)
    · exact a4.2 _ (by omega) _ (by omega)
  · simp only [FaceMat.get, FaceMat.scale, b1.1.1, h1.1]
    split_ifs
    · exact b1.2 _ (by omega) _ (by omega)
    · exact b2.2 _ (by omega) _ (by omega)
    · exact b3.2 _ (by omega) _ (by omega)
    · exact b4.2 _ (by omega) _ (by omega)
  · simp only [FaceMat.get, FaceMat.axpy, c1.1.1, h1.1, k1.1]
    split_ifs
    · exact c1.2 _ (by omega) _ (by omega)
    · exact c2.2 _ (by omega) _ (by omega)
    · exact c3.2 _ (by omega) _ (by omega)
    · exact c4.2 _ (by omega) _ (by omega)

/-- Instance: sizes 1 and 2, with a matrix that is not symmetric. -/
example : let M : Mat Int := ⟨3, 3, [1, 2, 3, 4, 5, 6, 7, 8, 9]⟩
    (FaceMat.zero 1 2 : FaceMat Int).Is 1 2 ∧ M.Is 3 3 ∧
      ((FaceMat.zero 1 2).setEntire M).getSide .right .left 1 0 = 3 ∧
      ((FaceMat.zero 1 2).setEntire M).getSide .left .right 0 1 = 7 := by
  decide

end Verif.DenseMatrix
