import Verif.DenseMatrix.Spec
import Mathlib.Tactic.Ring
import Mathlib.Tactic.Linarith
import Mathlib.Data.List.GetD

set_option linter.all false
namespace Verif.DenseMatrix
variable {α : Type}

theorem flat_lt {n m r c : Nat} (hn : n < r) (hm : m < c) : n + m * r < r * c := by
  calc n + m * r < r + m * r := by omega
    _ = (m + 1) * r := by ring
    _ ≤ c * r := Nat.mul_le_mul_right _ hm
    _ = r * c := Nat.mul_comm _ _

theorem flat_inj {n m n' m' r : Nat} (hn : n < r) (hn' : n' < r) :
    n + m * r = n' + m' * r ↔ n = n' ∧ m = m' := by
  constructor
  · intro h
    have h1 : (n + m * r) % r = n := by rw [Nat.add_mul_mod_self_right, Nat.mod_eq_of_lt hn]
    have h2 : (n' + m' * r) % r = n' := by rw [Nat.add_mul_mod_self_right, Nat.mod_eq_of_lt hn']
    have e : n = n' := by rw [← h1, ← h2, h]
    refine ⟨e, ?_⟩
    have : m * r = m' * r := by omega
    exact Nat.eq_of_mul_eq_mul_right (by omega) this
  · rintro ⟨rfl, rfl⟩; rfl

theorem getD_set [Zero α] (l : List α) (i j : Nat) (v : α) (hi : i < l.length) :
    (l.set i v).getD j 0 = if j = i then v else l.getD j 0 := by
  simp only [List.getD_eq_getElem?_getD, List.getElem?_set]
  by_cases h : i = j
  · subst h; simp [hi]
  · have : ¬ j = i := fun e => h e.symm
    simp [h, this]

namespace Mat

theorem Is.const (n m : Nat) (c : α) : (Mat.const n m c).Is n m := by simp [Mat.Is, Mat.const]
theorem Is.zero [Zero α] (n m : Nat) : (Mat.zero n m : Mat α).Is n m := Is.const _ _ _

theorem Is.set {M : Mat α} {n m : Nat} (h : M.Is n m) (i j : Nat) (v : α) : (M.set i j v).Is n m := by
  simpa [Mat.Is, Mat.set] using h

theorem get_set [Zero α] {M : Mat α} {n m : Nat} (h : M.Is n m) {i j i' j' : Nat} (v : α) (hi : i < n)
    (hj : j < m) (hi' : i' < n) :
    (M.set i j v).get i' j' = if i' = i ∧ j' = j then v else M.get i' j' := by
  obtain ⟨h1, h2, h3⟩ := h
  have hlt : i + j * M.rows < M.data.length := by rw [h1, h3]; exact flat_lt hi hj
  simp only [Mat.set, Mat.get]
  rw [getD_set _ _ _ _ hlt]
  simp only [h1, flat_inj hi' hi]

theorem get_const [Zero α] (n m : Nat) (c : α) {i j : Nat} (hi : i < n) (hj : j < m) :
    (Mat.const n m c).get i j = c := by
  simp only [Mat.get, Mat.const, List.getD_eq_getElem?_getD]
  rw [List.getElem?_replicate_of_lt (flat_lt hi hj)]; rfl

theorem ext_get [Zero α] {M N : Mat α} {n m : Nat} (hM : M.Is n m) (hN : N.Is n m)
    (h : ∀ i < n, ∀ j < m, M.get i j = N.get i j) : M = N := by
  obtain ⟨r, c, d⟩ := M
  obtain ⟨r', c', d'⟩ := N
  obtain ⟨h1, h2, h3⟩ := hM
  obtain ⟨h1', h2', h3'⟩ := hN
  dsimp only at *
  subst h1 h2 h1' h2'
  congr 1
  apply List.ext_getElem (by omega)
  intro k hk hk'
  rcases Nat.eq_zero_or_pos r' with h0 | h0
  · subst h0; simp at h3; omega
  have hi : k % r' < r' := Nat.mod_lt _ h0
  have hj : k / r' < c' := by
    rw [Nat.div_lt_iff_lt_mul h0, Nat.mul_comm]; omega
  have := h _ hi _ hj
  have e : k % r' + k / r' * r' = k := by
    rw [Nat.mul_comm]; exact Nat.mod_add_div k r'
  simp only [Mat.get, e, List.getD_eq_getElem?_getD, List.getElem?_eq_getElem hk,
    List.getElem?_eq_getElem hk', Option.getD_some] at this
  exact this

theorem vecResize_length [Zero α] (l : List α) (n : Nat) : (vecResize l n).length = n := by
  simp [vecResize]; omega

/-- A row of assignments. -/
theorem fillRow [Zero α] {n m : Nat} (i b : Nat) (f : Nat → α) (hi : i < n) :
    ∀ (c : Nat) (M : Mat α), M.Is n m → b + c ≤ m →
      ((List.range c).foldl (fun M j => M.set i (b + j) (f j)) M).Is n m ∧
      ∀ i' < n, ∀ j' < m,
        ((List.range c).foldl (fun M j => M.set i (b + j) (f j)) M).get i' j' =
          if i' = i ∧ b ≤ j' ∧ j' < b + c then f (j' - b) else M.get i' j' := by
  intro c
  induction c with
  | zero =>
    intro M hM _
    refine ⟨by simpa using hM, fun i' _ j' _ => ?_⟩
    have : ¬ (i' = i ∧ b ≤ j' ∧ j' < b + 0) := by omega
    rw [if_neg this]; rfl
  | succ c ih =>
    intro M hM hb
    obtain ⟨h1, h2⟩ := ih M hM (by omega)
    rw [List.range_succ, List.foldl_append]
    refine ⟨h1.set _ _ _, fun i' hi' j' hj' => ?_⟩
    simp only [List.foldl_cons, List.foldl_nil]
    rw [get_set h1 _ hi (by omega) hi', h2 i' hi' j' hj']
    by_cases ha : i' = i ∧ j' = b + c
    · rw [if_pos ha, if_pos (by omega)]
      obtain ⟨_, rfl⟩ := ha
      congr 1; omega
    · rw [if_neg ha]
      by_cases hb' : i' = i ∧ b ≤ j' ∧ j' < b + c
      · rw [if_pos hb', if_pos (by omega)]
      · rw [if_neg hb', if_neg (by omega)]

/-- A block of assignments. -/
theorem fillBlock_spec [Zero α] {n m : Nat} (a b c : Nat) (f : Nat → Nat → α) (hc : b + c ≤ m) :
    ∀ (r : Nat) (M : Mat α), M.Is n m → a + r ≤ n →
      (M.fillBlock a b r c f).Is n m ∧
      ∀ i' < n, ∀ j' < m, (M.fillBlock a b r c f).get i' j' =
        if (a ≤ i' ∧ i' < a + r) ∧ (b ≤ j' ∧ j' < b + c) then f (i' - a) (j' - b)
        else M.get i' j' := by
  intro r
  unfold fillBlock
  induction r with
  | zero =>
    intro M hM _
    refine ⟨by simpa using hM, fun i' _ j' _ => ?_⟩
    rw [if_neg (by omega)]; rfl
  | succ r ih =>
    intro M hM hb
    obtain ⟨h1, h2⟩ := ih M hM (by omega)
    rw [List.range_succ, List.foldl_append]
    obtain ⟨h3, h4⟩ := fillRow (a + r) b (f r) (by omega) c _ h1 hc
    refine ⟨h3, fun i' hi' j' hj' => ?_⟩
    simp only [List.foldl_cons, List.foldl_nil]
    rw [h4 i' hi' j' hj', h2 i' hi' j' hj']
    by_cases ha : i' = a + r ∧ b ≤ j' ∧ j' < b + c
    · rw [if_pos ha, if_pos (by omega)]
      obtain ⟨rfl, _⟩ := ha
      congr 1; omega
    · rw [if_neg ha]
      by_cases hb' : (a ≤ i' ∧ i' < a + r) ∧ (b ≤ j' ∧ j' < b + c)
      · rw [if_pos hb', if_pos (by omega)]
      · rw [if_neg hb', if_neg (by omega)]

/-- A column of assignments. -/
theorem fillCol [Zero α] {n m : Nat} (i : Nat) (f : Nat → α) (hi : i < m) :
    ∀ (c : Nat) (M : Mat α), M.Is n m → c ≤ n →
      ((List.range c).foldl (fun M j => M.set j i (f j)) M).Is n m ∧
      ∀ i' < n, ∀ j' < m,
        ((List.range c).foldl (fun M j => M.set j i (f j)) M).get i' j' =
          if j' = i ∧ i' < c then f i' else M.get i' j' := by
  intro c
  induction c with
  | zero =>
    intro M hM _
    refine ⟨by simpa using hM, fun i' _ j' _ => ?_⟩
    rw [if_neg (by omega)]; rfl
  | succ c ih =>
    intro M hM hb
    obtain ⟨h1, h2⟩ := ih M hM (by omega)
    rw [List.range_succ, List.foldl_append]
    refine ⟨h1.set _ _ _, fun i' hi' j' hj' => ?_⟩
    simp only [List.foldl_cons, List.foldl_nil]
    rw [get_set h1 _ (by omega) hi hi', h2 i' hi' j' hj']
    by_cases ha : i' = c ∧ j' = i
    · rw [if_pos ha, if_pos (by omega)]
      rw [ha.1]
    · rw [if_neg ha]
      by_cases hb' : j' = i ∧ i' < c
      · rw [if_pos hb', if_pos (by omega)]
      · rw [if_neg hb', if_neg (by omega)]

theorem transpose_aux [Zero α] {n m : Nat} (f : Nat → Nat → α) :
    ∀ (r : Nat) (M : Mat α), M.Is n m → r ≤ m →
      ((List.range r).foldl (fun R i =>
        (List.range n).foldl (fun R j => R.set j i (f i j)) R) M).Is n m ∧
      ∀ i' < n, ∀ j' < m, ((List.range r).foldl (fun R i =>
        (List.range n).foldl (fun R j => R.set j i (f i j)) R) M).get i' j' =
        if j' < r then f j' i' else M.get i' j' := by
  intro r
  induction r with
  | zero => intro M hM _; exact ⟨by simpa using hM, fun i' _ j' _ => by simp⟩
  | succ r ih =>
    intro M hM hb
    obtain ⟨h1, h2⟩ := ih M hM (by omega)
    rw [List.range_succ, List.foldl_append]
    obtain ⟨h3, h4⟩ := fillCol r (f r) (by omega) n _ h1 le_rfl
    refine ⟨h3, fun i' hi' j' hj' => ?_⟩
    simp only [List.foldl_cons, List.foldl_nil]
    rw [h4 i' hi' j' hj', h2 i' hi' j' hj']
    by_cases ha : j' = r ∧ i' < n
    · rw [if_pos ha, if_pos (by omega), ha.1]
    · rw [if_neg ha]
      by_cases hb' : j' < r
      · rw [if_pos hb', if_pos (by omega)]
      · rw [if_neg hb', if_neg (by omega)]

theorem getD_zipWith [Zero α] (g : α → α → α) (l l' : List α) (k : Nat) (hk : k < l.length)
    (hk' : k < l'.length) : (List.zipWith g l l').getD k 0 = g (l.getD k 0) (l'.getD k 0) := by
  simp [List.getD_eq_getElem?_getD, List.getElem?_zipWith, hk, hk']

theorem Is.flat {M : Mat α} {n m : Nat} (h : M.Is n m) {i j : Nat} (hi : i < n) (hj : j < m) :
    i + j * M.rows < M.data.length := by
  rw [h.1, h.2.2]; exact flat_lt hi hj

theorem get_ofFn [Zero α] (n m : Nat) (g : Nat → α) {i j : Nat} (hi : i < n) (hj : j < m) :
    ((List.range (m * n)).map g).getD (i + j * n) 0 = g (i + j * n) := by
  have : i + j * n < m * n := by
    rw [Nat.mul_comm m]; exact flat_lt hi hj
  simp [List.getD_eq_getElem?_getD, this]

/-- Writing consecutive positions of a flat vector. -/
theorem setRange [Zero α] (o : Nat) (g : Nat → α) :
    ∀ (s c : Nat) (d : List α), o + s + c ≤ d.length →
      ((List.range' s c).foldl (fun d row => d.set (row + o) (g row)) d).length = d.length ∧
      ∀ k, ((List.range' s c).foldl (fun d row => d.set (row + o) (g row)) d).getD k 0 =
        if o + s ≤ k ∧ k < o + s + c then g (k - o) else d.getD k 0 := by
  intro s c
  induction c with
  | zero => intro d _; exact ⟨by simp, fun k => by rw [if_neg (by omega)]; rfl⟩
  | succ c ih =>
    intro d hd
    obtain ⟨h1, h2⟩ := ih d (by omega)
    rw [← List.range'_append_1 (s := s) (m := c) (n := 1), List.foldl_append]
    simp only [List.range'_one, List.foldl_cons, List.foldl_nil, List.length_set]
    refine ⟨h1, fun k => ?_⟩
    rw [getD_set _ _ _ _ (by rw [h1]; omega), h2]
    by_cases ha : k = s + c + o
    · rw [if_pos ha, if_pos (by omega), ha]; congr 1; omega
    · rw [if_neg ha]
      by_cases hb : o + s ≤ k ∧ k < o + s + c
      · rw [if_pos hb, if_pos (by omega)]
      · rw [if_neg hb, if_neg (by omega)]

theorem setRange0 [Zero α] (o : Nat) (g : Nat → α) (c : Nat) (d : List α) (h : o + c ≤ d.length) :
      ((List.range c).foldl (fun d row => d.set (row + o) (g row)) d).length = d.length ∧
      ∀ k, ((List.range c).foldl (fun d row => d.set (row + o) (g row)) d).getD k 0 =
        if o ≤ k ∧ k < o + c then g (k - o) else d.getD k 0 := by
  rw [List.range_eq_range']
  have := setRange o g 0 c d (by omega)
  simpa using this

end Mat
end Verif.DenseMatrix
