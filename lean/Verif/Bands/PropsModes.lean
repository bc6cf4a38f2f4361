import Verif.Bands.PropsBragg

set_option linter.all false

/-! # Lines of Bragg stacks (C124) -/
namespace Verif.Bands.Bragg

/-- The lines after adding modes in this order. -/
def added (l x1 x2 : ℝ) (ms : List MultiMode) : LineSet := ms.foldl LineSet.addLine (LineSet.empty l x1 x2)

theorem foldl_added (ms : List MultiMode) : ∀ s : LineSet, (ms.foldl LineSet.addLine s).multiModes = s.multiModes ++ ms ∧
    (ms.foldl LineSet.addLine s).totalNumberOfLines =
      s.totalNumberOfLines + (ms.map fun m => m.teModes + m.tmModes).sum ∧
    (ms.foldl LineSet.addLine s).l = s.l ∧ (ms.foldl LineSet.addLine s).x1 = s.x1 ∧
    (ms.foldl LineSet.addLine s).x2 = s.x2 := by
  induction ms with
  | nil => intro s; simp
  | cons m ms ih =>
    intro s
    obtain ⟨h1, h2, h3, h4, h5⟩ := ih (s.addLine m)
    rw [List.foldl_cons, h1, h2, h3, h4, h5]
    refine ⟨by simp [LineSet.addLine], by simp [LineSet.addLine]; omega, rfl, rfl, rfl⟩

theorem findModeLoop_all (ms : List MultiMode) :
    (List.range (ms.map fun m => m.teModes + m.tmModes).sum).map (findModeLoop ms) =
      (ms.flatMap fun m => (List.range (m.teModes + m.tmModes)).map fun j => (m, j)).map some := by
  induction ms with
  | nil => rfl
  | cons m ms ih =>
    rw [List.map_cons, List.sum_cons, List.range_add, List.map_append, List.flatMap_cons, List.map_append, ← ih]
    congr 1
    · rw [List.map_map]
      apply List.map_congr_left
      intro j hj
      simp only [Function.comp]
      rw [findModeLoop, if_pos (List.mem_range.1 hj)]
    · rw [List.map_map]
      apply List.map_congr_left
      intro j hj
      simp only [Function.comp]
      rw [findModeLoop, if_neg (by omega), Nat.add_sub_cancel_left]

theorem findModeLoop_end (ms : List MultiMode) : ∀ n, (ms.map fun m => m.teModes + m.tmModes).sum ≤ n →
    findModeLoop ms n = none := by
  induction ms with
  | nil => intros; rfl
  | cons m ms ih =>
    intro n hn
    rw [List.map_cons, List.sum_cons] at hn
    rw [findModeLoop, if_neg (by omega)]
    exact ih _ (by omega)

/-- **C124**. For every list of modes: there are as many lines as the modes have roots, and going through the lines in
order gives, for each mode, its TE roots in order and then its TM roots in order, each once, at the wave vector between
the two ends. From the number of lines on there is none, although the assertion admits the first of these numbers. -/
theorem lines_enumerate (l x1 x2 : ℝ) (ms : List MultiMode) (t : ℝ) :
    (added l x1 x2 ms).totalNumberOfLines = (ms.map fun m => m.teModes + m.tmModes).sum ∧
    ((List.range (added l x1 x2 ms).totalNumberOfLines).map fun i => (added l x1 x2 ms).rootArguments i t) =
      (ms.flatMap fun m =>
        (List.range m.teModes).map (fun j => (![x1 + t * (x2 - x1), m.x + t * l, m.y], j, false)) ++
        (List.range m.tmModes).map (fun j => (![x1 + t * (x2 - x1), m.x + t * l, m.y], j, true))).map some ∧
    ∀ i, (added l x1 x2 ms).totalNumberOfLines ≤ i → (added l x1 x2 ms).rootArguments i t = none := by
  obtain ⟨h1, h2, h3, h4, h5⟩ := foldl_added ms (LineSet.empty l x1 x2)
  have h1' : (added l x1 x2 ms).multiModes = ms := h1
  have h2' : (added l x1 x2 ms).totalNumberOfLines = (ms.map fun m => m.teModes + m.tmModes).sum := by
    rw [added, h2]; simp [LineSet.empty]
  have h3' : (added l x1 x2 ms).l = l := h3
  have h4' : (added l x1 x2 ms).x1 = x1 := h4
  have h5' : (added l x1 x2 ms).x2 = x2 := h5
  refine ⟨h2', ?_, ?_⟩
  · have hfind : ∀ i ∈ List.range (ms.map fun m => m.teModes + m.tmModes).sum,
        (added l x1 x2 ms).findMode i = findModeLoop ms i := by
      intro i hi
      rw [LineSet.findMode, h1', h2', if_pos (List.mem_range.1 hi).le]
    let arg : MultiMode × Nat → (Fin 3 → ℝ) × Nat × Bool := fun p =>
      (![x1 + t * (x2 - x1), p.1.x + t * l, p.1.y],
        if p.2 ≥ p.1.teModes then p.2 - p.1.teModes else p.2, decide (p.2 ≥ p.1.teModes))
    have e : (List.range (added l x1 x2 ms).totalNumberOfLines).map (fun i => (added l x1 x2 ms).rootArguments i t) =
        ((List.range (ms.map fun m => m.teModes + m.tmModes).sum).map (findModeLoop ms)).map (Option.map arg) := by
      rw [h2', List.map_map]
      apply List.map_congr_left
      intro i hi
      simp only [Function.comp]
      rw [LineSet.rootArguments, hfind i hi]
      rcases findModeLoop ms i with _ | ⟨m, j⟩
      · rfl
      · simp only [Option.bind_some, Option.map_some, h3', h4', h5', arg, Option.some.injEq, Prod.mk.injEq, and_true]
        funext c
        fin_cases c <;> rfl
    rw [e, findModeLoop_all, List.map_map]
    have e2 : (Option.map arg) ∘ some = some ∘ arg := rfl
    rw [e2, ← List.map_map]
    congr 1
    rw [List.map_flatMap]
    congr 1
    funext m
    rw [List.map_map, List.range_add, List.map_append, List.map_map]
    congr 1
    · apply List.map_congr_left
      intro j hj
      have hj := List.mem_range.1 hj
      simp only [Function.comp, arg]
      rw [if_neg (by omega), decide_eq_false (by omega)]
    · apply List.map_congr_left
      intro j hj
      simp only [Function.comp, arg]
      rw [if_pos (by omega), decide_eq_true (by omega), Nat.add_sub_cancel_left]
  · intro i hi
    rw [LineSet.rootArguments, LineSet.findMode, h1', findModeLoop_end ms i (by rw [← h2']; exact hi)]
    simp

/-- The functions only see the length of the transverse part. -/
theorem value_transverse (eps1 eps2 fraction ω : ℝ) (k k' : Fin 3 → ℝ) (h0 : k 0 = k' 0)
    (h : k 1 * k 1 + k 2 * k 2 = k' 1 * k' 1 + k' 2 * k' 2) :
    valueTE eps1 eps2 fraction ω k = valueTE eps1 eps2 fraction ω k' ∧
    valueTM eps1 eps2 fraction ω k = valueTM eps1 eps2 fraction ω k' := by
  have hn : ∀ eps, normal eps ω k = normal eps ω k' := by
    intro eps
    rw [normal, normal]
    congr 1
    linarith
  have hv : ∀ a b c, value k fraction a b c = value k' fraction a b c := by
    intro a b c
    rw [value, value, h0]
  rw [valueTE, valueTE, valueTM, valueTM]
  simp only [hn, h, hv]
  trivial

/-- **C124**. For every two ends (with transverse parts that are equal or at least `10⁻¹⁰` apart) and reciprocal vector
`G`: at each position on the way the functions of the line of `G` are those of the wave vector minus `G`. -/
theorem line_wave (eps1 eps2 fraction ω : ℝ) (p₁ p₂ : Fin 3 → ℝ) (G : Fin 2 → ℝ) (t : ℝ) (x y l : ℝ) (kdir : Fin 2 → ℝ)
    (hd : direction p₁ p₂ = (l, kdir)) (hG : coordinates p₁ kdir G = (x, y))
    (hfar : (p₁ 1 = p₂ 1 ∧ p₁ 2 = p₂ 2) ∨ 1 / 10 ^ 10 < l) :
    valueTE eps1 eps2 fraction ω ![p₁ 0 + t * (p₂ 0 - p₁ 0), x + t * l, y] =
      valueTE eps1 eps2 fraction ω ![p₁ 0 + t * (p₂ 0 - p₁ 0), p₁ 1 + t * (p₂ 1 - p₁ 1) - G 0,
        p₁ 2 + t * (p₂ 2 - p₁ 2) - G 1] ∧
    valueTM eps1 eps2 fraction ω ![p₁ 0 + t * (p₂ 0 - p₁ 0), x + t * l, y] =
      valueTM eps1 eps2 fraction ω ![p₁ 0 + t * (p₂ 0 - p₁ 0), p₁ 1 + t * (p₂ 1 - p₁ 1) - G 0,
        p₁ 2 + t * (p₂ 2 - p₁ 2) - G 1] := by
  apply value_transverse
  · rfl
  · rw [direction] at hd
    rw [coordinates] at hG
    simp only [Fin.sum_univ_two, Prod.mk.injEq, Fin.succ_zero_eq_one, show (Fin.succ 1 : Fin 3) = 2 from rfl] at hd hG
    obtain ⟨hl, hk⟩ := hd
    obtain ⟨hx, hy⟩ := hG
    have hyy : y * y = (p₁ 1 - G 0 - x * kdir 0) * (p₁ 1 - G 0 - x * kdir 0) +
        (p₁ 2 - G 1 - x * kdir 1) * (p₁ 2 - G 1 - x * kdir 1) := by
      rw [← hy, hx, Real.mul_self_sqrt]
      exact add_nonneg (mul_self_nonneg _) (mul_self_nonneg _)
    have hkl : l * kdir 0 = p₂ 1 - p₁ 1 ∧ l * kdir 1 = p₂ 2 - p₁ 2 ∧
        (kdir 0 * kdir 0 + kdir 1 * kdir 1 = 1 ∨ (kdir 0 = 0 ∧ kdir 1 = 0 ∧ l = 0)) := by
      rw [hl] at hk
      rcases hfar with ⟨h1, h2⟩ | h
      · have l0 : l = 0 := by rw [← hl, h1, h2]; simp
        rw [if_neg (by rw [l0]; norm_num)] at hk
        rw [← hk]
        simp [h1, h2, l0]
      · have hl0 : 0 < l := lt_trans (by norm_num) h
        rw [if_pos (by rw [abs_of_pos hl0]; exact h)] at hk
        rw [← hk]
        have hll : l * l = (p₂ 1 - p₁ 1) * (p₂ 1 - p₁ 1) + (p₂ 2 - p₁ 2) * (p₂ 2 - p₁ 2) := by
          rw [← hl, Real.mul_self_sqrt]
          exact add_nonneg (mul_self_nonneg _) (mul_self_nonneg _)
        simp only [Fin.succ_zero_eq_one, show (Fin.succ 1 : Fin 3) = 2 from rfl]
        refine ⟨by field_simp, by field_simp, Or.inl ?_⟩
        field_simp
        linarith
    obtain ⟨k0, k1, hn⟩ := hkl
    simp only [Matrix.cons_val_one, Matrix.cons_val_zero, Matrix.cons_val]
    rw [hyy, ← hx, ← k0, ← k1]
    rcases hn with hn | ⟨a, b, c⟩
    · rw [hx]
      have hx' : x = (p₁ 1 - G 0) * kdir 0 + (p₁ 2 - G 1) * kdir 1 := hx.symm
      linear_combination (x ^ 2 - t ^ 2 * l ^ 2) * hn + (2 * x + 2 * t * l) * hx'
    · rw [a, b, c]; ring

/-- A case: two modes with three and one lines, and a wave vector moving across the layers. -/
example : (added 1 0 0 [⟨0, 0, 2, 1, 1⟩, ⟨1, 0, 0, 1, 4⟩]).totalNumberOfLines = 4 ∧
    (1 / 10 ^ 10 : ℝ) < (direction ![0, 0, 0] ![0, 3, 4]).1 := by
  constructor
  · rfl
  · rw [direction]
    simp only [Fin.sum_univ_two]
    apply Real.lt_sqrt_of_sq_lt
    simp [Fin.succ]
    norm_num

end Verif.Bands.Bragg
