import Verif.EVCompare.Model
import Mathlib.Data.List.Basic
import Mathlib.Tactic.Linarith

/-!
# When computed frequencies are accepted
-/

namespace Verif.EVCompare

theorem sorted_finite (l : List ℚ) : isSorted (l.map some) = true ↔ l.Pairwise (· ≤ ·) := by
  induction l with
  | nil => simp [isSorted]
  | cons a l ih =>
    cases l with
    | nil => simp [isSorted]
    | cons b l =>
      simp only [List.map_cons] at ih ⊢
      simp only [isSorted, Bool.and_eq_true, ih, less, Bool.not_eq_true', decide_eq_false_iff_not,
        not_lt]
      constructor
      · rintro ⟨h1, h2⟩
        refine List.Pairwise.cons ?_ h2
        intro c hc
        rcases List.mem_cons.1 hc with rfl | hc
        · exact h1
        · exact le_trans h1 (List.rel_of_pairwise_cons h2 hc)
      · intro h
        exact ⟨List.rel_of_pairwise_cons h (List.mem_cons_self), h.of_cons⟩

theorem drop_finite (thr : ℚ) (l : List ℚ) (h0 : ∀ x ∈ l, 0 ≤ x) (hs : l.Pairwise (· ≤ ·)) :
    (l.map some).dropWhile (numericalZero thr) = (l.filter (thr ≤ ·)).map some := by
  induction l with
  | nil => rfl
  | cons a l ih =>
    have ha := h0 a List.mem_cons_self
    rcases lt_or_ge a thr with h | h
    · rw [List.map_cons, List.dropWhile_cons_of_pos (by simp [numericalZero, ha, h]),
        ih (fun x hx => h0 x (List.mem_cons_of_mem _ hx)) hs.of_cons,
        List.filter_cons_of_neg (by simpa using h)]
    · rw [List.map_cons, List.dropWhile_cons_of_neg (by simp [numericalZero, ha, h]),
        List.filter_cons_of_pos (by simpa using h)]
      rw [List.map_cons]
      congr 1
      rw [List.filter_eq_self.2]
      intro x hx
      simpa using le_trans h (List.rel_of_pairwise_cons hs hx)

theorem same_finite (tol : ℚ) (l m : List ℚ) :
    same tol (l.map some) (m.map some) = true ↔ ∀ p ∈ l.zip m, |p.1 - p.2| < tol := by
  induction l generalizing m with
  | nil => simp [same]
  | cons a l ih =>
    cases m with
    | nil => simp [same]
    | cons b m =>
      simp only [List.map_cons, same, List.zip_cons_cons, List.forall_mem_cons]
      by_cases h : |a - b| < tol
      · rw [if_neg (by simpa [differs] using h), ih]
        exact ⟨fun k => ⟨h, k⟩, fun k => k.2⟩
      · rw [if_pos (by simpa [differs] using h)]
        simp [h]

theorem skip_finite (o : Options) (l : List ℚ) (h0 : ∀ x ∈ l, 0 ≤ x) :
    skipBad o (l.map some) = l.map some := by
  unfold skipBad
  split
  · cases l with
    | nil => rfl
    | cons a l =>
      rw [List.map_cons, List.dropWhile_cons_of_neg]
      simpa [bad] using h0 a List.mem_cons_self
  · rfl

/-! ## C162: accepting frequencies -/

/-- For frequencies that are numbers and not negative the result is accepted exactly if
it is sorted, enough of it is above the threshold for zero, and there it agrees with
the expected frequencies up to the tolerance, one by one as far as both go. -/
theorem accept_iff (errorEnds : Bool) (o : Options) (levels : List (List Freq)) (level : ℕ)
    (E R : List ℚ) (hl : levels[level]? = some (E.map some)) (hE : ∀ x ∈ E, 0 ≤ x)
    (hR : ∀ x ∈ R, 0 ≤ x) (hs : E.Pairwise (· ≤ ·))
    (hm : o.minimum ≤ (E.filter (o.zero ≤ ·)).length) :
    compareWithExpected errorEnds o (some levels) level (R.map some) = some true ↔
      R.Pairwise (· ≤ ·) ∧ o.minimum ≤ (R.filter (o.zero ≤ ·)).length ∧
      ∀ p ∈ (R.filter (o.zero ≤ ·)).zip (E.filter (o.zero ≤ ·)), |p.1 - p.2| < o.tol := by
  unfold compareWithExpected
  simp only [Option.bind_some, hl]
  rw [skip_finite o R hR, skip_finite o E hE]
  by_cases h1 : R.Pairwise (· ≤ ·)
  · have h1' := (sorted_finite R).2 h1
    have h2' := (sorted_finite E).2 hs
    rw [if_neg (by simp [h1']), if_neg (by simp [h2']), drop_finite o.zero R hR h1,
      drop_finite o.zero E hE hs, List.length_map, List.length_map, if_neg (by omega)]
    by_cases h3 : o.minimum ≤ (R.filter (o.zero ≤ ·)).length
    · rw [if_neg (by omega)]
      by_cases h4 : ∀ p ∈ (R.filter (o.zero ≤ ·)).zip (E.filter (o.zero ≤ ·)), |p.1 - p.2| < o.tol
      · rw [if_pos ((same_finite _ _ _).2 h4)]
        exact ⟨fun _ => ⟨h1, h3, h4⟩, fun _ => rfl⟩
      · rw [if_neg (by rw [same_finite]; exact h4)]
        constructor
        · intro h; cases errorEnds <;> simp at h
        · rintro ⟨-, -, h⟩; exact absurd h h4
    · rw [if_pos (by omega)]
      constructor
      · intro h; cases errorEnds <;> simp at h
      · rintro ⟨-, h, -⟩; exact absurd h h3
  · have h1' : isSorted (R.map some) = false := by
      rw [← Bool.not_eq_true, sorted_finite]; exact h1
    rw [if_pos h1']
    constructor
    · intro h; cases errorEnds <;> simp at h
    · rintro ⟨h, -⟩; exact absurd h h1

/-- If they are expected, leading NaNs and negative values do not matter. -/
theorem leading_ignored (errorEnds : Bool) (o : Options) (ho : o.nanOrNegative = true)
    (expected : Option (List (List Freq))) (level : ℕ) (b r : List Freq)
    (hb : ∀ x ∈ b, x = none ∨ ∃ y < (0 : ℚ), x = some y) :
    compareWithExpected errorEnds o expected level (b ++ r)
      = compareWithExpected errorEnds o expected level r := by
  have : skipBad o (b ++ r) = skipBad o r := by
    unfold skipBad
    rw [if_pos ho, if_pos ho, List.dropWhile_append_of_pos]
    intro x hx
    rcases hb x hx with rfl | ⟨y, hy, rfl⟩
    · rfl
    · simpa [bad] using hy
  unfold compareWithExpected
  rw [this]

/-- A level without expectation is accepted whatever was computed. -/
theorem unexpected_accepted (errorEnds : Bool) (o : Options) (levels : List (List Freq))
    (level : ℕ) (h : levels.length ≤ level) (r : List Freq) :
    compareWithExpected errorEnds o (some levels) level r = some true := by
  unfold compareWithExpected
  rw [Option.bind_some, List.getElem?_eq_none h]

/-- NaNs are not noticed: a result of NaNs only agrees with every expectation. -/
theorem nan_accepted (errorEnds : Bool) (o : Options) (ho : o.nanOrNegative = false)
    (levels : List (List Freq)) (level : ℕ) (E : List ℚ)
    (hl : levels[level]? = some (E.map some)) (hE : ∀ x ∈ E, 0 ≤ x) (hs : E.Pairwise (· ≤ ·))
    (hm : o.minimum ≤ (E.filter (o.zero ≤ ·)).length) (n : ℕ) (hn : o.minimum ≤ n) :
    compareWithExpected errorEnds o (some levels) level (List.replicate n none) = some true := by
  have h1 : ∀ n, isSorted (List.replicate n none) = true := by
    intro n
    induction n with
    | zero => rfl
    | succ n ih =>
      cases n with
      | zero => rfl
      | succ n =>
        rw [List.replicate_succ, List.replicate_succ, isSorted, ← List.replicate_succ, ih]
        rfl
  have h2 : ∀ n, (List.replicate n none).dropWhile (numericalZero o.zero)
      = List.replicate n (none : Freq) := by
    intro n
    cases n <;> simp [numericalZero, List.replicate_succ]
  have h3 : ∀ n (l : List Freq), same o.tol (List.replicate n none) l = true := by
    intro n
    induction n with
    | zero => intro l; rfl
    | succ n ih =>
      intro l
      cases l with
      | nil => rfl
      | cons b l => simpa [List.replicate_succ, same, differs] using ih l
  unfold compareWithExpected
  simp only [Option.bind_some, hl]
  rw [skip_finite o E hE]
  have e : skipBad o (List.replicate n none) = List.replicate n none := by
    unfold skipBad; simp [ho]
  rw [e, if_neg (by simp [h1]), if_neg (by simp [(sorted_finite E).2 hs]), h2,
    drop_finite o.zero E hE hs, List.length_map, if_neg (by omega), List.length_replicate,
    if_neg (by omega), if_pos (h3 _ _)]

/-! ## C163: running the levels -/

/-- If a run that is to fail on differences comes back, every level was accepted, and
the results of all levels are returned in order. -/
theorem run_all (errorEnds : Bool) (o : ℕ → Options) (levels : List (List Freq)) (start : ℕ)
    (results out : List (List Freq))
    (h : runFrom errorEnds true o (some levels) start results = some out) :
    out = results ∧ ∀ i r, results[i]? = some r →
      compareWithExpected errorEnds (o (start + i)) (some levels) (start + i) r = some true := by
  induction results generalizing start out with
  | nil => simp [runFrom] at h; simp [h]
  | cons r rest ih =>
    simp only [runFrom] at h
    cases hc : compareWithExpected errorEnds (o start) (some levels) start r with
    | none => simp [hc] at h
    | some c =>
      cases c with
      | false => simp [hc] at h
      | true =>
        simp only [hc, Bool.true_or, if_true, Option.map_eq_some_iff] at h
        obtain ⟨out', h1, rfl⟩ := h
        obtain ⟨h2, h3⟩ := ih _ _ h1
        refine ⟨by rw [h2], ?_⟩
        intro i s hi
        cases i with
        | zero =>
          simp only [List.getElem?_cons_zero, Option.some.injEq] at hi
          subst hi
          exact hc
        | succ i =>
          have := h3 i s (by simpa using hi)
          rw [show start + 1 + i = start + (i + 1) by omega] at this
          exact this

/-- With the standard error handler a run that is not to fail on differences does not
come back either: the switch has no effect. -/
theorem run_switch (fail : Bool) (o : ℕ → Options) (expected : Option (List (List Freq)))
    (start : ℕ) (results : List (List Freq)) :
    runFrom true fail o expected start results = runFrom true true o expected start results := by
  have key : ∀ o e l r, compareWithExpected true o e l r ≠ some false := by
    intro o e l r
    unfold compareWithExpected
    split
    · simp
    · simp only [if_true]
      repeat' split
      all_goals simp
  induction results generalizing start with
  | nil => rfl
  | cons r rest ih =>
    simp only [runFrom]
    cases expected with
    | none => simp only [ih]
    | some ex =>
      cases hc : compareWithExpected true (o start) (some ex) start r with
      | none => simp only
      | some c =>
        cases c with
        | false => exact absurd hc (key _ _ _ _)
        | true => simp only [Bool.true_or, if_true, ih]

/-- With a handler that returns, a run that is not to fail on differences comes back
with all results unless the expectation itself is unusable. -/
theorem run_lenient (o : ℕ → Options) (levels : List (List Freq)) (start : ℕ)
    (results : List (List Freq))
    (hc : ∀ i r, results[i]? = some r →
      compareWithExpected false (o (start + i)) (some levels) (start + i) r ≠ none) :
    runFrom false false o (some levels) start results = some results := by
  induction results generalizing start with
  | nil => rfl
  | cons r rest ih =>
    simp only [runFrom]
    have h0 := hc 0 r rfl
    rw [Nat.add_zero] at h0
    cases hr : compareWithExpected false (o start) (some levels) start r with
    | none => exact absurd hr h0
    | some c =>
      simp only [Bool.not_false, Bool.or_true, if_true]
      rw [ih (start + 1)]
      · rfl
      · intro i s hi
        have := hc (i + 1) s (by simpa using hi)
        rw [show start + (i + 1) = start + 1 + i by omega] at this
        exact this

/-- Examples: two expected frequencies and the threshold `1/10`. -/
example : compareWithExpected true ⟨false, 1 / 10, 2, 1 / 100⟩
    (some [[some 0, some 1, some 2]]) 0 [some (1 / 20), some (1001 / 1000), some 2] = some true := by
  decide +kernel

example : compareWithExpected true ⟨false, 1 / 10, 2, 1 / 100⟩
    (some [[some 0, some 1, some 2]]) 0 [some 1, some (21 / 10)] = none := by
  decide +kernel

example : compareWithExpected true ⟨false, 1 / 10, 2, 1 / 100⟩
    (some [[some 0, some 1, some 2]]) 0 [none, none] = some true := by
  decide +kernel

end Verif.EVCompare
