import Verif.Structure.Lemmas
import Mathlib.Tactic.IntervalCases
import Mathlib.Tactic.FieldSimp

/-!
# What the predefined structures are
-/

namespace Verif.Structure

open Spec

/-! ## C153: the pores of the inverse woodpile -/

/-- The test for a pore is true exactly within the radius of some corner or centre of
the lattice. No bound on the radius is needed. -/
theorem pore_iff (xz y : ℝ) {a c : ℝ} (ha : 0 < a) (hc : 0 < c) (r : ℝ) :
    insideIWPore xz y a c r ↔ InPore a c r (xz, y) :=
  pore xz y ha hc r

/-- The new woodpile: the feature value exactly in the pores along the third or along
the first direction, with the layouts a quarter of the period apart. -/
theorem woodpile_iff (o : Options) (x y z : ℝ) :
    (Woodpile (1414 / 1000) 1 (3111 / 10000) (1414 / 1000 / 8) x y z →
      jelmerStructure o [x, y, z] .woodpileNew = some (getEpsilonArg 1 o.feature)) ∧
    (¬ Woodpile (1414 / 1000) 1 (3111 / 10000) (1414 / 1000 / 8) x y z →
      jelmerStructure o [x, y, z] .woodpileNew = some (getEpsilonArg (121 / 10) o.background)) := by
  have e1 : y + -1 * (1414 / 1000 / 8 : ℝ) = y - 1414 / 1000 / 8 := by ring
  have e2 : y + 1 * (1414 / 1000 / 8 : ℝ) = y - 1414 / 1000 / 8 + 1414 / 1000 / 4 := by ring
  have hp : (insideIWPore x (y + -1 * (1414 / 1000 / 8)) (1414 / 1000) 1 (3111 / 10000) ∨
      insideIWPore z (y + 1 * (1414 / 1000 / 8)) (1414 / 1000) 1 (3111 / 10000)) ↔
      Woodpile (1414 / 1000) 1 (3111 / 10000) (1414 / 1000 / 8) x y z := by
    rw [e1, e2, pore _ _ (by norm_num) (by norm_num), pore _ _ (by norm_num) (by norm_num),
      Woodpile]
  simp only [jelmerStructure, List.getElem?_cons_zero, List.getElem?_cons_succ,
    Option.bind_eq_bind, Option.bind_some]
  exact ⟨fun h => if_pos (hp.2 h), fun h => if_neg (fun hh => h (hp.1 hh))⟩

/-- The new woodpile has the periods of its cell and of the centre of the cell, and
exchanging the first and third coordinate while turning the second around leaves it as
it is. -/
theorem woodpile_symmetric (o : Options) :
    let f := fun x y z => jelmerStructure o [x, y, z] .woodpileNew
    Period f 1 0 0 ∧ Period f 0 (1414 / 1000) 0 ∧ Period f 0 0 1 ∧
      Period f (1 / 2) (1414 / 1000 / 2) (1 / 2) ∧ ∀ x y z, f z (-y) x = f x y z := by
  intro f
  have key : ∀ x y z x' y' z',
      (InPore (1414 / 1000) 1 (3111 / 10000) (x, y + -(1414 / 1000 / 8)) ∨
        InPore (1414 / 1000) 1 (3111 / 10000) (z, y + 1414 / 1000 / 8)) =
      (InPore (1414 / 1000) 1 (3111 / 10000) (x', y' + -(1414 / 1000 / 8)) ∨
        InPore (1414 / 1000) 1 (3111 / 10000) (z', y' + 1414 / 1000 / 8)) →
      f x y z = f x' y' z' := by
    intro x y z x' y' z' h
    have e : ∀ y : ℝ, y - 1414 / 1000 / 8 = y + -(1414 / 1000 / 8) := fun y => by ring
    have e' : ∀ y : ℝ, y - 1414 / 1000 / 8 + 1414 / 1000 / 4 = y + 1414 / 1000 / 8 :=
      fun y => by ring
    have h1 := woodpile_iff o x y z
    have h2 := woodpile_iff o x' y' z'
    rw [Woodpile, e', e, h] at h1
    rw [Woodpile, e', e] at h2
    by_cases hh : InPore (1414 / 1000) 1 (3111 / 10000) (x', y' + -(1414 / 1000 / 8)) ∨
        InPore (1414 / 1000) 1 (3111 / 10000) (z', y' + 1414 / 1000 / 8)
    · exact (h1.1 hh).trans (h2.1 hh).symm
    · exact (h1.2 hh).trans (h2.2 hh).symm
  have sh : ∀ u v x y, Centre (1414 / 1000) 1 (u, v) → ∀ d : ℝ,
      InPore (1414 / 1000) 1 (3111 / 10000) (x + u, y + v + d) =
      InPore (1414 / 1000) 1 (3111 / 10000) (x, y + d) := by
    intro u v x y h d
    have := inPore_shift (1414 / 1000) 1 (3111 / 10000) u v h (x, y + d)
    simp only at this
    rw [← propext this]
    congr 2
    ring
  have c0 : Centre (1414 / 1000) 1 ((0 : ℝ), (0 : ℝ)) := ⟨0, 0, Or.inl (by simp)⟩
  have c1 : Centre (1414 / 1000) 1 ((1 : ℝ), (0 : ℝ)) := ⟨1, 0, Or.inl (by simp)⟩
  have c2 : Centre (1414 / 1000) 1 ((0 : ℝ), (1414 / 1000 : ℝ)) := ⟨0, 1, Or.inl (by simp)⟩
  have c3 : Centre (1414 / 1000) 1 ((1 / 2 : ℝ), (1414 / 1000 / 2 : ℝ)) :=
    ⟨0, 0, Or.inr (by norm_num)⟩
  refine ⟨?_, ?_, ?_, ?_, ?_⟩
  · intro x y z
    apply key
    rw [sh _ _ _ _ c1, sh 0 0 _ _ c0]
  · intro x y z
    apply key
    rw [sh _ _ _ _ c2, sh _ _ _ _ c2]
  · intro x y z
    apply key
    rw [sh 0 0 _ _ c0, sh _ _ _ _ c1]
  · intro x y z
    apply key
    rw [sh _ _ _ _ c3, sh _ _ _ _ c3]
  · intro x y z
    apply key
    have m := fun q => propext (inPore_mirror (1414 / 1000) 1 (3111 / 10000) q)
    have m1 := m (z, y + 1414 / 1000 / 8)
    have m2 := m (x, y + -(1414 / 1000 / 8))
    simp only at m1 m2
    rw [← m1, ← m2, or_comm]
    congr 3 <;> ring

/-- An example: the origin shifted by an eighth lies in a pore, its value is the one of
the feature. -/
example (o : Options) : jelmerStructure o [0, 1414 / 1000 / 8, 0] .woodpileNew
    = some (getEpsilonArg 1 o.feature) := by
  refine (woodpile_iff o _ _ _).1 (Or.inl ?_)
  exact ⟨(0, 0), ⟨0, 0, Or.inl (by simp)⟩, by norm_num⟩

/-- And a point of the background. -/
example (o : Options) : ¬ InPore (1414 / 1000) 1 (3111 / 10000) (1 / 2, (0 : ℝ)) := by
  rw [← pore_iff _ _ (by norm_num) (by norm_num)]
  unfold insideIWPore
  have h1 : ⌊(1 / 2 : ℝ) / 1⌋ = 0 := by rw [Int.floor_eq_iff]; norm_num
  have h2 : ⌊(0 : ℝ) / (1414 / 1000)⌋ = 0 := by simp
  rw [h1, h2]
  norm_num

/-! ## C154: the values of the structures -/

/-- Numbers above five are refused and every structure has exactly one number. -/
theorem structure_number :
    (∀ k : Kind, ∃! n, structureFromInt n = some k) ∧
      ∀ n, structureFromInt n = none ↔ 5 < n := by
  have h : ∀ n k, structureFromInt n = some k → n ≤ 5 := by
    intro n k h
    unfold structureFromInt at h
    split at h <;> simp_all
  refine ⟨fun k => ?_, fun n => ?_⟩
  swap
  · constructor
    · intro hn
      by_contra hc
      have : n ≤ 5 := by omega
      interval_cases n <;> simp_all [structureFromInt]
    · intro hn
      cases hk : structureFromInt n with
      | none => rfl
      | some k => have := h n k hk; omega
  cases k
  · refine ⟨0, rfl, fun n hn => ?_⟩
    have := h n _ hn
    interval_cases n <;> simp_all [structureFromInt]
  · refine ⟨1, rfl, fun n hn => ?_⟩
    have := h n _ hn
    interval_cases n <;> simp_all [structureFromInt]
  · refine ⟨2, rfl, fun n hn => ?_⟩
    have := h n _ hn
    interval_cases n <;> simp_all [structureFromInt]
  · refine ⟨3, rfl, fun n hn => ?_⟩
    have := h n _ hn
    interval_cases n <;> simp_all [structureFromInt]
  · refine ⟨4, rfl, fun n hn => ?_⟩
    have := h n _ hn
    interval_cases n <;> simp_all [structureFromInt]
  · refine ⟨5, rfl, fun n hn => ?_⟩
    have := h n _ hn
    interval_cases n <;> simp_all [structureFromInt]

/-- In three dimensions every structure has a value everywhere; it is positive if the
options that are used are positive, and with both options equal it is that value. -/
theorem value_positive (o : Options) (k : Kind) (x y z : ℝ)
    (hb : ∀ v, o.background = some v → 0 < v) (hf : ∀ v, o.feature = some v → 0 < v) :
    ∃ v, jelmerStructure o [x, y, z] k = some v ∧ 0 < v ∧
      ((∀ w, o.background = some w → o.feature = some w → v = w)) := by
  have hB : ∀ d : ℝ, 0 < d → 0 < getEpsilonArg d o.background := by
    intro d hd
    cases h : o.background with
    | none => simpa [getEpsilonArg] using hd
    | some v => simpa [getEpsilonArg] using hb v h
  have hF : ∀ d : ℝ, 0 < d → 0 < getEpsilonArg d o.feature := by
    intro d hd
    cases h : o.feature with
    | none => simpa [getEpsilonArg] using hd
    | some v => simpa [getEpsilonArg] using hf v h
  have wb : ∀ d w : ℝ, o.background = some w → getEpsilonArg d o.background = w := by
    intro d w h; simp [h, getEpsilonArg]
  have wf : ∀ d w : ℝ, o.feature = some w → getEpsilonArg d o.feature = w := by
    intro d w h; simp [h, getEpsilonArg]
  cases k <;> simp only [jelmerStructure, List.getElem?_cons_zero, List.getElem?_cons_succ,
    Option.bind_eq_bind, Option.bind_some]
  · exact ⟨_, rfl, hB _ (by norm_num), fun w h _ => wb _ w h⟩
  all_goals
    split
    · exact ⟨_, rfl, hF _ (by norm_num), fun w _ h => wf _ w h⟩
    · exact ⟨_, rfl, hB _ (by norm_num), fun w h _ => wb _ w h⟩

/-- Bragg stack, cylinder and square: which region has which option. In the square the
option of the feature is the one of the frame, that of the background the one of the
hole in the middle. -/
theorem regions (o : Options) (x y : ℝ) (rest : List ℝ) :
    (x < 1 / 2 → jelmerStructure o (x :: y :: rest) .braggStack
      = some (getEpsilonArg 1 o.feature)) ∧
    (1 / 2 ≤ x → jelmerStructure o (x :: y :: rest) .braggStack
      = some (getEpsilonArg 1 o.background)) ∧
    ((x - 1 / 2) ^ 2 + (y - 1 / 2) ^ 2 ≤ (1 / 5) ^ 2 →
      jelmerStructure o (x :: y :: rest) .cylinder = some (getEpsilonArg 13 o.feature)) ∧
    ((1 / 5) ^ 2 < (x - 1 / 2) ^ 2 + (y - 1 / 2) ^ 2 →
      jelmerStructure o (x :: y :: rest) .cylinder = some (getEpsilonArg 1 o.background)) ∧
    (x ∈ Set.Icc (1 / 10) (9 / 10) → y ∈ Set.Icc (1 / 10) (9 / 10) →
      jelmerStructure o (x :: y :: rest) .squareHole = some (getEpsilonArg 13 o.background)) ∧
    (x ∉ Set.Icc (1 / 10) (9 / 10) ∨ y ∉ Set.Icc (1 / 10) (9 / 10) →
      jelmerStructure o (x :: y :: rest) .squareHole = some (getEpsilonArg 1 o.feature)) := by
  simp only [jelmerStructure, List.getElem?_cons_zero, List.getElem?_cons_succ,
    Option.bind_eq_bind, Option.bind_some, Set.mem_Icc]
  refine ⟨?_, ?_, ?_, ?_, ?_, ?_⟩
  · intro h; rw [if_pos h]
  · intro h; rw [if_neg (not_lt.2 h)]
  · intro h; rw [if_pos (by nlinarith)]
  · intro h; rw [if_neg (by nlinarith)]
  · rintro ⟨h1, h2⟩ ⟨h3, h4⟩
    rw [if_neg]
    rintro (h | h | h | h) <;> linarith
  · intro h
    rw [if_pos]
    by_contra hc
    simp only [not_or, not_lt] at hc
    rcases h with h | h
    · exact h ⟨hc.1, hc.2.1⟩
    · exact h ⟨hc.2.2.1, hc.2.2.2⟩

/-- Without options the Bragg stack and the old woodpile are vacuum everywhere. -/
theorem default_vacuum (x y z : ℝ) :
    jelmerStructure ⟨none, none⟩ [x, y, z] .braggStack = some 1 ∧
    jelmerStructure ⟨none, none⟩ [x, y, z] .woodpileOld = some 1 := by
  constructor <;> simp [jelmerStructure, getEpsilonArg]

/-- The other structures have a contrast without options. -/
theorem default_contrast :
    ∃ p q : List ℝ, p.length = 3 ∧ q.length = 3 ∧
      (jelmerStructure ⟨none, none⟩ p .cylinder ≠ jelmerStructure ⟨none, none⟩ q .cylinder) ∧
      (jelmerStructure ⟨none, none⟩ p .squareHole
        ≠ jelmerStructure ⟨none, none⟩ q .squareHole) := by
  refine ⟨[1 / 2, 1 / 2, 0], [0, 0, 0], rfl, rfl, ?_, ?_⟩
  · rw [(regions _ _ _ _).2.2.1 (by norm_num), (regions _ _ _ _).2.2.2.1 (by norm_num)]
    norm_num [getEpsilonArg]
  · rw [(regions _ _ _ _).2.2.2.2.1 (by norm_num) (by norm_num),
      (regions _ _ _ _).2.2.2.2.2 (Or.inl (by norm_num))]
    norm_num [getEpsilonArg]

/-- The old woodpile agrees on opposite faces of its cell. -/
theorem old_periodic (o : Options) (x y z : ℝ) :
    jelmerStructure o [0, y, z] .woodpileOld
      = jelmerStructure o [707 / 1000, y, z] .woodpileOld ∧
    jelmerStructure o [x, 0, z] .woodpileOld = jelmerStructure o [x, 1, z] .woodpileOld ∧
    jelmerStructure o [x, y, 0] .woodpileOld
      = jelmerStructure o [x, y, 707 / 1000] .woodpileOld := by
  have key : ∀ x y z x' y' z' : ℝ, (insideOld x y z ↔ insideOld x' y' z') →
      jelmerStructure o [x, y, z] .woodpileOld = jelmerStructure o [x', y', z'] .woodpileOld := by
    intro x y z x' y' z' h
    simp only [jelmerStructure, List.getElem?_cons_zero, List.getElem?_cons_succ,
      Option.bind_eq_bind, Option.bind_some]
    by_cases hh : insideOld x' y' z'
    · rw [if_pos hh, if_pos (h.2 hh)]
    · rw [if_neg hh, if_neg (fun q => hh (h.1 q))]
  refine ⟨key _ _ _ _ _ _ ?_, key _ _ _ _ _ _ ?_, key _ _ _ _ _ _ ?_⟩ <;> unfold insideOld
  · constructor
    · rintro (h | h | h | h | h | h | h | h)
      · exact Or.inl h
      · exact Or.inr (Or.inl h)
      · exact Or.inr (Or.inr (Or.inl h))
      · exact Or.inr (Or.inr (Or.inr (Or.inl h)))
      · exact Or.inr (Or.inr (Or.inr (Or.inr (Or.inl h))))
      · exfalso; nlinarith [sq_nonneg (y - 3 / 4)]
      · exact Or.inr (Or.inr (Or.inr (Or.inr (Or.inr (Or.inr (Or.inr (by linarith)))))))
      · exfalso; nlinarith [sq_nonneg (y - 1 / 4)]
    · rintro (h | h | h | h | h | h | h | h)
      · exact Or.inl h
      · exact Or.inr (Or.inl h)
      · exact Or.inr (Or.inr (Or.inl h))
      · exact Or.inr (Or.inr (Or.inr (Or.inl h)))
      · exact Or.inr (Or.inr (Or.inr (Or.inr (Or.inl h))))
      · exfalso; nlinarith [sq_nonneg (y - 3 / 4)]
      · exfalso; nlinarith [sq_nonneg (y - 1 / 4)]
      · exact Or.inr (Or.inr (Or.inr (Or.inr (Or.inr (Or.inr (Or.inl (by linarith)))))))
  · constructor
    · rintro (h | h | h | h | h | h | h | h)
      · exfalso; nlinarith [sq_nonneg (z - 707 / 2000)]
      · exact Or.inr (Or.inr (Or.inl (by linarith)))
      · exfalso; nlinarith [sq_nonneg (z - 707 / 1000)]
      · exact Or.inr (Or.inr (Or.inr (Or.inr (Or.inl (by linarith)))))
      · exfalso; nlinarith [sq_nonneg z]
      · exfalso; nlinarith [sq_nonneg (x - 707 / 2000)]
      · exfalso; nlinarith [sq_nonneg x]
      · exfalso; nlinarith [sq_nonneg (x - 707 / 1000)]
    · rintro (h | h | h | h | h | h | h | h)
      · exfalso; nlinarith [sq_nonneg (z - 707 / 2000)]
      · exfalso; nlinarith [sq_nonneg (z - 707 / 1000)]
      · exact Or.inr (Or.inl (by linarith))
      · exfalso; nlinarith [sq_nonneg z]
      · exact Or.inr (Or.inr (Or.inr (Or.inl (by linarith))))
      · exfalso; nlinarith [sq_nonneg (x - 707 / 2000)]
      · exfalso; nlinarith [sq_nonneg x]
      · exfalso; nlinarith [sq_nonneg (x - 707 / 1000)]
  · constructor
    · rintro (h | h | h | h | h | h | h | h)
      · exfalso; nlinarith [sq_nonneg (y - 1 / 2)]
      · exfalso; nlinarith [sq_nonneg y]
      · exfalso; nlinarith [sq_nonneg (y - 1)]
      · exact Or.inr (Or.inl (by linarith))
      · exact Or.inr (Or.inr (Or.inl (by linarith)))
      · exact Or.inr (Or.inr (Or.inr (Or.inr (Or.inr (Or.inl h)))))
      · exact Or.inr (Or.inr (Or.inr (Or.inr (Or.inr (Or.inr (Or.inl h))))))
      · exact Or.inr (Or.inr (Or.inr (Or.inr (Or.inr (Or.inr (Or.inr h))))))
    · rintro (h | h | h | h | h | h | h | h)
      · exfalso; nlinarith [sq_nonneg (y - 1 / 2)]
      · exact Or.inr (Or.inr (Or.inr (Or.inl (by linarith))))
      · exact Or.inr (Or.inr (Or.inr (Or.inr (Or.inl (by linarith)))))
      · exfalso; nlinarith [sq_nonneg y]
      · exfalso; nlinarith [sq_nonneg (y - 1)]
      · exact Or.inr (Or.inr (Or.inr (Or.inr (Or.inr (Or.inl h)))))
      · exact Or.inr (Or.inr (Or.inr (Or.inr (Or.inr (Or.inr (Or.inl h))))))
      · exact Or.inr (Or.inr (Or.inr (Or.inr (Or.inr (Or.inr (Or.inr h))))))

/-- In two dimensions both woodpiles read a coordinate the point does not have; the
other structures have a value. -/
theorem planar (o : Options) (k : Kind) (x y : ℝ) :
    jelmerStructure o [x, y] k = none ↔ k = .woodpileOld ∨ k = .woodpileNew := by
  cases k <;> simp [jelmerStructure] <;> split <;> simp

/-- The value of an element is that at the image of its centre; dimensions other than
two and three are refused. -/
theorem element_value (o : Options) (k : Kind) (dimension : ℕ) (center : List ℝ)
    (toPhysical : List ℝ → List ℝ) :
    (dimension = 2 ∨ dimension = 3 →
      createElementInfo o k dimension center toPhysical
        = jelmerStructure o (toPhysical center) k) ∧
    (dimension ≠ 2 → dimension ≠ 3 →
      createElementInfo o k dimension center toPhysical = none) := by
  constructor
  · intro h; rw [createElementInfo, if_pos h]
  · intro h1 h2; rw [createElementInfo, if_neg (by rintro (h | h) <;> contradiction)]

/-! ## C155: filtering and comparing frequencies -/

/-- Filtering keeps, in their order, exactly the frequencies that are not below the
minimum; NaN values go only if asked for. -/
theorem filter_keeps (minimum : ℝ) (removeNaN : Bool) (levels : List (List (Option ℝ))) :
    (filterResults minimum removeNaN levels).length = levels.length ∧
    ∀ i (h : i < levels.length), ∃ l, (filterResults minimum removeNaN levels)[i]? = some l ∧
      l.Sublist levels[i] ∧
      (∀ f : ℝ, l.count (some f) = if f < minimum then 0 else levels[i].count (some f)) ∧
      l.count none = if removeNaN then 0 else levels[i].count none := by
  refine ⟨by simp [filterResults], fun i h => ?_⟩
  refine ⟨filterLoop minimum removeNaN levels[i] 0, by simp [filterResults, h], ?_, ?_, ?_⟩
  · rw [filterLoop_eq]; simp
  · intro f
    rw [filterLoop_eq]
    simp only [List.take_zero, List.drop_zero, List.nil_append]
    split
    · rename_i hf
      rw [List.count_eq_zero]
      simp [dropped, hf]
    · rename_i hf
      rw [List.count_filter]
      simpa [dropped] using hf
  · rw [filterLoop_eq]
    simp only [List.take_zero, List.drop_zero, List.nil_append]
    split
    · rename_i hf
      rw [List.count_eq_zero]
      simp [dropped, hf]
    · rename_i hf
      rw [List.count_filter]
      simpa [dropped] using hf

/-- Filtering twice is filtering once. -/
theorem filter_twice (minimum : ℝ) (removeNaN : Bool) (levels : List (List (Option ℝ))) :
    filterResults minimum removeNaN (filterResults minimum removeNaN levels)
      = filterResults minimum removeNaN levels := by
  simp only [filterResults, List.map_map]
  congr 1
  funext l
  simp [filterLoop_eq, List.filter_filter]

/-- The error table: if the errors of a frequency on two consecutive levels are `C h ^ p`
for sizes `h` and `h / 2` the printed factor is `2 ^ p`. -/
theorem factor_rate (theoretical : List ℝ) (levels : List (List ℝ)) (i j p : ℕ) (C h : ℝ)
    (hC : C ≠ 0) (hh : h ≠ 0) (l l' : List ℝ) (hl : levels[i]? = some l)
    (hl' : levels[i + 1]? = some l') (t f f' : ℝ) (ht : theoretical[j]? = some t)
    (hf : l[j]? = some f) (hf' : l'[j]? = some f') (e : |f - t| = C * h ^ p)
    (e' : |f' - t| = C * (h / 2) ^ p) :
    factor (errors theoretical levels) (i + 1) j = some (2 ^ p) := by
  unfold factor errors
  simp [hl, hl', List.getElem?_zipWith, ht, hf, hf', e, e']
  rw [div_pow]
  field_simp

/-- The first level has no factor, nor has a frequency one of the two levels lacks. -/
theorem factor_missing (theoretical : List ℝ) (levels : List (List ℝ)) (i j : ℕ) :
    factor (errors theoretical levels) 0 j = none ∧
    (∀ l l', levels[i]? = some l → levels[i + 1]? = some l' →
      (factor (errors theoretical levels) (i + 1) j = none ↔
        l.length ≤ j ∨ l'.length ≤ j ∨ theoretical.length ≤ j)) := by
  constructor
  · simp [factor]
  · intro l l' h h'
    unfold factor errors
    simp only [Nat.add_eq_zero_iff, one_ne_zero, and_false, if_false, Nat.add_sub_cancel,
      List.getElem?_map, h, h', Option.map_some, Option.bind_eq_bind, Option.bind_some,
      Option.bind_eq_none_iff, List.getElem?_zipWith]
    rcases lt_or_ge j l.length with a | a <;> rcases lt_or_ge j l'.length with b | b <;>
      rcases lt_or_ge j theoretical.length with c | c <;>
      simp_all [not_le]

/-- An example of the filter. -/
example : filterResults 1 false [[some 0, none, some 2]] = [[none, some 2]] := by
  simp [filterResults, filterLoop_eq, dropped]

end Verif.Structure
