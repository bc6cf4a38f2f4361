import Verif.Limiters.Spec
import Mathlib.Analysis.SpecialFunctions.Integrals.Basic
import Mathlib.Tactic.Linarith
import Mathlib.Tactic.FieldSimp
import Mathlib.Tactic.LinearCombination

/-! Helper lemmas for the limiters -/
set_option linter.all false
namespace Verif.Limiters

variable {n v : ℕ}

def Lq (l : List (ℝ × ℝ)) (f : ℝ → ℝ) : ℝ := (l.map fun q => q.1 * f q.2).sum

theorem Lq_smul (l : List (ℝ × ℝ)) (k : ℝ) (f : ℝ → ℝ) : Lq l (fun x => k * f x) = k * Lq l f := by
  induction l with
  | nil => simp [Lq]
  | cons a l ih =>
    simp only [Lq, List.map_cons, List.sum_cons] at ih ⊢
    rw [ih]; ring

theorem Lq_sum (l : List (ℝ × ℝ)) {ι : Type} (s : Finset ι) (f : ι → ℝ → ℝ) :
    Lq l (fun x => ∑ i ∈ s, f i x) = ∑ i ∈ s, Lq l (f i) := by
  induction l with
  | nil => simp [Lq]
  | cons a l ih =>
    simp only [Lq, List.map_cons, List.sum_cons] at ih ⊢
    rw [ih, Finset.sum_add_distrib, Finset.mul_sum]

theorem Lq_congr (l : List (ℝ × ℝ)) (f g : ℝ → ℝ) (h : ∀ q ∈ l, f q.2 = g q.2) : Lq l f = Lq l g := by
  unfold Lq
  congr 1
  apply List.map_congr_left
  intro q hq
  rw [h q hq]

theorem integrate_eq (S : Space n) (j : ℝ) (f : ℝ → ℝ) : S.integrate j f = j * Lq S.rule f := by
  unfold Space.integrate Lq
  induction S.rule with
  | nil => simp
  | cons a l ih =>
    simp only [List.map_cons, List.sum_cons]
    rw [ih]; ring

theorem average_eq {S : Space n} (A : Adequate S) {w : ℝ} (hw : 0 < w) (c : Fin n → ℝ) :
    S.average w c = mean S c := by
  unfold Space.average mean
  rw [integrate_eq, intervalIntegral.integral_finsetSum]
  · have h : Lq S.rule (S.value c) = ∑ i, ∫ x in (-1 : ℝ)..1, c i * S.phi i x := by
      show Lq S.rule (fun x => ∑ i, c i * S.phi i x) = _
      rw [Lq_sum]
      refine Finset.sum_congr rfl fun i _ => ?_
      rw [Lq_smul, intervalIntegral.integral_const_mul, ← A.exact i]
      rfl
    rw [h]
    field_simp
  · intro i _
    exact ((A.continuous i).const_smul (c i)).intervalIntegrable _ _

theorem mean_linear (S : Space n) (c : Fin n → ℝ) (a b : ℝ) (h : ∀ x, S.value c x = a + b * x) :
    mean S c = a := by
  have h' : ∀ x, ∑ i, c i * S.phi i x = a + b * x := h
  unfold mean
  simp only [h']
  have e := intervalIntegral.integral_add (μ := MeasureTheory.volume) (a := -1) (b := 1)
    (f := fun _ : ℝ => a) (g := fun x : ℝ => b * x)
    (by simp) ((continuous_const.mul continuous_id).intervalIntegrable _ _)
  rw [e, intervalIntegral.integral_const_mul, integral_id]
  simp
  ring

theorem mean_comb (S : Space n) (A : Adequate S) (c d : Fin n → ℝ) (a b : ℝ)
    (h : ∀ x, S.value d x = a + b * S.value c x) :
    mean S d = a + b * mean S c := by
  have h' : ∀ x, ∑ i, d i * S.phi i x = a + b * ∑ i, c i * S.phi i x := h
  unfold mean
  simp only [h']
  have hc : Continuous fun x => ∑ i, c i * S.phi i x :=
    continuous_finsetSum _ fun i _ => continuous_const.mul (A.continuous i)
  have e := intervalIntegral.integral_add (μ := MeasureTheory.volume) (a := -1) (b := 1)
    (f := fun _ : ℝ => a) (g := fun x : ℝ => b * ∑ i, c i * S.phi i x)
    (by simp) ((continuous_const.mul hc).intervalIntegrable _ _)
  rw [e, intervalIntegral.integral_const_mul]
  simp
  ring

theorem project_of {S : Space n} (A : Adequate S) {w : ℝ} (hw : 0 < w) (f : ℝ → ℝ) (c : Fin n → ℝ)
    (h : ∀ q ∈ S.rule, f q.2 = S.value c q.2) : S.project w f = some c := by
  set M' : Matrix (Fin n) (Fin n) ℝ :=
    Matrix.of fun i j => (S.rule.map fun q => q.1 * (S.phi i q.2 * S.phi j q.2)).sum with hM'
  have hM : (Matrix.of fun i j => S.integrate (w / 2) fun x => S.phi j x * S.phi i x :
      Matrix (Fin n) (Fin n) ℝ) = (w / 2) • M' := by
    ext i j
    rw [Matrix.smul_apply, Matrix.of_apply, integrate_eq, smul_eq_mul]
    congr 1
    show Lq S.rule _ = Lq S.rule fun x => S.phi i x * S.phi j x
    exact Lq_congr _ _ _ fun q _ => mul_comm _ _
  have hb : (fun i => S.integrate (w / 2) fun x => f x * S.phi i x) = ((w / 2) • M').mulVec c := by
    funext i
    rw [integrate_eq, Matrix.smul_mulVec, Pi.smul_apply, smul_eq_mul]
    congr 1
    show _ = ∑ j, M' i j * c j
    have : Lq S.rule (fun x => f x * S.phi i x)
        = Lq S.rule (fun x => ∑ j, c j * (S.phi i x * S.phi j x)) := by
      apply Lq_congr
      intro q hq
      rw [h q hq]
      unfold Space.value
      rw [Finset.sum_mul]
      exact Finset.sum_congr rfl fun j _ => by ring
    rw [this, Lq_sum]
    refine Finset.sum_congr rfl fun j _ => ?_
    rw [Lq_smul, mul_comm]
    rfl
  have hd : ((w / 2) • M').det ≠ 0 := by
    rw [Matrix.det_smul]
    exact mul_ne_zero (pow_ne_zero _ (by positivity)) A.mass
  unfold Space.project
  simp only []
  rw [hM, hb, if_neg hd, Matrix.mulVec_mulVec, Matrix.nonsing_inv_mul _ (IsUnit.mk0 _ hd),
    Matrix.one_mulVec]

theorem project_linear {S : Space n} (A : Adequate S) {w : ℝ} (hw : 0 < w) (a b : ℝ) :
    ∃ c, S.project w (fun x => a + b * x) = some c ∧ ∀ x, S.value c x = a + b * x := by
  obtain ⟨c, hc⟩ := A.linear a b
  exact ⟨c, project_of A hw _ c fun q _ => (hc q.2).symm, hc⟩

theorem project_const {S : Space n} (A : Adequate S) {w : ℝ} (hw : 0 < w) (a : ℝ) :
    ∃ c, S.project w (fun _ => a) = some c ∧ ∀ x, S.value c x = a := by
  obtain ⟨c, hc⟩ := A.linear a 0
  have hc' : ∀ x, S.value c x = a := fun x => by rw [Space.value, hc x]; ring
  exact ⟨c, project_of A hw _ c fun q _ => (hc' q.2).symm, hc'⟩

theorem project_comb {S : Space n} (A : Adequate S) {w : ℝ} (hw : 0 < w) (a b : ℝ) (u : Fin n → ℝ) :
    ∃ c, S.project w (fun x => a + b * (S.value u x - a)) = some c ∧
      ∀ x, S.value c x = a + b * (S.value u x - a) := by
  obtain ⟨d, hd⟩ := A.linear (a - b * a) 0
  have hc : ∀ x, S.value (fun i => d i + b * u i) x = a + b * (S.value u x - a) := by
    intro x
    have h1 := hd x
    unfold Space.value
    have : ∑ i, (d i + b * u i) * S.phi i x = ∑ i, d i * S.phi i x + b * ∑ i, u i * S.phi i x := by
      rw [Finset.mul_sum, ← Finset.sum_add_distrib]
      exact Finset.sum_congr rfl fun i _ => by ring
    rw [this, h1]; ring
  exact ⟨_, project_of A hw _ _ fun q _ => (hc q.2).symm, hc⟩

theorem foldl_min_le (g : ℝ × ℝ → ℝ) (l : List (ℝ × ℝ)) (m t : ℝ) :
    t ≤ l.foldl (fun m q => min m (g q)) m ↔ t ≤ m ∧ ∀ q ∈ l, t ≤ g q := by
  induction l generalizing m with
  | nil => simp
  | cons a l ih =>
    rw [List.foldl_cons, ih]
    simp only [le_min_iff, List.mem_cons, forall_eq_or_imp]
    tauto

theorem le_minimum (S : Space n) (c : Fin n → ℝ) (t : ℝ) :
    t ≤ S.minimum c ↔ ∀ x, Looked S x → t ≤ S.value c x := by
  unfold Space.minimum
  simp only []
  rw [foldl_min_le (fun q => S.value c q.2), le_min_iff]
  constructor
  · rintro ⟨⟨h1, h2⟩, h3⟩ x (rfl | rfl | ⟨q, hq, rfl⟩)
    · exact h1
    · exact h2
    · exact h3 q hq
  · intro h
    exact ⟨⟨h _ (Or.inl rfl), h _ (Or.inr (Or.inl rfl))⟩, fun q hq => h _ (Or.inr (Or.inr ⟨q, hq, rfl⟩))⟩

theorem minimum_lt (S : Space n) (c : Fin n → ℝ) (t : ℝ) :
    S.minimum c < t ↔ ∃ x, Looked S x ∧ S.value c x < t := by
  rw [← not_le, le_minimum]
  push Not
  rfl

theorem looked_inside {S : Space n} (A : Adequate S) {x : ℝ} (h : Looked S x) : -1 ≤ x ∧ x ≤ 1 := by
  rcases h with rfl | rfl | ⟨q, hq, rfl⟩
  · norm_num
  · norm_num
  · exact A.inside q hq

theorem averages_eq {S : Space n} (A : Adequate S) {w : ℝ} (hw : 0 < w) (u : Fin (v + 2) → Fin n → ℝ) :
    S.averages w u = if mean S (u 0) > -(1 / 10 ^ 16) then some (fun i => mean S (u i)) else none := by
  unfold Space.averages
  simp only [average_eq A hw]

/-- what `positiveLayer` answers, in terms of values -/
theorem positiveLayer_eq {S : Space n} (A : Adequate S) {minH w : ℝ} (hw : 0 < w)
    (u : Fin (v + 2) → Fin n → ℝ) :
    (minH ≤ S.minimum (u 0) ∧ positiveLayer S minH w u = some u) ∨
    (S.minimum (u 0) < minH ∧ mean S (u 0) ≤ -(1 / 10 ^ 16) ∧ positiveLayer S minH w u = none) ∨
    (S.minimum (u 0) < minH ∧ -(1 / 10 ^ 16) < mean S (u 0) ∧ ∃ h q : Fin n → ℝ,
      positiveLayer S minH w u = some (Function.update (Function.update u 0 h) 1 q) ∧
      ((mean S (u 0) < minH ∧ (∀ x, S.value h x = mean S (u 0)) ∧ ∀ x, S.value q x = 0) ∨
       (minH ≤ mean S (u 0) ∧ ∃ f : ℝ, f = (if S.value (u 0) 1 < S.value (u 0) (-1) then -1 else 1) ∧
        (∀ x, S.value h x = mean S (u 0) + min ((S.value (u 0) (-1) + S.value (u 0) 1 - 2 * minH) / 2)
          (mean S (u 0) - minH) * f * x) ∧
        ∀ x, S.value q x = mean S (u 1) + mean S (u 1) * f * x))) := by
  unfold positiveLayer
  by_cases h1 : minH ≤ S.minimum (u 0)
  · left; exact ⟨h1, if_pos h1⟩
  right
  have h1' : ¬ S.minimum (u 0) ≥ minH := h1
  rw [if_neg h1', averages_eq A hw]
  by_cases h2 : mean S (u 0) > -(1 / 10 ^ 16)
  · right
    rw [if_pos h2]
    refine ⟨lt_of_not_ge h1, h2, ?_⟩
    by_cases h3 : mean S (u 0) < minH
    · obtain ⟨h, hh, hh'⟩ := project_const A hw (mean S (u 0))
      obtain ⟨q, hq, hq'⟩ := project_const A hw 0
      refine ⟨h, q, ?_, Or.inl ⟨h3, hh', hq'⟩⟩
      simp only [Option.bind_eq_bind, Option.bind_some, if_pos h3, hh, hq]
      rfl
    · obtain ⟨h, hh, hh'⟩ := project_linear A hw (mean S (u 0))
        (min ((S.value (u 0) (-1) + S.value (u 0) 1 - 2 * minH) / 2) (mean S (u 0) - minH) *
          (if S.value (u 0) 1 < S.value (u 0) (-1) then -1 else 1))
      obtain ⟨q, hq, hq'⟩ := project_linear A hw (mean S (u 1))
        (mean S (u 1) * (if S.value (u 0) 1 < S.value (u 0) (-1) then -1 else 1))
      refine ⟨h, q, ?_, Or.inr ⟨not_lt.mp h3, _, rfl, hh', hq'⟩⟩
      simp only [Option.bind_eq_bind, Option.bind_some, if_neg h3, hh, hq]
      rfl
  · left
    rw [if_neg h2]
    exact ⟨lt_of_not_ge h1, not_lt.mp h2, rfl⟩

/-- what `squeezeLimiter` answers, in terms of values -/
theorem squeeze_eq {S : Space n} (A : Adequate S) {minH w : ℝ} (hw : 0 < w)
    (u : Fin (v + 2) → Fin n → ℝ) :
    (minH ≤ S.minimum (u 0) ∧ squeezeLimiter S minH w u = some u) ∨
    (S.minimum (u 0) < minH ∧ mean S (u 0) ≤ -(1 / 10 ^ 16) ∧ squeezeLimiter S minH w u = none) ∨
    (S.minimum (u 0) < minH ∧ minH ≤ mean S (u 0) ∧
      dischargeFactor (mean S (u 1)) (S.value (u 1) (minimumPoint S u)) = none ∧
      squeezeLimiter S minH w u = none) ∨
    (S.minimum (u 0) < minH ∧ -(1 / 10 ^ 16) < mean S (u 0) ∧ ∃ h q : Fin n → ℝ,
      squeezeLimiter S minH w u = some (Function.update (Function.update u 0 h) 1 q) ∧
      ((mean S (u 0) < minH ∧ (∀ x, S.value h x = mean S (u 0)) ∧ ∀ x, S.value q x = 0) ∨
       (minH ≤ mean S (u 0) ∧ ∃ f : ℝ,
        dischargeFactor (mean S (u 1)) (S.value (u 1) (minimumPoint S u)) = some f ∧
        (∀ x, S.value h x = mean S (u 0) + (mean S (u 0) - minH) / (mean S (u 0) - S.minimum (u 0)) *
          (S.value (u 0) x - mean S (u 0))) ∧
        ∀ x, S.value q x = mean S (u 1) + f * (S.value (u 1) x - mean S (u 1))))) := by
  unfold squeezeLimiter
  by_cases h1 : minH ≤ S.minimum (u 0)
  · left; exact ⟨h1, if_pos h1⟩
  right
  have h1' : ¬ S.minimum (u 0) ≥ minH := h1
  simp only []
  rw [if_neg h1', averages_eq A hw]
  by_cases h2 : mean S (u 0) > -(1 / 10 ^ 16)
  · right
    rw [if_pos h2]
    by_cases h3 : mean S (u 0) < minH
    · right
      obtain ⟨h, hh, hh'⟩ := project_const A hw (mean S (u 0))
      obtain ⟨q, hq, hq'⟩ := project_const A hw 0
      refine ⟨lt_of_not_ge h1, h2, h, q, ?_, Or.inl ⟨h3, hh', hq'⟩⟩
      simp only [Option.bind_eq_bind, Option.bind_some, if_pos h3, hh, hq]
      rfl
    · cases hf : dischargeFactor (mean S (u 1)) (S.value (u 1) (minimumPoint S u)) with
      | none =>
        left
        refine ⟨lt_of_not_ge h1, not_lt.mp h3, rfl, ?_⟩
        simp only [Option.bind_eq_bind, Option.bind_some, if_neg h3, hf, Option.bind_none]
      | some f =>
        right
        obtain ⟨h, hh, hh'⟩ := project_comb A hw (mean S (u 0))
          ((mean S (u 0) - minH) / (mean S (u 0) - S.minimum (u 0))) (u 0)
        obtain ⟨q, hq, hq'⟩ := project_comb A hw (mean S (u 1)) f (u 1)
        refine ⟨lt_of_not_ge h1, h2, h, q, ?_, Or.inr ⟨not_lt.mp h3, f, rfl, hh', hq'⟩⟩
        simp only [Option.bind_eq_bind, Option.bind_some, if_neg h3, hf, hh, hq]
        rfl
  · left
    rw [if_neg h2]
    exact ⟨lt_of_not_ge h1, not_lt.mp h2, rfl⟩

end Verif.Limiters
