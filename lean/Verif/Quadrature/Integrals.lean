import Verif.Quadrature.Spec
import Mathlib.MeasureTheory.Integral.Pi
import Mathlib.MeasureTheory.Integral.Prod
import Mathlib.Analysis.SpecialFunctions.Integrals.Basic
import Mathlib.MeasureTheory.Integral.IntervalIntegral.IntegrationByParts
import Mathlib.Tactic.Ring
import Mathlib.Tactic.FieldSimp
import Mathlib.Tactic.Linarith
import Mathlib.Tactic.NormNum
set_option linter.all false

/-! # Integrals of monomials over the reference shapes -/
namespace Verif.Quadrature
open RefGeometry MeasureTheory intervalIntegral
open scoped Nat

/-- Integration over a set, one coordinate at a time. -/
theorem slice {n : Nat} (i : Fin (n + 1)) (S : Set (Fin (n + 1) → ℝ)) (hS : MeasurableSet S)
    (f : (Fin (n + 1) → ℝ) → ℝ) (hf : IntegrableOn f S) :
    ∫ x in S, f x = ∫ t : ℝ, ∫ y in {y : Fin n → ℝ | i.insertNth t y ∈ S},
      f (i.insertNth t y) := by
  have hmp := (volume_preserving_piFinSuccAbove (fun _ : Fin (n + 1) => ℝ) i)
  have hmp' := hmp.symm
  rw [← MeasureTheory.integral_indicator hS, ← hmp'.integral_comp' (g := S.indicator f)]
  have hint : Integrable (fun z : ℝ × (Fin n → ℝ) => S.indicator f
      ((MeasurableEquiv.piFinSuccAbove (fun _ : Fin (n + 1) => ℝ) i).symm z)) := by
    have h := (integrable_indicator_iff hS).2 hf
    exact (hmp'.integrable_comp_emb (MeasurableEquiv.measurableEmbedding _)).2 h
  rw [Measure.volume_eq_prod, integral_prod _ hint]
  congr 1
  funext t
  have hm : MeasurableSet {y : Fin n → ℝ | i.insertNth t y ∈ S} := by
    have : Measurable (fun y : Fin n → ℝ =>
        (MeasurableEquiv.piFinSuccAbove (fun _ : Fin (n + 1) => ℝ) i).symm (t, y)) :=
      (MeasurableEquiv.measurable _).comp (by fun_prop)
    exact this hS
  rw [← MeasureTheory.integral_indicator hm]
  congr 1

/-- The Beta integral over `[0, s]`. -/
theorem beta (a m : Nat) (s : ℝ) :
    ∫ t in (0 : ℝ)..s, t ^ a * (s - t) ^ m = s ^ (a + m + 1) * (a ! * m !) / (a + m + 1)! := by
  induction m generalizing a with
  | zero =>
    simp only [pow_zero, mul_one, integral_pow, Nat.add_zero, Nat.factorial_zero, Nat.cast_one]
    rw [Nat.factorial_succ]
    have : (a ! : ℝ) ≠ 0 := by positivity
    have : ((a : ℝ) + 1) ≠ 0 := by positivity
    push_cast
    rw [zero_pow (by omega)]
    field_simp
    simp
  | succ m ih =>
    have hu : ∀ x ∈ Set.uIcc 0 s, HasDerivAt (fun t : ℝ => (s - t) ^ (m + 1))
        (-((m + 1 : ℕ) : ℝ) * (s - x) ^ m) x := by
      intro x _
      have h := ((hasDerivAt_id x).const_sub s).pow (m + 1)
      refine h.congr_deriv ?_
      simp
      ring
    have hv : ∀ x ∈ Set.uIcc 0 s, HasDerivAt (fun t : ℝ => t ^ (a + 1) / (a + 1)) (x ^ a) x := by
      intro x _
      have h := ((hasDerivAt_id x).pow (a + 1)).div_const ((a : ℝ) + 1)
      refine h.congr_deriv ?_
      have : ((a : ℝ) + 1) ≠ 0 := by positivity
      simp
      field_simp
    have hp := integral_mul_deriv_eq_deriv_mul hu hv
      (Continuous.intervalIntegrable (by fun_prop) _ _)
      (Continuous.intervalIntegrable (by fun_prop) _ _)
    have e1 : ∫ t in (0 : ℝ)..s, t ^ a * (s - t) ^ (m + 1) =
        ∫ t in (0 : ℝ)..s, (s - t) ^ (m + 1) * t ^ a := by
      congr 1; funext t; ring
    have e2 : ∫ x in (0 : ℝ)..s, -((m + 1 : ℕ) : ℝ) * (s - x) ^ m * (x ^ (a + 1) / (a + 1)) =
        -(((m + 1 : ℕ) : ℝ) / (a + 1)) * ∫ t in (0 : ℝ)..s, t ^ (a + 1) * (s - t) ^ m := by
      rw [← intervalIntegral.integral_const_mul]
      congr 1; funext t
      ring
    rw [e1, hp, e2, ih]
    have h0 : ((a : ℝ) + 1) ≠ 0 := by positivity
    have h1 : ((a + 1 + m + 1)! : ℝ) ≠ 0 := by positivity
    rw [show a + (m + 1) + 1 = a + 1 + m + 1 by omega]
    rw [Nat.factorial_succ a, Nat.factorial_succ m]
    simp only [sub_self, zero_pow (Nat.succ_ne_zero _), zero_mul, zero_div, mul_zero]
    push_cast
    field_simp
    ring

/-- The simplex with corner `0` and edges of length `s`. -/
def simplex (n : Nat) (s : ℝ) : Set (Fin n → ℝ) := {x | (∀ i, 0 ≤ x i) ∧ ∑ i, x i ≤ s}

theorem simplex_compact (n : Nat) (s : ℝ) : IsCompact (simplex n s) := by
  have hcl : IsClosed (simplex n s) := by
    have : simplex n s = (⋂ i, {x | 0 ≤ x i}) ∩ {x | ∑ i, x i ≤ s} := by
      ext x; simp [simplex]
    rw [this]
    exact (isClosed_iInter fun i => isClosed_le continuous_const (continuous_apply i)).inter
      (isClosed_le (by fun_prop) continuous_const)
  refine (isCompact_Icc (a := (fun _ => 0 : Fin n → ℝ)) (b := fun _ => s)).of_isClosed_subset hcl ?_
  rintro x ⟨h0, h1⟩
  refine ⟨fun i => h0 i, fun i => ?_⟩
  exact (Finset.single_le_sum (fun j _ => h0 j) (Finset.mem_univ i)).trans h1

theorem mono_continuous {n : Nat} (a : Fin n → Nat) :
    Continuous (fun x : Fin n → ℝ => ∏ i, x i ^ a i) := by fun_prop

theorem simplex_integral (n : Nat) (a : Fin n → Nat) (s : ℝ) (hs : 0 ≤ s) :
    ∫ x in simplex n s, ∏ i, x i ^ a i =
      s ^ ((∑ i, a i) + n) * (∏ i, ((a i)! : ℝ)) / ((∑ i, a i) + n)! := by
  induction n generalizing s with
  | zero =>
    have : simplex 0 s = Set.univ := by
      ext x; simp [simplex, hs]
    have hv : (volume (Set.univ : Set (Fin 0 → ℝ))) = 1 := by
      rw [← Set.pi_univ Set.univ, volume_pi_pi]; simp
    simp [this, Measure.real, hv]
  | succ n ih =>
    have hint : IntegrableOn (fun x : Fin (n + 1) → ℝ => ∏ i, x i ^ a i) (simplex (n + 1) s) :=
      (mono_continuous a).continuousOn.integrableOn_compact (simplex_compact _ _)
    rw [slice 0 _ (simplex_compact _ _).measurableSet _ hint]
    have hsl : ∀ t : ℝ, (∫ y in {y : Fin n → ℝ | (0 : Fin (n + 1)).insertNth t y ∈ simplex (n + 1) s},
        ∏ i, ((0 : Fin (n + 1)).insertNth t y : Fin (n + 1) → ℝ) i ^ a i) =
        Set.indicator (Set.Icc 0 s) (fun t => t ^ a 0 *
          ((s - t) ^ ((∑ i : Fin n, a i.succ) + n) * (∏ i : Fin n, ((a i.succ)! : ℝ)) /
            ((∑ i : Fin n, a i.succ) + n)!)) t := by
      intro t
      by_cases ht : t ∈ Set.Icc 0 s
      · rw [Set.indicator_of_mem ht, ← ih (fun i => a i.succ) (s - t) (by linarith [ht.2]),
          ← MeasureTheory.integral_const_mul]
        have hset : {y : Fin n → ℝ | (0 : Fin (n + 1)).insertNth t y ∈ simplex (n + 1) s} =
            simplex n (s - t) := by
          ext y
          simp only [simplex, Set.mem_ofPred_eq, Fin.forall_fin_succ, Fin.sum_univ_succ,
            Fin.insertNth_zero, Fin.cons_zero, Fin.cons_succ, cast_eq]
          constructor
          · rintro ⟨⟨_, h⟩, h'⟩; exact ⟨h, by linarith⟩
          · rintro ⟨h, h'⟩; exact ⟨⟨ht.1, h⟩, by linarith⟩
        rw [hset]
        congr 1
        funext y
        simp [Fin.prod_univ_succ, Fin.insertNth_zero]
      · rw [Set.indicator_of_notMem ht]
        have hset : {y : Fin n → ℝ | (0 : Fin (n + 1)).insertNth t y ∈ simplex (n + 1) s} = ∅ := by
          ext y
          simp only [simplex, Set.mem_ofPred_eq, Fin.forall_fin_succ, Fin.sum_univ_succ,
            Fin.insertNth_zero, Fin.cons_zero, Fin.cons_succ, cast_eq, Set.mem_empty_iff_false, iff_false]
          rintro ⟨⟨h0, h⟩, h'⟩
          apply ht
          refine ⟨h0, ?_⟩
          have := Finset.sum_nonneg (fun i (_ : i ∈ Finset.univ) => h i)
          linarith
        rw [hset]; simp
    simp_rw [hsl]
    rw [MeasureTheory.integral_indicator measurableSet_Icc, integral_Icc_eq_integral_Ioc,
      ← intervalIntegral.integral_of_le hs]
    have e : ∀ t : ℝ, t ^ a 0 * ((s - t) ^ ((∑ i : Fin n, a i.succ) + n) *
          (∏ i : Fin n, ((a i.succ)! : ℝ)) / ((∑ i : Fin n, a i.succ) + n)!) =
        (∏ i : Fin n, ((a i.succ)! : ℝ)) / ((∑ i : Fin n, a i.succ) + n)! *
          (t ^ a 0 * (s - t) ^ ((∑ i : Fin n, a i.succ) + n)) := by intro t; ring
    simp_rw [e]
    rw [intervalIntegral.integral_const_mul, beta]
    rw [Fin.prod_univ_succ, Fin.sum_univ_succ]
    rw [show a 0 + ∑ i : Fin n, a i.succ + (n + 1) = a 0 + (∑ i : Fin n, a i.succ + n) + 1 by omega]
    have h1 : (((∑ i : Fin n, a i.succ) + n)! : ℝ) ≠ 0 := by positivity
    field_simp

/-- The integral of `t ^ n` over `[-1, 1]`. -/
noncomputable def lineMoment (n : Nat) : ℝ := if n % 2 = 0 then 2 / (n + 1) else 0

theorem line_integral (n : Nat) (s : ℝ) :
    ∫ t in (-s)..s, t ^ n = s ^ (n + 1) * lineMoment n := by
  rw [integral_pow, lineMoment]
  split
  · rename_i h
    rw [Odd.neg_pow (by rw [Nat.odd_iff]; omega)]
    ring
  · rename_i h
    rw [Even.neg_pow (by rw [Nat.even_iff]; omega)]
    ring

theorem box_integral (n : Nat) (a : Fin n → Nat) (s : ℝ) (hs : 0 ≤ s) :
    ∫ x in Set.pi Set.univ (fun _ : Fin n => Set.Icc (-s) s), ∏ i, x i ^ a i =
      ∏ i, (s ^ (a i + 1) * lineMoment (a i)) := by
  rw [volume_pi, Measure.restrict_pi_pi,
    integral_fintype_prod_eq_prod (μ := fun _ : Fin n => (volume : Measure ℝ).restrict (Set.Icc (-s) s))
      (f := fun i t => t ^ a i)]
  refine Finset.prod_congr rfl fun i _ => ?_
  rw [integral_Icc_eq_integral_Ioc, ← intervalIntegral.integral_of_le (by linarith), line_integral]

theorem triangle_body : body triangleG = simplex 2 1 := by
  ext x
  simp only [body, triangleG, simplex, Set.mem_ofPred_eq, Fin.forall_fin_two, Fin.sum_univ_two]
  constructor
  · rintro ⟨h0, h1, h2, h3⟩; exact ⟨⟨h0, h2⟩, by linarith⟩
  · rintro ⟨⟨h0, h2⟩, h3⟩; exact ⟨h0, by linarith, h2, by linarith⟩

theorem tetrahedron_body : body tetrahedronG = simplex 3 1 := by
  ext x
  simp only [body, tetrahedronG, simplex, Set.mem_ofPred_eq, Fin.forall_fin_succ,
    Fin.sum_univ_three, Fin.succ_zero_eq_one, Fin.succ_one_eq_two]
  constructor
  · rintro ⟨h0, h1, h2, h3, h4, h5⟩
    exact ⟨⟨h0, h2, h4, fun i => i.elim0⟩, by linarith⟩
  · rintro ⟨⟨h0, h2, h4, -⟩, h5⟩
    exact ⟨h0, by linarith, h2, by linarith, h4, by linarith⟩

theorem triangle_integral (a : Fin 2 → Nat) :
    ∫ x in body triangleG, ∏ i, x i ^ a i = (a 0)! * (a 1)! / (a 0 + a 1 + 2)! := by
  rw [triangle_body, simplex_integral 2 a 1 zero_le_one]
  simp [Fin.sum_univ_two, Fin.prod_univ_two]

theorem tetrahedron_integral (a : Fin 3 → Nat) :
    ∫ x in body tetrahedronG, ∏ i, x i ^ a i =
      (a 0)! * (a 1)! * (a 2)! / (a 0 + a 1 + a 2 + 3)! := by
  rw [tetrahedron_body, simplex_integral 3 a 1 zero_le_one]
  simp [Fin.sum_univ_three, Fin.prod_univ_three]

theorem line_body : body lineG = Set.pi Set.univ (fun _ : Fin 1 => Set.Icc (-1 : ℝ) 1) := by
  ext x
  simp only [body, lineG, Set.mem_ofPred_eq, Set.mem_pi, Set.mem_univ, forall_const, Set.mem_Icc,
    Fin.forall_fin_one, ge_iff_le]

theorem square_body : body squareG = Set.pi Set.univ (fun _ : Fin 2 => Set.Icc (-1 : ℝ) 1) := by
  ext x
  simp only [body, squareG, Set.mem_ofPred_eq, Set.mem_pi, Set.mem_univ, forall_const, Set.mem_Icc,
    Fin.forall_fin_two, ge_iff_le, and_assoc]

theorem cube_body : body cubeG = Set.pi Set.univ (fun _ : Fin 3 => Set.Icc (-1 : ℝ) 1) := by
  ext x
  simp only [body, cubeG, Set.mem_ofPred_eq, Set.mem_pi, Set.mem_univ, forall_const, Set.mem_Icc,
    Fin.forall_fin_succ, ge_iff_le, and_assoc, IsEmpty.forall_iff, and_true]
  rfl

theorem hypercube_body :
    body hypercubeG = Set.pi Set.univ (fun _ : Fin 4 => Set.Icc (-1 : ℝ) 1) := by
  ext x
  simp only [body, hypercubeG, Set.mem_ofPred_eq, Set.mem_pi, Set.mem_univ, forall_const, Set.mem_Icc,
    Fin.forall_fin_succ, ge_iff_le, and_assoc, IsEmpty.forall_iff, and_true]
  rfl

theorem unit_box (n : Nat) (a : Fin n → Nat) :
    ∫ x in Set.pi Set.univ (fun _ : Fin n => Set.Icc (-1 : ℝ) 1), ∏ i, x i ^ a i =
      ∏ i, lineMoment (a i) := by
  rw [box_integral n a 1 zero_le_one]; simp

theorem box_compact (n : Nat) (s : ℝ) :
    IsCompact (Set.pi Set.univ (fun _ : Fin n => Set.Icc (-s) s)) :=
  isCompact_univ_pi fun _ => isCompact_Icc

theorem prism_compact : IsCompact (body prismG) := by
  have hcl : IsClosed (body prismG) := by
    simp only [body, prismG, ge_iff_le, Set.ofPred_and]
    repeat' apply IsClosed.inter
    all_goals exact isClosed_le (by fun_prop) (by fun_prop)
  refine (box_compact 3 1).of_isClosed_subset hcl ?_
  rintro x ⟨h0, h1, h2, h3, h4, h5⟩
  intro i _
  fin_cases i <;> simp <;> constructor <;> linarith

theorem pyramid_compact : IsCompact (body pyramidG) := by
  have hcl : IsClosed (body pyramidG) := by
    simp only [body, pyramidG, ge_iff_le, Set.ofPred_and]
    repeat' apply IsClosed.inter
    all_goals exact isClosed_le (by fun_prop) (by fun_prop)
  refine (box_compact 3 1).of_isClosed_subset hcl ?_
  rintro x ⟨h0, h1, h2, h3⟩
  rw [abs_le] at h2 h3
  intro i _
  fin_cases i <;> simp <;> constructor <;> linarith

theorem prism_integral (a : Fin 3 → Nat) :
    ∫ x in body prismG, ∏ i, x i ^ a i =
      (a 0)! * (a 1)! / (a 0 + a 1 + 2)! * lineMoment (a 2) := by
  have hint : IntegrableOn (fun x : Fin 3 → ℝ => ∏ i, x i ^ a i) (body prismG) :=
    (mono_continuous a).continuousOn.integrableOn_compact prism_compact
  rw [slice (2 : Fin 3) _ prism_compact.measurableSet _ hint]
  have hsl : ∀ t : ℝ, (∫ y in {y : Fin 2 → ℝ | (2 : Fin 3).insertNth t y ∈ body prismG},
      ∏ i, ((2 : Fin 3).insertNth t y : Fin 3 → ℝ) i ^ a i) =
      Set.indicator (Set.Icc (-1 : ℝ) 1) (fun t : ℝ => t ^ a 2 *
        (((a 0)! : ℝ) * (a 1)! / (a 0 + a 1 + 2)!)) t := by
    intro t
    have c0 : ∀ y : Fin 2 → ℝ, ((2 : Fin 3).insertNth t y : Fin 3 → ℝ) 0 = y 0 := fun y => rfl
    have c1 : ∀ y : Fin 2 → ℝ, ((2 : Fin 3).insertNth t y : Fin 3 → ℝ) 1 = y 1 := fun y => rfl
    have c2 : ∀ y : Fin 2 → ℝ, ((2 : Fin 3).insertNth t y : Fin 3 → ℝ) 2 = t := fun y => rfl
    have hset : {y : Fin 2 → ℝ | (2 : Fin 3).insertNth t y ∈ body prismG} =
        if t ∈ Set.Icc (-1 : ℝ) 1 then body triangleG else ∅ := by
      ext y
      simp only [body, prismG, triangleG, Set.mem_ofPred_eq, c0, c1, c2]
      split
      · rename_i h
        simp only [Set.mem_ofPred_eq]
        exact ⟨fun hh => hh.2.2, fun hh => ⟨h.1, h.2, hh⟩⟩
      · rename_i h
        simp only [Set.mem_empty_iff_false, iff_false]
        exact fun hh => h ⟨hh.1, hh.2.1⟩
    rw [hset]
    by_cases ht : t ∈ Set.Icc (-1 : ℝ) 1
    · rw [Set.indicator_of_mem ht, if_pos ht]
      have := triangle_integral (fun i : Fin 2 => a (Fin.castSucc i))
      simp only [Fin.castSucc_zero, Fin.castSucc_one] at this
      rw [← this, ← MeasureTheory.integral_const_mul]
      congr 1
      funext y
      rw [Fin.prod_univ_three, c0, c1, c2, Fin.prod_univ_two]
      simp only [Fin.castSucc_zero, Fin.castSucc_one]
      ring
    · rw [Set.indicator_of_notMem ht, if_neg ht]; simp
  simp_rw [hsl]
  rw [MeasureTheory.integral_indicator measurableSet_Icc, integral_Icc_eq_integral_Ioc,
    ← intervalIntegral.integral_of_le (by norm_num), intervalIntegral.integral_mul_const,
    line_integral]
  simp only [one_pow, one_mul]
  ring

theorem pyramid_integral (a : Fin 3 → Nat) :
    ∫ x in body pyramidG, ∏ i, x i ^ a i =
      lineMoment (a 0) * lineMoment (a 1) *
        ((a 2)! * (a 0 + a 1 + 2)! / (a 0 + a 1 + a 2 + 3)!) := by
  have hint : IntegrableOn (fun x : Fin 3 → ℝ => ∏ i, x i ^ a i) (body pyramidG) :=
    (mono_continuous a).continuousOn.integrableOn_compact pyramid_compact
  rw [slice (2 : Fin 3) _ pyramid_compact.measurableSet _ hint]
  have hsl : ∀ t : ℝ, (∫ y in {y : Fin 2 → ℝ | (2 : Fin 3).insertNth t y ∈ body pyramidG},
      ∏ i, ((2 : Fin 3).insertNth t y : Fin 3 → ℝ) i ^ a i) =
      Set.indicator (Set.Icc 0 1) (fun t => lineMoment (a 0) * lineMoment (a 1) *
        (t ^ a 2 * (1 - t) ^ (a 0 + a 1 + 2))) t := by
    intro t
    have c0 : ∀ y : Fin 2 → ℝ, ((2 : Fin 3).insertNth t y : Fin 3 → ℝ) 0 = y 0 := fun y => rfl
    have c1 : ∀ y : Fin 2 → ℝ, ((2 : Fin 3).insertNth t y : Fin 3 → ℝ) 1 = y 1 := fun y => rfl
    have c2 : ∀ y : Fin 2 → ℝ, ((2 : Fin 3).insertNth t y : Fin 3 → ℝ) 2 = t := fun y => rfl
    have hset : {y : Fin 2 → ℝ | (2 : Fin 3).insertNth t y ∈ body pyramidG} =
        if t ∈ Set.Icc (0 : ℝ) 1 then
          Set.pi Set.univ (fun _ : Fin 2 => Set.Icc (-(1 - t)) (1 - t)) else ∅ := by
      ext y
      simp only [body, pyramidG, Set.mem_ofPred_eq, c0, c1, c2, abs_le]
      split
      · rename_i h
        simp only [Set.mem_pi, Set.mem_univ, forall_const, Fin.forall_fin_two, Set.mem_Icc]
        exact ⟨fun hh => hh.2.2, fun hh => ⟨h.1, h.2, hh⟩⟩
      · rename_i h
        simp only [Set.mem_empty_iff_false, iff_false]
        exact fun hh => h ⟨hh.1, hh.2.1⟩
    rw [hset]
    by_cases ht : t ∈ Set.Icc (0 : ℝ) 1
    · rw [Set.indicator_of_mem ht, if_pos ht]
      have := box_integral 2 (fun i : Fin 2 => a (Fin.castSucc i)) (1 - t) (by linarith [ht.2])
      simp only [Fin.prod_univ_two, Fin.castSucc_zero, Fin.castSucc_one] at this
      have e : lineMoment (a 0) * lineMoment (a 1) * (t ^ a 2 * (1 - t) ^ (a 0 + a 1 + 2)) =
          t ^ a 2 * ((1 - t) ^ (a 0 + 1) * lineMoment (a 0) *
            ((1 - t) ^ (a 1 + 1) * lineMoment (a 1))) := by ring
      rw [e, ← this, ← MeasureTheory.integral_const_mul]
      congr 1
      funext y
      rw [Fin.prod_univ_three, c0, c1, c2]
      ring
    · rw [Set.indicator_of_notMem ht, if_neg ht]; simp
  simp_rw [hsl]
  rw [MeasureTheory.integral_indicator measurableSet_Icc, integral_Icc_eq_integral_Ioc,
    ← intervalIntegral.integral_of_le (by norm_num), intervalIntegral.integral_const_mul,
    beta]
  rw [one_pow, one_mul, show a 2 + (a 0 + a 1 + 2) + 1 = a 0 + a 1 + a 2 + 3 by omega]

end Verif.Quadrature
