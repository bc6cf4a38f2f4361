import Verif.Quadrature.Check
import Mathlib.Tactic.IntervalCases
import Mathlib.Tactic.LinearCombination
set_option linter.all false
set_option maxRecDepth 100000

/-! # The rules with square roots -/
namespace Verif.Quadrature
open RefGeometry MeasureTheory
open scoped Nat

/-- All products of two lists of points, the first list running fastest. -/
noncomputable def prodPts {α β γ : Type} (g : α → β → γ) (A : List (ℝ × α)) (B : List (ℝ × β)) :
    List (ℝ × γ) :=
  B.flatMap fun r => A.map fun p => (p.1 * r.1, g p.2 r.2)

noncomputable def wsum {α : Type} (l : List (ℝ × α)) (f : α → ℝ) : ℝ := (l.map fun q => q.1 * f q.2).sum

theorem wsum_append {α : Type} (l m : List (ℝ × α)) (f : α → ℝ) :
    wsum (l ++ m) f = wsum l f + wsum m f := by simp [wsum]

theorem wsum_prod {α β γ : Type} (g : α → β → γ) (F : γ → ℝ) (F1 : α → ℝ) (F2 : β → ℝ)
    (h : ∀ a b, F (g a b) = F1 a * F2 b) (A : List (ℝ × α)) (B : List (ℝ × β)) :
    wsum (prodPts g A B) F = wsum A F1 * wsum B F2 := by
  induction B with
  | nil => simp [prodPts, wsum]
  | cons r B ih =>
    have e : prodPts g A (r :: B) = (A.map fun p => (p.1 * r.1, g p.2 r.2)) ++ prodPts g A B := rfl
    have e2 : wsum (r :: B) F2 = r.1 * F2 r.2 + wsum B F2 := by simp [wsum]
    rw [e, wsum_append, ih, e2, mul_add]
    congr 1
    induction A with
    | nil => simp [wsum]
    | cons p A ihA =>
      have e3 : wsum (p :: A) F1 = p.1 * F1 p.2 + wsum A F1 := by simp [wsum]
      have ihA' : wsum (A.map fun p => (p.1 * r.1, g p.2 r.2)) F = wsum A F1 * (r.1 * F2 r.2) := by
        clear ih e e2 e3 ihA
        induction A with
        | nil => simp [wsum]
        | cons p A ih =>
          simp only [wsum, List.map_cons, List.sum_cons] at ih ⊢
          rw [ih, h]; ring
      rw [e3, add_mul, ← ihA']
      simp only [wsum, List.map_cons, List.sum_cons, h]
      ring

/-! ### The two- and three-point rules for the line -/

theorem sq3 : (Real.sqrt 3.0 / 3.0) ^ 2 = 1 / 3 := by
  rw [div_pow, Real.sq_sqrt (by norm_num)]; norm_num

theorem sq35 : (Real.sqrt (3.0 / 5.0)) ^ 2 = 3 / 5 := by
  rw [Real.sq_sqrt (by norm_num)]; norm_num

theorem line3 (k : Nat) (hk : k ≤ 3) : wsum Cn1_3_2.points (fun x => x 0 ^ k) = lineMoment k := by
  have h := sq3
  simp only [wsum, Cn1_3_2, List.map_cons, List.map_nil, List.sum_cons, List.sum_nil,
    Matrix.cons_val_zero, neg_div]
  generalize Real.sqrt 3.0 / 3.0 = s at *
  interval_cases k <;> simp [lineMoment] <;> norm_num <;> linarith

theorem line5 (k : Nat) (hk : k ≤ 5) : wsum Cn1_5_3.points (fun x => x 0 ^ k) = lineMoment k := by
  have h := sq35
  simp only [wsum, Cn1_5_3, List.map_cons, List.map_nil, List.sum_cons, List.sum_nil,
    Matrix.cons_val_zero]
  generalize Real.sqrt (3.0 / 5.0) = s at *
  have h4 : s ^ 4 = 9 / 25 := by
    rw [show s ^ 4 = (s ^ 2) ^ 2 by ring, h]; norm_num
  interval_cases k <;> simp [lineMoment] <;> norm_num <;> ring_nf <;> simp [h, h4] <;> norm_num

/-! ### Products -/

def g2 (x y : Pt 1) : Pt 2 := ![x 0, y 0]
def g3 (x : Pt 2) (y : Pt 1) : Pt 3 := ![x 0, x 1, y 0]
def g4 (x : Pt 3) (y : Pt 1) : Pt 4 := ![x 0, x 1, x 2, y 0]

theorem Cn2_3_4_prod : Cn2_3_4.points = prodPts g2 Cn1_3_2.points Cn1_3_2.points := rfl
theorem Cn2_5_9_prod : Cn2_5_9.points = prodPts g2 Cn1_5_3.points Cn1_5_3.points := rfl
theorem Cn3_3_4_prod : Cn3_3_4.points = prodPts g3 Cn2_3_4.points Cn1_3_2.points := rfl
theorem Cn3_5_9_prod : Cn3_5_9.points = prodPts g3 Cn2_5_9.points Cn1_5_3.points := rfl
theorem Cn4_3_16_prod : Cn4_3_16.points = prodPts g4 Cn3_3_4.points Cn1_3_2.points := by
  simp only [Cn4_3_16, prodPts, Cn3_3_4, Cn1_3_2, List.flatMap_cons, List.flatMap_nil,
    List.map_cons, List.map_nil, List.cons_append, List.nil_append, List.append_nil]
  have h2 : ∀ x y z : ℝ, (![x, y, z] : Pt 3) 2 = z := fun _ _ _ => rfl
  norm_num [g4, h2]

theorem square_prod (r : Rule 2) (L : List (ℝ × Pt 1)) (n : Nat) (hr : r.points = prodPts g2 L L)
    (hL : ∀ k ≤ n, wsum L (fun x => x 0 ^ k) = lineMoment k) (a : Fin 2 → ℕ)
    (ha : ∑ i, a i ≤ n) :
    wsum r.points (fun x => ∏ i, x i ^ a i) = ∏ i, lineMoment (a i) := by
  rw [Fin.sum_univ_two] at ha
  rw [hr, wsum_prod g2 _ (fun x => x 0 ^ a 0) (fun x => x 0 ^ a 1)
    (by intro x y; simp [g2, Fin.prod_univ_two]), hL _ (by omega), hL _ (by omega),
    Fin.prod_univ_two]

theorem cube_prod (r : Rule 3) (s : Rule 2) (L : List (ℝ × Pt 1)) (n : Nat)
    (hr : r.points = prodPts g3 s.points L)
    (hs : ∀ a : Fin 2 → ℕ, ∑ i, a i ≤ n →
      wsum s.points (fun x => ∏ i, x i ^ a i) = ∏ i, lineMoment (a i))
    (hL : ∀ k ≤ n, wsum L (fun x => x 0 ^ k) = lineMoment k) (a : Fin 3 → ℕ)
    (ha : ∑ i, a i ≤ n) :
    wsum r.points (fun x => ∏ i, x i ^ a i) = ∏ i, lineMoment (a i) := by
  rw [Fin.sum_univ_three] at ha
  rw [hr, wsum_prod g3 _ (fun x => ∏ i, x i ^ (![a 0, a 1] : Fin 2 → ℕ) i) (fun x => x 0 ^ a 2)
    (by intro x y; simp [g3, Fin.prod_univ_two, Fin.prod_univ_three]),
    hs _ (by simp; omega), hL _ (by omega)]
  simp [Fin.prod_univ_two, Fin.prod_univ_three]

theorem hypercube_prod (r : Rule 4) (s : Rule 3) (L : List (ℝ × Pt 1)) (n : Nat)
    (hr : r.points = prodPts g4 s.points L)
    (hs : ∀ a : Fin 3 → ℕ, ∑ i, a i ≤ n →
      wsum s.points (fun x => ∏ i, x i ^ a i) = ∏ i, lineMoment (a i))
    (hL : ∀ k ≤ n, wsum L (fun x => x 0 ^ k) = lineMoment k) (a : Fin 4 → ℕ)
    (ha : ∑ i, a i ≤ n) :
    wsum r.points (fun x => ∏ i, x i ^ a i) = ∏ i, lineMoment (a i) := by
  rw [Fin.sum_univ_four] at ha
  rw [hr, wsum_prod g4 _ (fun x => ∏ i, x i ^ (![a 0, a 1, a 2] : Fin 3 → ℕ) i)
    (fun x => x 0 ^ a 3)
    (by intro x y; simp [g4, Fin.prod_univ_three, Fin.prod_univ_four]),
    hs _ (by simp [Fin.sum_univ_three]; omega), hL _ (by omega)]
  simp [Fin.prod_univ_three, Fin.prod_univ_four]

theorem Cn2_3_4_box : ∀ a : Fin 2 → ℕ, ∑ i, a i ≤ 3 →
    wsum Cn2_3_4.points (fun x => ∏ i, x i ^ a i) = ∏ i, lineMoment (a i) :=
  square_prod Cn2_3_4 _ 3 Cn2_3_4_prod line3
theorem Cn2_5_9_box : ∀ a : Fin 2 → ℕ, ∑ i, a i ≤ 5 →
    wsum Cn2_5_9.points (fun x => ∏ i, x i ^ a i) = ∏ i, lineMoment (a i) :=
  square_prod Cn2_5_9 _ 5 Cn2_5_9_prod line5
theorem Cn3_3_4_box : ∀ a : Fin 3 → ℕ, ∑ i, a i ≤ 3 →
    wsum Cn3_3_4.points (fun x => ∏ i, x i ^ a i) = ∏ i, lineMoment (a i) :=
  cube_prod Cn3_3_4 _ _ 3 Cn3_3_4_prod Cn2_3_4_box line3
theorem Cn3_5_9_box : ∀ a : Fin 3 → ℕ, ∑ i, a i ≤ 5 →
    wsum Cn3_5_9.points (fun x => ∏ i, x i ^ a i) = ∏ i, lineMoment (a i) :=
  cube_prod Cn3_5_9 _ _ 5 Cn3_5_9_prod Cn2_5_9_box line5
theorem Cn4_3_16_box : ∀ a : Fin 4 → ℕ, ∑ i, a i ≤ 3 →
    wsum Cn4_3_16.points (fun x => ∏ i, x i ^ a i) = ∏ i, lineMoment (a i) :=
  hypercube_prod Cn4_3_16 _ _ 3 Cn4_3_16_prod Cn3_3_4_box line3

theorem exact_box {d : Nat} {g : Geom d} (hb : body g = Set.pi Set.univ fun _ => Set.Icc (-1 : ℝ) 1)
    {r : Rule d} (hr : r.points ≠ [] ∧ r.number = r.points.length) (n : Nat)
    (h : ∀ a : Fin d → ℕ, ∑ i, a i ≤ n →
      wsum r.points (fun x => ∏ i, x i ^ a i) = ∏ i, lineMoment (a i)) : Integrates g r n 0 := by
  refine integrates_of_monomials (hb ▸ box_compact d 1) hr fun a ha => ?_
  rw [show quadSum r (fun x => ∏ i, x i ^ a i) = wsum r.points (fun x => ∏ i, x i ^ a i) from rfl,
    h a ha, hb, unit_box]
  simp

theorem Cn1_3_2_integrates : Integrates lineG Cn1_3_2 3 0 :=
  exact_box line_body (by simp [Cn1_3_2]) 3 fun a ha => by
    simp only [Fin.prod_univ_one]
    exact line3 (a 0) (by simpa using ha)
theorem Cn1_5_3_integrates : Integrates lineG Cn1_5_3 5 0 :=
  exact_box line_body (by simp [Cn1_5_3]) 5 fun a ha => by
    simp only [Fin.prod_univ_one]
    exact line5 (a 0) (by simpa using ha)
theorem Cn2_3_4_integrates : Integrates squareG Cn2_3_4 3 0 :=
  exact_box square_body (by simp [Cn2_3_4]) 3 Cn2_3_4_box
theorem Cn2_5_9_integrates : Integrates squareG Cn2_5_9 5 0 :=
  exact_box square_body (by simp [Cn2_5_9]) 5 Cn2_5_9_box
theorem Cn3_3_4_integrates : Integrates cubeG Cn3_3_4 3 0 :=
  exact_box cube_body (by simp [Cn3_3_4]) 3 Cn3_3_4_box
theorem Cn3_5_9_integrates : Integrates cubeG Cn3_5_9 5 0 :=
  exact_box cube_body (by simp [Cn3_5_9]) 5 Cn3_5_9_box
theorem Cn4_3_16_integrates : Integrates hypercubeG Cn4_3_16 3 0 :=
  exact_box hypercube_body (by simp [Cn4_3_16]) 3 Cn4_3_16_box

/-! ### The rule of order 7 for the square -/

theorem root30 : (Real.sqrt 30.0) ^ 2 = 30 := by
  rw [Real.sq_sqrt (by norm_num)]; norm_num

theorem root30_lt : Real.sqrt 30.0 < 7.5 := by
  rw [Real.sqrt_lt' (by norm_num)]; norm_num

/-- The four-point rule for the line. -/
noncomputable def gauss4 : List (ℝ × Pt 1) :=
  [((18 + Real.sqrt 30.0) / 36, ![Real.sqrt ((15.0 - 2.0 * Real.sqrt 30.0) / 35.0)]),
   ((18 + Real.sqrt 30.0) / 36, ![-Real.sqrt ((15.0 - 2.0 * Real.sqrt 30.0) / 35.0)]),
   ((18 - Real.sqrt 30.0) / 36, ![Real.sqrt ((15.0 + 2.0 * Real.sqrt 30.0) / 35.0)]),
   ((18 - Real.sqrt 30.0) / 36, ![-Real.sqrt ((15.0 + 2.0 * Real.sqrt 30.0) / 35.0)])]

theorem line7 (k : Nat) (hk : k ≤ 7) : wsum gauss4 (fun x => x 0 ^ k) = lineMoment k := by
  have hq := root30
  have hlt := root30_lt
  have h0 := Real.sqrt_nonneg 30.0
  have hα : Real.sqrt ((15.0 - 2.0 * Real.sqrt 30.0) / 35.0) ^ 2 =
      (15.0 - 2.0 * Real.sqrt 30.0) / 35.0 :=
    Real.sq_sqrt (div_nonneg (by linarith) (by norm_num))
  have hβ : Real.sqrt ((15.0 + 2.0 * Real.sqrt 30.0) / 35.0) ^ 2 =
      (15.0 + 2.0 * Real.sqrt 30.0) / 35.0 :=
    Real.sq_sqrt (div_nonneg (by linarith) (by norm_num))
  simp only [wsum, gauss4, List.map_cons, List.map_nil, List.sum_cons, List.sum_nil,
    Matrix.cons_val_zero]
  generalize Real.sqrt ((15.0 - 2.0 * Real.sqrt 30.0) / 35.0) = α at *
  generalize Real.sqrt ((15.0 + 2.0 * Real.sqrt 30.0) / 35.0) = β at *
  generalize Real.sqrt 30.0 = q at *
  norm_num at hα hβ
  have hα4 : α ^ 4 = ((15 - 2 * q) / 35) ^ 2 := by rw [← hα]; ring
  have hα6 : α ^ 6 = ((15 - 2 * q) / 35) ^ 3 := by rw [← hα]; ring
  have hβ4 : β ^ 4 = ((15 + 2 * q) / 35) ^ 2 := by rw [← hβ]; ring
  have hβ6 : β ^ 6 = ((15 + 2 * q) / 35) ^ 3 := by rw [← hβ]; ring
  have hq4 : q ^ 4 = 900 := by rw [show q ^ 4 = (q ^ 2) ^ 2 by ring, hq]; norm_num
  clear h0 hlt
  have l0 : lineMoment 0 = 2 := by norm_num [lineMoment]
  have l1 : lineMoment 1 = 0 := by norm_num [lineMoment]
  have l2 : lineMoment 2 = 2 / 3 := by norm_num [lineMoment]
  have l3 : lineMoment 3 = 0 := by norm_num [lineMoment]
  have l4 : lineMoment 4 = 2 / 5 := by norm_num [lineMoment]
  have l5 : lineMoment 5 = 0 := by norm_num [lineMoment]
  have l6 : lineMoment 6 = 2 / 7 := by norm_num [lineMoment]
  have l7 : lineMoment 7 = 0 := by norm_num [lineMoment]
  interval_cases k
  · rw [l0]; ring
  · rw [l1]; ring
  · rw [l2]
    linear_combination ((18 + q) / 18) * hα + ((18 - q) / 18) * hβ - 4 / 630 * hq
  · rw [l3]; ring
  · rw [l4]
    linear_combination ((18 + q) / 18) * hα4 + ((18 - q) / 18) * hβ4 + 24 / 22050 * hq
  · rw [l5]; ring
  · rw [l6]
    linear_combination ((18 + q) / 18) * hα6 + ((18 - q) / 18) * hβ6 + 3780 / 771750 * hq -
      16 / 771750 * hq4
  · rw [l7]; ring

theorem C2_7_4_prod (f : Pt 2 → ℝ) : wsum C2_7_4.points f = wsum (prodPts g2 gauss4 gauss4) f := by
  have hq := root30
  simp only [wsum, C2_7_4, prodPts, gauss4, g2, List.flatMap_cons, List.flatMap_nil,
    List.map_cons, List.map_nil, List.cons_append, List.nil_append, List.append_nil,
    List.sum_cons, List.sum_nil, Matrix.cons_val_zero]
  generalize Real.sqrt ((15.0 - 2.0 * Real.sqrt 30.0) / 35.0) = α at *
  generalize Real.sqrt ((15.0 + 2.0 * Real.sqrt 30.0) / 35.0) = β at *
  generalize Real.sqrt 30.0 = q at *
  have e1 : (59.0 + 6.0 * q) / 216.0 = (18 + q) / 36 * ((18 + q) / 36) := by
    norm_num; linear_combination (-1 / 1296) * hq
  have e2 : (59.0 - 6.0 * q) / 216.0 = (18 - q) / 36 * ((18 - q) / 36) := by
    norm_num; linear_combination (-1 / 1296) * hq
  have e3 : (49.0 : ℝ) / 216.0 = (18 + q) / 36 * ((18 - q) / 36) := by
    norm_num; linear_combination (1 / 1296) * hq
  rw [e1, e2, e3]
  ring

theorem C2_7_4_integrates : Integrates squareG C2_7_4 7 0 :=
  exact_box square_body (by simp [C2_7_4]) 7 fun a ha => by
    rw [C2_7_4_prod]
    exact square_prod ⟨7, 16, prodPts g2 gauss4 gauss4⟩ gauss4 7 rfl line7 a ha

/-! ### The rule of order 5 for the triangular prism -/

theorem root15 : (Real.sqrt 15.0) ^ 2 = 15 := by
  rw [Real.sq_sqrt (by norm_num)]; norm_num

noncomputable def tri7 : List (ℝ × Pt 2) :=
  [(9.0 / 80.0, ![1.0 / 3.0, 1.0 / 3.0]),
   ((155.0 - Real.sqrt (15.0)) / 2400.0,
     ![(6.0 - Real.sqrt (15.0)) / 21.0, (6.0 - Real.sqrt (15.0)) / 21.0]),
   ((155.0 - Real.sqrt (15.0)) / 2400.0,
     ![(9.0 + 2.0 * Real.sqrt (15.0)) / 21.0, (6.0 - Real.sqrt (15.0)) / 21.0]),
   ((155.0 - Real.sqrt (15.0)) / 2400.0,
     ![(6.0 - Real.sqrt (15.0)) / 21.0, (9.0 + 2.0 * Real.sqrt (15.0)) / 21.0]),
   ((155.0 + Real.sqrt (15.0)) / 2400.0,
     ![(6.0 + Real.sqrt (15.0)) / 21.0, (6.0 + Real.sqrt (15.0)) / 21.0]),
   ((155.0 + Real.sqrt (15.0)) / 2400.0,
     ![(9.0 - 2.0 * Real.sqrt (15.0)) / 21.0, (6.0 + Real.sqrt (15.0)) / 21.0]),
   ((155.0 + Real.sqrt (15.0)) / 2400.0,
     ![(6.0 + Real.sqrt (15.0)) / 21.0, (9.0 - 2.0 * Real.sqrt (15.0)) / 21.0])]

theorem TriPrism_5_21_prod : TriPrism_5_21.points = prodPts g3 tri7 Cn1_5_3.points := rfl

theorem tri7_exact (a b : Nat) (h : a + b ≤ 5) :
    wsum tri7 (fun x => x 0 ^ a * x 1 ^ b) = a ! * b ! / (a + b + 2)! := by
  have hq := root15
  simp only [wsum, tri7, List.map_cons, List.map_nil, List.sum_cons, List.sum_nil,
    Matrix.cons_val_zero, Matrix.cons_val_one]
  generalize Real.sqrt 15.0 = q at *
  have hq3 : q ^ 3 = 15 * q := by rw [← hq]; ring
  have hq4 : q ^ 4 = 225 := by rw [show q ^ 4 = (q ^ 2) ^ 2 by ring, hq]; norm_num
  have hq5 : q ^ 5 = 225 * q := by rw [← hq4]; ring
  have hq6 : q ^ 6 = 3375 := by rw [show q ^ 6 = (q ^ 2) ^ 3 by ring, hq]; norm_num
  have ha : a ≤ 5 := by omega
  have hb : b ≤ 5 := by omega
  interval_cases a <;> interval_cases b <;> (try omega) <;>
    (simp only [Nat.factorial]; norm_num; ring_nf; try (simp only [hq, hq3, hq4, hq5, hq6]; ring_nf))

theorem TriPrism_5_21_integrates : Integrates prismG TriPrism_5_21 5 0 := by
  refine integrates_of_monomials prism_compact (by simp [TriPrism_5_21]) fun a ha => ?_
  rw [Fin.sum_univ_three] at ha
  rw [show quadSum TriPrism_5_21 (fun x => ∏ i, x i ^ a i) =
      wsum TriPrism_5_21.points (fun x => ∏ i, x i ^ a i) from rfl,
    TriPrism_5_21_prod, wsum_prod g3 _ (fun x => x 0 ^ a 0 * x 1 ^ a 1) (fun x => x 0 ^ a 2)
    (by intro x y; simp [g3, Fin.prod_univ_three]), line5 _ (by omega),
    tri7_exact _ _ (by omega), prism_integral]
  simp

/-! ### The pyramids -/

/-- Heights of the points, with their weights. -/
noncomputable def heights : List (ℝ × ℝ) :=
  [(0.1108884156, 0.4850054945e-1), (0.1434587898, 0.2386007376),
   (0.6863388717e-1, 0.5170472951), (0.1035224075e-1, 0.7958514179)]

noncomputable def gp (x : Pt 2) (t : ℝ) : Pt 3 := ![x 0 * (1.0 - t), x 1 * (1.0 - t), t]

noncomputable def sq12 : List (ℝ × Pt 2) :=
  [(98.0 / 405.0, ![(Real.sqrt (6.0 / 7.0)), 0.0]),
   (98.0 / 405.0, ![-(Real.sqrt (6.0 / 7.0)), 0.0]),
   (98.0 / 405.0, ![0.0, (Real.sqrt (6.0 / 7.0))]),
   (98.0 / 405.0, ![0.0, -(Real.sqrt (6.0 / 7.0))]),
   ((178981.0 + 2769.0 * Real.sqrt (583.0)) / 472230.0,
     ![Real.sqrt ((114.0 - 3.0 * Real.sqrt (583.0)) / 287.0),
       Real.sqrt ((114.0 - 3.0 * Real.sqrt (583.0)) / 287.0)]),
   ((178981.0 + 2769.0 * Real.sqrt (583.0)) / 472230.0,
     ![Real.sqrt ((114.0 - 3.0 * Real.sqrt (583.0)) / 287.0),
       -Real.sqrt ((114.0 - 3.0 * Real.sqrt (583.0)) / 287.0)]),
   ((178981.0 + 2769.0 * Real.sqrt (583.0)) / 472230.0,
     ![-Real.sqrt ((114.0 - 3.0 * Real.sqrt (583.0)) / 287.0),
       Real.sqrt ((114.0 - 3.0 * Real.sqrt (583.0)) / 287.0)]),
   ((178981.0 + 2769.0 * Real.sqrt (583.0)) / 472230.0,
     ![-Real.sqrt ((114.0 - 3.0 * Real.sqrt (583.0)) / 287.0),
       -Real.sqrt ((114.0 - 3.0 * Real.sqrt (583.0)) / 287.0)]),
   ((178981.0 - 2769.0 * Real.sqrt (583.0)) / 472230.0,
     ![Real.sqrt ((114.0 + 3.0 * Real.sqrt (583.0)) / 287.0),
       Real.sqrt ((114.0 + 3.0 * Real.sqrt (583.0)) / 287.0)]),
   ((178981.0 - 2769.0 * Real.sqrt (583.0)) / 472230.0,
     ![Real.sqrt ((114.0 + 3.0 * Real.sqrt (583.0)) / 287.0),
       -Real.sqrt ((114.0 + 3.0 * Real.sqrt (583.0)) / 287.0)]),
   ((178981.0 - 2769.0 * Real.sqrt (583.0)) / 472230.0,
     ![-Real.sqrt ((114.0 + 3.0 * Real.sqrt (583.0)) / 287.0),
       Real.sqrt ((114.0 + 3.0 * Real.sqrt (583.0)) / 287.0)]),
   ((178981.0 - 2769.0 * Real.sqrt (583.0)) / 472230.0,
     ![-Real.sqrt ((114.0 + 3.0 * Real.sqrt (583.0)) / 287.0),
       -Real.sqrt ((114.0 + 3.0 * Real.sqrt (583.0)) / 287.0)])]

theorem Pyramid_3_16_prod : Pyramid_3_16.points = prodPts gp Cn2_3_4.points heights := rfl
theorem Pyramid_5_36_prod : Pyramid_5_36.points = prodPts gp Cn2_5_9.points heights := rfl
theorem Pyramid_7_48_prod : Pyramid_7_48.points = prodPts gp sq12 heights := rfl

theorem heights_near (k c : Nat) (h : k + c ≤ 7) :
    |wsum heights (fun t => (1.0 - t) ^ k * t ^ c) - c ! * (k + 2)! / (k + c + 3)!| ≤
      1 / 40000000000 := by
  simp only [wsum, heights, List.map_cons, List.map_nil, List.sum_cons, List.sum_nil]
  have hk : k ≤ 7 := by omega
  have hc : c ≤ 7 := by omega
  rw [abs_le]
  interval_cases k <;> interval_cases c <;> (try omega) <;>
    (simp only [Nat.factorial]; constructor <;> norm_num)

theorem lineMoment_bound (n : Nat) : |lineMoment n| ≤ 2 := by
  unfold lineMoment
  split
  · rw [abs_of_nonneg (by positivity), div_le_iff₀ (by positivity)]
    have : (0 : ℝ) ≤ n := Nat.cast_nonneg n
    linarith
  · simp

theorem pyramid_prod (r : Rule 3) (S : List (ℝ × Pt 2)) (n : Nat) (hn : n ≤ 7)
    (hne : r.points ≠ [] ∧ r.number = r.points.length) (hr : r.points = prodPts gp S heights)
    (hS : ∀ a : Fin 2 → ℕ, ∑ i, a i ≤ n →
      wsum S (fun x => ∏ i, x i ^ a i) = ∏ i, lineMoment (a i)) :
    Integrates pyramidG r n (1 / 10000000000) := by
  refine integrates_of_monomials pyramid_compact hne fun a ha => ?_
  rw [Fin.sum_univ_three] at ha
  have hS' := hS ![a 0, a 1] (by simp; omega)
  simp only [Fin.prod_univ_two, Matrix.cons_val_zero, Matrix.cons_val_one] at hS'
  rw [show quadSum r (fun x => ∏ i, x i ^ a i) = wsum r.points (fun x => ∏ i, x i ^ a i) from rfl,
    hr, wsum_prod gp _ (fun x => x 0 ^ a 0 * x 1 ^ a 1)
      (fun t => (1.0 - t) ^ (a 0 + a 1) * t ^ a 2)
      (by
        intro x t
        have h2 : ∀ x y z : ℝ, (![x, y, z] : Pt 3) 2 = z := fun _ _ _ => rfl
        simp only [gp, Fin.prod_univ_three, Matrix.cons_val_zero, Matrix.cons_val_one, h2]
        generalize (1.0 - t : ℝ) = u
        ring),
    hS', pyramid_integral, ← mul_sub, abs_mul, abs_mul]
  have h1 := heights_near (a 0 + a 1) (a 2) (by omega)
  have hL := mul_le_mul (lineMoment_bound (a 0)) (lineMoment_bound (a 1)) (abs_nonneg _)
    (by norm_num)
  refine (mul_le_mul hL h1 (abs_nonneg _) (by norm_num)).trans ?_
  norm_num

theorem Pyramid_3_16_integrates : Integrates pyramidG Pyramid_3_16 3 (1 / 10000000000) :=
  pyramid_prod _ _ 3 (by norm_num) (by simp [Pyramid_3_16]) Pyramid_3_16_prod Cn2_3_4_box
theorem Pyramid_5_36_integrates : Integrates pyramidG Pyramid_5_36 5 (1 / 10000000000) :=
  pyramid_prod _ _ 5 (by norm_num) (by simp [Pyramid_5_36]) Pyramid_5_36_prod Cn2_5_9_box

theorem root583 : (Real.sqrt 583.0) ^ 2 = 583 := by
  rw [Real.sq_sqrt (by norm_num)]; norm_num

theorem root583_lt : Real.sqrt 583.0 < 38 := by
  rw [Real.sqrt_lt' (by norm_num)]; norm_num

theorem sq67 : (Real.sqrt (6.0 / 7.0)) ^ 2 = 6 / 7 := by
  rw [Real.sq_sqrt (by norm_num)]; norm_num

theorem sq12_box (a : Fin 2 → ℕ) (ha : ∑ i, a i ≤ 7) :
    wsum sq12 (fun x => ∏ i, x i ^ a i) = ∏ i, lineMoment (a i) := by
  have hq := root583
  have hlt := root583_lt
  have h0 := Real.sqrt_nonneg 583.0
  have hr := sq67
  have hα : Real.sqrt ((114.0 - 3.0 * Real.sqrt 583.0) / 287.0) ^ 2 =
      (114.0 - 3.0 * Real.sqrt 583.0) / 287.0 :=
    Real.sq_sqrt (div_nonneg (by linarith) (by norm_num))
  have hβ : Real.sqrt ((114.0 + 3.0 * Real.sqrt 583.0) / 287.0) ^ 2 =
      (114.0 + 3.0 * Real.sqrt 583.0) / 287.0 :=
    Real.sq_sqrt (div_nonneg (by linarith) (by norm_num))
  rw [Fin.sum_univ_two] at ha
  simp only [wsum, sq12, List.map_cons, List.map_nil, List.sum_cons, List.sum_nil,
    Fin.prod_univ_two, Matrix.cons_val_zero, Matrix.cons_val_one]
  generalize Real.sqrt ((114.0 - 3.0 * Real.sqrt 583.0) / 287.0) = α at *
  generalize Real.sqrt ((114.0 + 3.0 * Real.sqrt 583.0) / 287.0) = β at *
  generalize Real.sqrt 583.0 = q at *
  generalize Real.sqrt (6.0 / 7.0) = r at *
  generalize a 0 = m at *
  generalize a 1 = k at *
  norm_num at hα hβ
  have hα4 : α ^ 4 = ((114 - 3 * q) / 287) ^ 2 := by rw [← hα]; ring
  have hα6 : α ^ 6 = ((114 - 3 * q) / 287) ^ 3 := by rw [← hα]; ring
  have hβ4 : β ^ 4 = ((114 + 3 * q) / 287) ^ 2 := by rw [← hβ]; ring
  have hβ6 : β ^ 6 = ((114 + 3 * q) / 287) ^ 3 := by rw [← hβ]; ring
  have hr4 : r ^ 4 = 36 / 49 := by rw [show r ^ 4 = (r ^ 2) ^ 2 by ring, hr]; norm_num
  have hr6 : r ^ 6 = 216 / 343 := by rw [show r ^ 6 = (r ^ 2) ^ 3 by ring, hr]; norm_num
  have hq3 : q ^ 3 = 583 * q := by rw [← hq]; ring
  have hq4 : q ^ 4 = 339889 := by rw [show q ^ 4 = (q ^ 2) ^ 2 by ring, hq]; norm_num
  clear h0 hlt
  have l0 : lineMoment 0 = 2 := by norm_num [lineMoment]
  have l1 : lineMoment 1 = 0 := by norm_num [lineMoment]
  have l2 : lineMoment 2 = 2 / 3 := by norm_num [lineMoment]
  have l3 : lineMoment 3 = 0 := by norm_num [lineMoment]
  have l4 : lineMoment 4 = 2 / 5 := by norm_num [lineMoment]
  have l5 : lineMoment 5 = 0 := by norm_num [lineMoment]
  have l6 : lineMoment 6 = 2 / 7 := by norm_num [lineMoment]
  have l7 : lineMoment 7 = 0 := by norm_num [lineMoment]
  have hm : m ≤ 7 := by omega
  have hk : k ≤ 7 := by omega
  have z : (0.0 : ℝ) = 0 := by norm_num
  have w1 : (98.0 : ℝ) / 405.0 = 98 / 405 := by norm_num
  have w2 : (178981.0 + 2769.0 * q) / 472230.0 = (178981 + 2769 * q) / 472230 := by norm_num
  have w3 : (178981.0 - 2769.0 * q) / 472230.0 = (178981 - 2769 * q) / 472230 := by norm_num
  rw [z, w1, w2, w3]
  interval_cases m <;> interval_cases k <;> (try omega) <;>
    (simp only [l0, l1, l2, l3, l4, l5, l6, l7]; ring_nf;
      try (simp only [hα, hβ, hα4, hα6, hβ4, hβ6, hr, hr4, hr6]; ring_nf; simp only [hq, hq3, hq4]; ring_nf))

theorem Pyramid_7_48_integrates : Integrates pyramidG Pyramid_7_48 7 (1 / 10000000000) :=
  pyramid_prod _ _ 7 (by norm_num) (by simp [Pyramid_7_48]) Pyramid_7_48_prod sq12_box

end Verif.Quadrature
