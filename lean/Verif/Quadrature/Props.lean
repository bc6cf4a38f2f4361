import Verif.Quadrature.Registry

/-!
# Quadrature rules

`Integrates g r n ε`: the rule `r` integrates every polynomial of degree at most `n` over the shape
`g` with an error of at most `ε` times the sum of the absolute values of its coefficients.
-/
namespace Verif.Quadrature
open RefGeometry MeasureTheory

/-! ### The rules of each shape -/

/-- The rule for the point is exact. -/
theorem point_rules : ∀ r ∈ pointRules, Integrates pointG r r.order 0 ∧ PointsInside pointG r := by
  intro r hr
  have hr : r = Cn0_inf_1 := by simpa [pointRules, addRule] using hr
  subst hr
  have hb : body pointG = Set.univ := by ext x; simp [body, pointG]
  refine ⟨?_, fun q _ => by rw [hb]; trivial⟩
  refine integrates_of_monomials (by rw [hb]; exact Set.finite_univ.isCompact)
    (by simp [Cn0_inf_1]) fun a _ => ?_
  have hv : (volume (Set.univ : Set (Fin 0 → ℝ))) = 1 := by
    rw [← Set.pi_univ Set.univ, volume_pi_pi]; simp
  simp [quadSum, Cn0_inf_1, hb, Measure.real, hv]

/-- The rules for the line, up to order 11. -/
theorem line_rules : ∀ r ∈ lineRules,
    Integrates lineG r r.order (1 / 10 ^ 13) ∧ PointsInside lineG r := by
  intro r hr
  have hr := (foldl_perm _ _).mem_iff.1 hr
  simp only [List.append_nil, List.mem_cons, List.not_mem_nil, or_false] at hr
  rcases hr with rfl | rfl | rfl | rfl | rfl | rfl
  · exact ⟨Cn1_1_1_integrates.mono (le_refl _) (by norm_num), Cn1_1_1_inside⟩
  · exact ⟨Cn1_3_2_integrates.mono (le_refl _) (by norm_num), Cn1_3_2_inside⟩
  · exact ⟨Cn1_5_3_integrates.mono (le_refl _) (by norm_num), Cn1_5_3_inside⟩
  · exact ⟨C1_7_4_integrates.mono (le_refl _) (by norm_num), C1_7_4_inside⟩
  · exact ⟨C1_9_5_integrates.mono (le_refl _) (by norm_num), C1_9_5_inside⟩
  · exact ⟨C1_11_6_integrates.mono (le_refl _) (by norm_num), C1_11_6_inside⟩

/-- The rules for the square, up to order 11. -/
theorem square_rules : ∀ r ∈ squareRules,
    Integrates squareG r r.order (1 / 10 ^ 13) ∧ PointsInside squareG r := by
  intro r hr
  have hr := (foldl_perm _ _).mem_iff.1 hr
  simp only [List.append_nil, List.mem_cons, List.not_mem_nil, or_false] at hr
  rcases hr with rfl | rfl | rfl | rfl | rfl | rfl
  · exact ⟨Cn2_1_1_integrates.mono (le_refl _) (by norm_num), Cn2_1_1_inside⟩
  · exact ⟨Cn2_3_4_integrates.mono (le_refl _) (by norm_num), Cn2_3_4_inside⟩
  · exact ⟨Cn2_5_9_integrates.mono (le_refl _) (by norm_num), Cn2_5_9_inside⟩
  · exact ⟨C2_7_4_integrates.mono (le_refl _) (by norm_num), C2_7_4_inside⟩
  · exact ⟨C2_9_5_integrates.mono (le_refl _) (by norm_num), C2_9_5_inside⟩
  · exact ⟨C2_11_6_integrates.mono (le_refl _) (by norm_num), C2_11_6_inside⟩

/-- The rules for the cube, up to order 11. -/
theorem cube_rules : ∀ r ∈ cubeRules,
    Integrates cubeG r r.order (1 / 10 ^ 13) ∧ PointsInside cubeG r := by
  intro r hr
  have hr := (foldl_perm _ _).mem_iff.1 hr
  simp only [List.append_nil, List.mem_cons, List.not_mem_nil, or_false] at hr
  rcases hr with rfl | rfl | rfl | rfl | rfl | rfl
  · exact ⟨Cn3_1_1_integrates.mono (le_refl _) (by norm_num), Cn3_1_1_inside⟩
  · exact ⟨Cn3_3_4_integrates.mono (le_refl _) (by norm_num), Cn3_3_4_inside⟩
  · exact ⟨Cn3_5_9_integrates.mono (le_refl _) (by norm_num), Cn3_5_9_inside⟩
  · exact ⟨C3_7_2_integrates.mono (le_refl _) (by norm_num), C3_7_2_inside⟩
  · exact ⟨C3_9_2_integrates.mono (le_refl _) (by norm_num), C3_9_2_inside⟩
  · exact ⟨C3_11_2_integrates.mono (le_refl _) (by norm_num), C3_11_2_inside⟩

/-- The rules for the hypercube, up to order 3. -/
theorem hypercube_rules : ∀ r ∈ hypercubeRules,
    Integrates hypercubeG r r.order (1 / 10 ^ 13) ∧ PointsInside hypercubeG r := by
  intro r hr
  have hr := (foldl_perm _ _).mem_iff.1 hr
  simp only [List.append_nil, List.mem_cons, List.not_mem_nil, or_false] at hr
  rcases hr with rfl | rfl
  · exact ⟨Cn4_1_1_integrates.mono (le_refl _) (by norm_num), Cn4_1_1_inside⟩
  · exact ⟨Cn4_3_16_integrates.mono (le_refl _) (by norm_num), Cn4_3_16_inside⟩

/-- The rules for the triangle, up to order 11. -/
theorem triangle_rules : ∀ r ∈ triangleRules,
    Integrates triangleG r r.order (1 / 10 ^ 13) ∧ PointsInside triangleG r := by
  intro r hr
  have hr := (foldl_perm _ _).mem_iff.1 hr
  simp only [List.append_nil, List.mem_cons, List.not_mem_nil, or_false] at hr
  rcases hr with rfl | rfl | rfl | rfl | rfl | rfl | rfl | rfl | rfl
  · exact ⟨Tn2_1_1_integrates.mono (le_refl _) (by norm_num), Tn2_1_1_inside⟩
  · exact ⟨Tn2_2_3_integrates.mono (le_refl _) (by norm_num), Tn2_2_3_inside⟩
  · exact ⟨Tn2_4_6_integrates.mono (le_refl _) (by norm_num), Tn2_4_6_inside⟩
  · exact ⟨T2_5_7_integrates.mono (le_refl _) (by norm_num), T2_5_7_inside⟩
  · exact ⟨T2_6_12_integrates.mono (le_refl _) (by norm_num), T2_6_12_inside⟩
  · exact ⟨T2_8_16_integrates.mono (le_refl _) (by norm_num), T2_8_16_inside⟩
  · exact ⟨T2_9_19_integrates.mono (le_refl _) (by norm_num), T2_9_19_inside⟩
  · exact ⟨T2_10_25_integrates.mono (le_refl _) (by norm_num), T2_10_25_inside⟩
  · exact ⟨T2_11_28_integrates.mono (le_refl _) (by norm_num), T2_11_28_inside⟩

/-- The rules for the triangular prism, up to order 7. The last one has decimals of ten digits. -/
theorem prism_rules : ∀ r ∈ prismRules,
    Integrates prismG r r.order (1 / 10 ^ 9) ∧ PointsInside prismG r := by
  intro r hr
  have hr := (foldl_perm _ _).mem_iff.1 hr
  simp only [List.append_nil, List.mem_cons, List.not_mem_nil, or_false] at hr
  rcases hr with rfl | rfl | rfl
  · exact ⟨TriPrism_1_1_integrates.mono (le_refl _) (by norm_num), TriPrism_1_1_inside⟩
  · exact ⟨TriPrism_5_21_integrates.mono (le_refl _) (by norm_num), TriPrism_5_21_inside⟩
  · exact ⟨TriPrism_7_64_integrates.mono (le_refl _) (by norm_num), TriPrism_7_64_inside⟩

/-- The rules for the pyramid, up to order 7. They have decimals of ten digits. -/
theorem pyramid_rules : ∀ r ∈ pyramidRules,
    Integrates pyramidG r r.order (1 / 10 ^ 10) ∧ PointsInside pyramidG r := by
  intro r hr
  have hr := (foldl_perm _ _).mem_iff.1 hr
  simp only [List.append_nil, List.mem_cons, List.not_mem_nil, or_false] at hr
  rcases hr with rfl | rfl | rfl | rfl
  · exact ⟨Pyramid_1_4_integrates.mono (le_refl _) (by norm_num), Pyramid_1_4_inside⟩
  · exact ⟨Pyramid_3_16_integrates.mono (le_refl _) (by norm_num), Pyramid_3_16_inside⟩
  · exact ⟨Pyramid_5_36_integrates.mono (le_refl _) (by norm_num), Pyramid_5_36_inside⟩
  · exact ⟨Pyramid_7_48_integrates.mono (le_refl _) (by norm_num), Pyramid_7_48_inside⟩

/-- The rules for the tetrahedron, up to order 11, have the order they state except for those of
order 7 and 9. Missing: these two are only accurate up to degree 6 and 8, see
`tetrahedron_order_7` and `tetrahedron_order_9`. -/
theorem tetrahedron_rules_partial : ∀ r ∈ tetrahedronRules,
    Integrates tetrahedronG r (if r.order = 7 ∨ r.order = 9 then r.order - 1 else r.order)
      (1 / 10 ^ 13) ∧ PointsInside tetrahedronG r := by
  intro r hr
  have hr := (foldl_perm _ _).mem_iff.1 hr
  simp only [List.append_nil, List.mem_cons, List.not_mem_nil, or_false] at hr
  rcases hr with rfl | rfl | rfl | rfl | rfl | rfl | rfl | rfl | rfl | rfl
  · exact ⟨Tn3_1_1_integrates.mono (le_refl 1) (by norm_num), Tn3_1_1_inside⟩
  · exact ⟨Tn3_2_4_integrates.mono (le_refl 2) (by norm_num), Tn3_2_4_inside⟩
  · exact ⟨Tn3_3_10_integrates.mono (le_refl 3) (by norm_num), Tn3_3_10_inside⟩
  · exact ⟨Tn3_4_14_integrates.mono (le_refl 4) (by norm_num), Tn3_4_14_inside⟩
  · exact ⟨T3_5_14_integrates.mono (le_refl 5) (by norm_num), T3_5_14_inside⟩
  · exact ⟨T3_6_24_integrates.mono (le_refl 6) (by norm_num), T3_6_24_inside⟩
  · exact ⟨T3_7_31_integrates.mono (le_refl 6) (by norm_num), T3_7_31_inside⟩
  · exact ⟨T3_8_43_integrates.mono (le_refl 8) (by norm_num), T3_8_43_inside⟩
  · exact ⟨T3_9_53_integrates.mono (le_refl 8) (by norm_num), T3_9_53_inside⟩
  · exact ⟨T3_10_126_integrates.mono (le_refl 11) (by norm_num), T3_10_126_inside⟩

/-! ### Requests -/

/-- Whatever rules are added, a request is answered by one of them, with at least the requested
order, and none of the others of at least that order has a lower order. For a curved element of
order `k` the order is at least `k + 1`. -/
theorem getRule_lowest {d : Nat} (added : List (Rule d)) (curve : Option Nat) (n : Nat)
    (r : Rule d) (h : getRule (added.foldl addRule []) curve n = some r) :
    r ∈ added ∧ n ≤ r.order ∧ (∀ k, curve = some k → k + 1 ≤ r.order) ∧
      ∀ s ∈ added, n ≤ s.order → (∀ k, curve = some k → k + 1 ≤ s.order) → r.order ≤ s.order := by
  have hmem : ∀ s, s ∈ added.foldl addRule [] ↔ s ∈ added := fun s => by
    rw [(foldl_perm added []).mem_iff, List.append_nil]
  obtain ⟨h1, h2, h3⟩ := find_first _ _ (foldl_sorted added [] List.Pairwise.nil) r h
  refine ⟨(hmem r).1 h1, ?_, ?_, fun s hs hn hk => h3 s ((hmem s).2 hs) ?_⟩
  · cases curve with
    | none => exact h2
    | some k => exact (le_max_left _ _).trans h2
  · rintro k rfl
    exact (le_max_right _ _).trans h2
  · cases curve with
    | none => exact hn
    | some k => exact max_le hn (hk k rfl)

/-- The program stops on a request exactly if no rule has the order that is needed. -/
theorem getRule_none_iff {d : Nat} (added : List (Rule d)) (curve : Option Nat) (n : Nat) :
    getRule (added.foldl addRule []) curve n = none ↔
      ∀ r ∈ added, r.order < n ∨ ∃ k, curve = some k ∧ r.order < k + 1 := by
  have hmem : ∀ s, s ∈ added.foldl addRule [] ↔ s ∈ added := fun s => by
    rw [(foldl_perm added []).mem_iff, List.append_nil]
  unfold getRule
  rw [List.find?_eq_none]
  constructor
  · intro h r hr
    have := h r ((hmem r).2 hr)
    cases curve with
    | none => left; simpa using this
    | some k =>
      simp only [decide_eq_true_eq, not_le, lt_max_iff] at this
      rcases this with h | h
      · exact Or.inl h
      · exact Or.inr ⟨k, rfl, h⟩
  · intro h r hr
    have := h r ((hmem r).1 hr)
    cases curve with
    | none =>
      rcases this with h | ⟨k, hk, _⟩
      · simpa using h
      · simp at hk
    | some k =>
      simp only [decide_eq_true_eq, not_le, lt_max_iff]
      rcases this with h | ⟨k', hk, h⟩
      · exact Or.inl h
      · cases hk; exact Or.inr h

/-- What a shape answers to a request for order `n` integrates all polynomials up to degree `n`. -/
theorem requested_order {curve : Option Nat} {n : Nat} :
    (∀ r, getRule pointRules curve n = some r → Integrates pointG r n 0) ∧
    (∀ r, getRule lineRules curve n = some r → Integrates lineG r n (1 / 10 ^ 13)) ∧
    (∀ r, getRule squareRules curve n = some r → Integrates squareG r n (1 / 10 ^ 13)) ∧
    (∀ r, getRule cubeRules curve n = some r → Integrates cubeG r n (1 / 10 ^ 13)) ∧
    (∀ r, getRule hypercubeRules curve n = some r → Integrates hypercubeG r n (1 / 10 ^ 13)) ∧
    (∀ r, getRule triangleRules curve n = some r → Integrates triangleG r n (1 / 10 ^ 13)) ∧
    (∀ r, getRule prismRules curve n = some r → Integrates prismG r n (1 / 10 ^ 9)) ∧
    (∀ r, getRule pyramidRules curve n = some r → Integrates pyramidG r n (1 / 10 ^ 10)) := by
  have key : ∀ {d : Nat} {g : Geom d} {added : List (Rule d)} {ε : ℝ},
      (∀ r ∈ added.foldl addRule [], Integrates g r r.order ε ∧ PointsInside g r) →
      ∀ r, getRule (added.foldl addRule []) curve n = some r → Integrates g r n ε := by
    intro d g added ε h r hr
    obtain ⟨h1, h2, -⟩ := getRule_lowest added curve n r hr
    exact (h r (((foldl_perm added []).mem_iff).2 (by simpa using h1))).1.mono h2 (le_refl _)
  exact ⟨key point_rules, key line_rules, key square_rules, key cube_rules, key hypercube_rules,
    key triangle_rules, key prism_rules, key pyramid_rules⟩

/-- For the tetrahedron the requests for order 7 and 9 are the only exceptions. Missing: these two
requests. -/
theorem requested_tetrahedron_partial {curve : Option Nat} {n : Nat} (r : Rule 3)
    (h : getRule tetrahedronRules curve n = some r)
    (hn : (n ≠ 7 ∨ r.order ≠ 7) ∧ (n ≠ 9 ∨ r.order ≠ 9)) :
    Integrates tetrahedronG r n (1 / 10 ^ 13) := by
  obtain ⟨h1, h2, -⟩ := getRule_lowest _ curve n r h
  have h3 := (tetrahedron_rules_partial r (((foldl_perm _ []).mem_iff).2 (by simpa using h1))).1
  refine h3.mono ?_ (le_refl _)
  split <;> omega

/-- The rule for the tetrahedron that answers a request for order 7 is not accurate for degree 7:
for the monomial `x ^ 7` the error exceeds 4e-8 (the integral is `1 / 720`). -/
theorem tetrahedron_order_7 : ∃ r, getRule tetrahedronRules none 7 = some r ∧ r.order = 7 ∧
    ¬ Integrates tetrahedronG r 7 (1 / 25000000) := by
  refine ⟨T3_7_31, ?_, rfl, fun h => ?_⟩
  · simp [getRule, tetrahedronRules, addRule, Tn3_1_1, Tn3_2_4, Tn3_3_10, Tn3_4_14, T3_5_14, T3_6_24,
      T3_7_31, T3_8_43, T3_9_53, T3_10_126, ofTable]
  · have h1 := mono_of_integrates (by simp [T3_7_31, ofTable, T3_7_31T]) h ![7, 0, 0]
      (by simp [Fin.sum_univ_three])
    exact absurd T3_7_31_off (not_lt.2 (by simpa using h1))

/-- The rule for the tetrahedron that answers a request for order 9 is not accurate for degree 9:
for the monomial `x ^ 9` the error exceeds 1e-8 (the integral is `1 / 1320`). -/
theorem tetrahedron_order_9 : ∃ r, getRule tetrahedronRules none 9 = some r ∧ r.order = 9 ∧
    ¬ Integrates tetrahedronG r 9 (1 / 100000000) := by
  refine ⟨T3_9_53, ?_, rfl, fun h => ?_⟩
  · simp [getRule, tetrahedronRules, addRule, Tn3_1_1, Tn3_2_4, Tn3_3_10, Tn3_4_14, T3_5_14, T3_6_24,
      T3_7_31, T3_8_43, T3_9_53, T3_10_126, ofTable]
  · have h1 := mono_of_integrates (by simp [T3_9_53, ofTable, T3_9_53T]) h ![9, 0, 0]
      (by simp [Fin.sum_univ_three])
    exact absurd T3_9_53_off (not_lt.2 (by simpa using h1))

/-! ### Volumes -/

/-- The weights of an accurate rule add up to the volume of the shape. -/
theorem weights_volume {d : Nat} {g : Geom d} {r : Rule d} {n : Nat} {ε : ℝ}
    (h : Integrates g r n ε) (hr : r.number = r.points.length) :
    |(r.points.map fun q => q.1).sum - (volume (body g)).toReal| ≤ ε := by
  obtain ⟨v, hv, hle⟩ := h 1 (by simp)
  have hne : r.points ≠ [] := by
    intro hnil
    simp [Rule.integrate, hnil] at hv
  rw [integrate_eq r ⟨hne, hr⟩] at hv
  simp only [quadSum, map_one, mul_one, Option.some.injEq] at hv
  have h1 : coeffSum (1 : MvPolynomial (Fin d) ℝ) = 1 := by
    rw [coeffSum, ← MvPolynomial.C_1, ← MvPolynomial.monomial_zero',
      MvPolynomial.support_monomial, if_neg one_ne_zero]
    simp
  simp only [h1, map_one, mul_one] at hle
  rw [hv]
  simpa [Measure.real] using hle

/-- The volumes of the shapes. -/
theorem volumes :
    (volume (body lineG)).toReal = 2 ∧ (volume (body squareG)).toReal = 4 ∧
    (volume (body cubeG)).toReal = 8 ∧ (volume (body hypercubeG)).toReal = 16 ∧
    (volume (body triangleG)).toReal = 1 / 2 ∧ (volume (body tetrahedronG)).toReal = 1 / 6 ∧
    (volume (body prismG)).toReal = 1 ∧ (volume (body pyramidG)).toReal = 4 / 3 := by
  have key : ∀ {d : Nat} (g : Geom d),
      (volume (body g)).toReal = ∫ x in body g, ∏ i, x i ^ (0 : Fin d → ℕ) i := by
    intro d g; simp [Measure.real]
  rw [key lineG, key squareG, key cubeG, key hypercubeG, key triangleG, key tetrahedronG,
    key prismG, key pyramidG, line_body, square_body, cube_body, hypercube_body, unit_box,
    unit_box, unit_box, unit_box, triangle_integral, tetrahedron_integral, prism_integral,
    pyramid_integral]
  norm_num [Fin.prod_univ_succ, lineMoment, Nat.factorial]

/-- Not vacuous: a polynomial of degree two on the triangle, and a request that is answered. -/
example : (MvPolynomial.X 0 * MvPolynomial.X 1 : MvPolynomial (Fin 2) ℝ).totalDegree ≤ 2 ∧
    ∃ r, getRule triangleRules none 2 = some r ∧ Integrates triangleG r 2 (1 / 10 ^ 13) := by
  refine ⟨(MvPolynomial.totalDegree_mul _ _).trans (by simp), Tn2_2_3, ?_, ?_⟩
  · simp [getRule, triangleRules, addRule, Tn2_1_1, Tn2_2_3, Tn2_4_6, T2_5_7, T2_6_12, T2_8_16,
      T2_9_19, T2_10_25, T2_11_28, ofTable]
  · exact (Tn2_2_3_integrates).mono (le_refl _) (by norm_num)

end Verif.Quadrature
