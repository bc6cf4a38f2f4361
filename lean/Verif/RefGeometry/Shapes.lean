import Verif.RefGeometry.Lemmas
import Mathlib.Tactic.Positivity

/-! Checks of `Good` for each shape. -/
set_option linter.all false
namespace Verif.RefGeometry
open Matrix

theorem point_vrep (p : Pt 0) : p ∈ convexHull ℝ {x | x ∈ pointG.nodes} := by
  apply subset_convexHull
  have : p = ![] := Subsingleton.elim _ _
  simp [pointG, this]

theorem line_vrep (p : Pt 1) (hp : lineG.isInternal p) :
    p ∈ convexHull ℝ {x | x ∈ lineG.nodes} := by
  simp only [lineG] at hp
  obtain ⟨h0, h1⟩ := hp
  have a0 : 0 ≤ 1 - p 0 := by linarith
  have b0 : 0 ≤ 1 + p 0 := by linarith
  refine mem_hull_of_weights lineG.nodes (n := 2) rfl
    ![(1 - p 0) / 2,
      (1 + p 0) / 2] ?_ ?_ _ ?_
  · intro i
    fin_cases i <;> simp <;> first | positivity | linarith
  · simp [Fin.sum_univ_succ] <;> ring
  · ext i
    fin_cases i <;> simp [Fin.sum_univ_succ, lineG] <;> ring

theorem square_vrep (p : Pt 2) (hp : squareG.isInternal p) :
    p ∈ convexHull ℝ {x | x ∈ squareG.nodes} := by
  simp only [squareG] at hp
  obtain ⟨h0, h1, h2, h3⟩ := hp
  have a0 : 0 ≤ 1 - p 0 := by linarith
  have b0 : 0 ≤ 1 + p 0 := by linarith
  have a1 : 0 ≤ 1 - p 1 := by linarith
  have b1 : 0 ≤ 1 + p 1 := by linarith
  refine mem_hull_of_weights squareG.nodes (n := 4) rfl
    ![(1 - p 0) * (1 - p 1) / 4,
      (1 + p 0) * (1 - p 1) / 4,
      (1 - p 0) * (1 + p 1) / 4,
      (1 + p 0) * (1 + p 1) / 4] ?_ ?_ _ ?_
  · intro i
    fin_cases i <;> simp <;> first | positivity | linarith
  · simp [Fin.sum_univ_succ] <;> ring
  · ext i
    fin_cases i <;> simp [Fin.sum_univ_succ, squareG] <;> ring

theorem cube_vrep (p : Pt 3) (hp : cubeG.isInternal p) :
    p ∈ convexHull ℝ {x | x ∈ cubeG.nodes} := by
  simp only [cubeG] at hp
  obtain ⟨h0, h1, h2, h3, h4, h5⟩ := hp
  have a0 : 0 ≤ 1 - p 0 := by linarith
  have b0 : 0 ≤ 1 + p 0 := by linarith
  have a1 : 0 ≤ 1 - p 1 := by linarith
  have b1 : 0 ≤ 1 + p 1 := by linarith
  have a2 : 0 ≤ 1 - p 2 := by linarith
  have b2 : 0 ≤ 1 + p 2 := by linarith
  refine mem_hull_of_weights cubeG.nodes (n := 8) rfl
    ![(1 - p 0) * (1 - p 1) * (1 - p 2) / 8,
      (1 + p 0) * (1 - p 1) * (1 - p 2) / 8,
      (1 - p 0) * (1 + p 1) * (1 - p 2) / 8,
      (1 + p 0) * (1 + p 1) * (1 - p 2) / 8,
      (1 - p 0) * (1 - p 1) * (1 + p 2) / 8,
      (1 + p 0) * (1 - p 1) * (1 + p 2) / 8,
      (1 - p 0) * (1 + p 1) * (1 + p 2) / 8,
      (1 + p 0) * (1 + p 1) * (1 + p 2) / 8] ?_ ?_ _ ?_
  · intro i
    fin_cases i <;> simp <;> first | positivity | linarith
  · simp [Fin.sum_univ_succ] <;> ring
  · ext i
    fin_cases i <;> simp [Fin.sum_univ_succ, cubeG] <;> ring

theorem hypercube_vrep (p : Pt 4) (hp : hypercubeG.isInternal p) :
    p ∈ convexHull ℝ {x | x ∈ hypercubeG.nodes} := by
  simp only [hypercubeG] at hp
  obtain ⟨h0, h1, h2, h3, h4, h5, h6, h7⟩ := hp
  have a0 : 0 ≤ 1 - p 0 := by linarith
  have b0 : 0 ≤ 1 + p 0 := by linarith
  have a1 : 0 ≤ 1 - p 1 := by linarith
  have b1 : 0 ≤ 1 + p 1 := by linarith
  have a2 : 0 ≤ 1 - p 2 := by linarith
  have b2 : 0 ≤ 1 + p 2 := by linarith
  have a3 : 0 ≤ 1 - p 3 := by linarith
  have b3 : 0 ≤ 1 + p 3 := by linarith
  refine mem_hull_of_weights hypercubeG.nodes (n := 16) rfl
    ![(1 - p 0) * (1 - p 1) * (1 - p 2) * (1 - p 3) / 16,
      (1 + p 0) * (1 - p 1) * (1 - p 2) * (1 - p 3) / 16,
      (1 - p 0) * (1 + p 1) * (1 - p 2) * (1 - p 3) / 16,
      (1 + p 0) * (1 + p 1) * (1 - p 2) * (1 - p 3) / 16,
      (1 - p 0) * (1 - p 1) * (1 + p 2) * (1 - p 3) / 16,
      (1 + p 0) * (1 - p 1) * (1 + p 2) * (1 - p 3) / 16,
      (1 - p 0) * (1 + p 1) * (1 + p 2) * (1 - p 3) / 16,
      (1 + p 0) * (1 + p 1) * (1 + p 2) * (1 - p 3) / 16,
      (1 - p 0) * (1 - p 1) * (1 - p 2) * (1 + p 3) / 16,
      (1 + p 0) * (1 - p 1) * (1 - p 2) * (1 + p 3) / 16,
      (1 - p 0) * (1 + p 1) * (1 - p 2) * (1 + p 3) / 16,
      (1 + p 0) * (1 + p 1) * (1 - p 2) * (1 + p 3) / 16,
      (1 - p 0) * (1 - p 1) * (1 + p 2) * (1 + p 3) / 16,
      (1 + p 0) * (1 - p 1) * (1 + p 2) * (1 + p 3) / 16,
      (1 - p 0) * (1 + p 1) * (1 + p 2) * (1 + p 3) / 16,
      (1 + p 0) * (1 + p 1) * (1 + p 2) * (1 + p 3) / 16] ?_ ?_ _ ?_
  · intro i
    fin_cases i <;> simp <;> first | positivity | linarith
  · simp [Fin.sum_univ_succ] <;> ring
  · ext i
    fin_cases i <;> simp [Fin.sum_univ_succ, hypercubeG] <;> ring

theorem triangle_vrep (p : Pt 2) (hp : triangleG.isInternal p) :
    p ∈ convexHull ℝ {x | x ∈ triangleG.nodes} := by
  simp only [triangleG] at hp
  obtain ⟨h0, h1, h2, h3⟩ := hp
  refine mem_hull_of_weights triangleG.nodes (n := 3) rfl
    ![1 - p 0 - p 1,
      p 0,
      p 1] ?_ ?_ _ ?_
  · intro i
    fin_cases i <;> simp <;> first | positivity | linarith
  · simp [Fin.sum_univ_succ] <;> ring
  · ext i
    fin_cases i <;> simp [Fin.sum_univ_succ, triangleG] <;> ring

theorem tetrahedron_vrep (p : Pt 3) (hp : tetrahedronG.isInternal p) :
    p ∈ convexHull ℝ {x | x ∈ tetrahedronG.nodes} := by
  simp only [tetrahedronG] at hp
  obtain ⟨h0, h1, h2, h3, h4, h5⟩ := hp
  refine mem_hull_of_weights tetrahedronG.nodes (n := 4) rfl
    ![1 - p 0 - p 1 - p 2,
      p 0,
      p 1,
      p 2] ?_ ?_ _ ?_
  · intro i
    fin_cases i <;> simp <;> first | positivity | linarith
  · simp [Fin.sum_univ_succ] <;> ring
  · ext i
    fin_cases i <;> simp [Fin.sum_univ_succ, tetrahedronG] <;> ring

theorem prism_vrep (p : Pt 3) (hp : prismG.isInternal p) :
    p ∈ convexHull ℝ {x | x ∈ prismG.nodes} := by
  simp only [prismG] at hp
  obtain ⟨h0, h1, h2, h3, h4, h5⟩ := hp
  have a0 : 0 ≤ 1 - p 0 - p 1 := by linarith
  have a2 : 0 ≤ 1 - p 2 := by linarith
  have b2 : 0 ≤ 1 + p 2 := by linarith
  refine mem_hull_of_weights prismG.nodes (n := 6) rfl
    ![(1 - p 0 - p 1) * (1 - p 2) / 2,
      p 0 * (1 - p 2) / 2,
      p 1 * (1 - p 2) / 2,
      (1 - p 0 - p 1) * (1 + p 2) / 2,
      p 0 * (1 + p 2) / 2,
      p 1 * (1 + p 2) / 2] ?_ ?_ _ ?_
  · intro i
    fin_cases i <;> simp <;> first | positivity | linarith
  · simp [Fin.sum_univ_succ] <;> ring
  · ext i
    fin_cases i <;> simp [Fin.sum_univ_succ, prismG] <;> ring

theorem pyramid_vrep (p : Pt 3) (hp : pyramidG.isInternal p) :
    p ∈ convexHull ℝ {x | x ∈ pyramidG.nodes} := by
  simp only [pyramidG] at hp
  obtain ⟨h0, h1, h2, h3⟩ := hp
  rw [abs_le] at h2 h3
  obtain ⟨h2, h4⟩ := h2
  obtain ⟨h3, h5⟩ := h3
  rcases eq_or_lt_of_le h1 with h | h
  · apply subset_convexHull
    have e : p = ![0, 0, 1] := by
      ext i
      fin_cases i <;> simp <;> linarith
    simp [pyramidG, e]
  · have hz : 0 < 1 - p 2 := by linarith
    have hz' : 1 - p 2 ≠ 0 := hz.ne'
    have a0 : 0 ≤ 1 - p 2 - p 0 := by linarith
    have b0 : 0 ≤ 1 - p 2 + p 0 := by linarith
    have a1 : 0 ≤ 1 - p 2 - p 1 := by linarith
    have b1 : 0 ≤ 1 - p 2 + p 1 := by linarith
    refine mem_hull_of_weights pyramidG.nodes (n := 5) rfl
      ![p 2, (1 - p 2 - p 0) * (1 - p 2 - p 1) / (4 * (1 - p 2)),
        (1 - p 2 + p 0) * (1 - p 2 - p 1) / (4 * (1 - p 2)),
        (1 - p 2 - p 0) * (1 - p 2 + p 1) / (4 * (1 - p 2)),
        (1 - p 2 + p 0) * (1 - p 2 + p 1) / (4 * (1 - p 2))] ?_ ?_ _ ?_
    · intro i
      fin_cases i <;> simp <;> positivity
    · simp [Fin.sum_univ_succ]
      field_simp
      ring
    · ext i
      fin_cases i <;> simp [Fin.sum_univ_succ, pyramidG] <;> field_simp <;> ring

section Good

theorem level_zero (f : Face 0) (x : Pt 1) (x0 u : ℝ) (ht : f.map.transform 0 = ![u])
    (hx0 : x 0 = x0) : level f x = f.map.sign * (x0 - u) := by
  subst hx0
  rw [level, ht]
  simp [conormal, dotProduct]

theorem level_zero' (f : Face 0) (x : Pt 1) (x0 u : ℝ) (ht : f.map.transform 0 = ![u])
    (hx : x = ![x0]) : level f x = f.map.sign * (x0 - u) :=
  level_zero f x x0 u ht (by rw [hx]; rfl)

theorem level_one (f : Face 1) (x : Pt 2) (x0 x1 a b u v : ℝ)
    (hJ : f.map.jacobian 0 = (!![a; b] : Matrix (Fin 2) (Fin 1) ℝ))
    (ht : f.map.transform 0 = ![u, v]) (hx0 : x 0 = x0) (hx1 : x 1 = x1) :
    level f x = f.map.sign * (-b * (x0 - u) + a * (x1 - v)) := by
  subst hx0 hx1
  simp [level, conormal, dotProduct, Fin.sum_univ_succ, wedge2, hJ, ht]
  ring

theorem level_one' (f : Face 1) (x : Pt 2) (x0 x1 a b u v : ℝ)
    (hJ : f.map.jacobian 0 = (!![a; b] : Matrix (Fin 2) (Fin 1) ℝ))
    (ht : f.map.transform 0 = ![u, v]) (hx : x = ![x0, x1]) :
    level f x = f.map.sign * (-b * (x0 - u) + a * (x1 - v)) :=
  level_one f x x0 x1 a b u v hJ ht (by rw [hx]; rfl) (by rw [hx]; rfl)

theorem level_two (f : Face 2) (x : Pt 3) (x0 x1 x2 a b c d e g u v w : ℝ)
    (hJ : f.map.jacobian 0 = (!![a, b; c, d; e, g] : Matrix (Fin 3) (Fin 2) ℝ))
    (ht : f.map.transform 0 = ![u, v, w]) (hx0 : x 0 = x0) (hx1 : x 1 = x1) (hx2 : x 2 = x2) :
    level f x = f.map.sign * ((c * g - e * d) * (x0 - u) + (b * e - a * g) * (x1 - v) +
      (a * d - c * b) * (x2 - w)) := by
  subst hx0 hx1 hx2
  have h1 : wedge3 (f.map.jacobian 0) = ![c * g - e * d, b * e - a * g, a * d - c * b] := by
    rw [hJ]; rfl
  have h2 : level f x =
      (f.map.sign • ![c * g - e * d, b * e - a * g, a * d - c * b]) ⬝ᵥ (x - ![u, v, w]) := by
    rw [← h1, ← ht]; rfl
  rw [h2, dotProduct, Fin.sum_univ_three]
  simp
  ring

theorem level_two' (f : Face 2) (x : Pt 3) (x0 x1 x2 a b c d e g u v w : ℝ)
    (hJ : f.map.jacobian 0 = (!![a, b; c, d; e, g] : Matrix (Fin 3) (Fin 2) ℝ))
    (ht : f.map.transform 0 = ![u, v, w]) (hx : x = ![x0, x1, x2]) :
    level f x = f.map.sign * ((c * g - e * d) * (x0 - u) + (b * e - a * g) * (x1 - v) +
      (a * d - c * b) * (x2 - w)) :=
  level_two f x x0 x1 x2 a b c d e g u v w hJ ht (by rw [hx]; rfl) (by rw [hx]; rfl)
    (by rw [hx]; rfl)

theorem level_three (f : Face 3) (x : Pt 4) (x0 x1 x2 x3 a b c a' b' c' a'' b'' c'' e g h u v w z : ℝ)
    (hJ : f.map.jacobian 0 =
      (!![a, b, c; a', b', c'; a'', b'', c''; e, g, h] : Matrix (Fin 4) (Fin 3) ℝ))
    (ht : f.map.transform 0 = ![u, v, w, z]) (hx0 : x 0 = x0) (hx1 : x 1 = x1) (hx2 : x 2 = x2)
    (hx3 : x 3 = x3) :
    level f x = f.map.sign *
      ((a' * (-b'' * h + g * c'') + a'' * (b' * h - g * c') + e * (-b' * c'' + b'' * c')) * (x0 - u) +
       (a * (b'' * h - g * c'') + a'' * (-b * h + g * c) + e * (b * c'' - b'' * c)) * (x1 - v) +
       (a * (-b' * h + g * c') + a' * (b * h - g * c) + e * (-b * c' + b' * c)) * (x2 - w) +
       (a * (b' * c'' - b'' * c') + a' * (-b * c'' + b'' * c) + a'' * (b * c' - b' * c)) *
         (x3 - z)) := by
  subst hx0 hx1 hx2 hx3
  have h1 : wedge4 (f.map.jacobian 0) =
    ![a' * (-b'' * h + g * c'') + a'' * (b' * h - g * c') + e * (-b' * c'' + b'' * c'),
      a * (b'' * h - g * c'') + a'' * (-b * h + g * c) + e * (b * c'' - b'' * c),
      a * (-b' * h + g * c') + a' * (b * h - g * c) + e * (-b * c' + b' * c),
      a * (b' * c'' - b'' * c') + a' * (-b * c'' + b'' * c) + a'' * (b * c' - b' * c)] := by
    rw [hJ]; rfl
  have h2 : level f x = (f.map.sign • wedge4 (f.map.jacobian 0)) ⬝ᵥ (x - ![u, v, w, z]) := by
    rw [← ht]; rfl
  rw [h2, h1, dotProduct, Fin.sum_univ_four]
  simp
  ring

theorem level_three' (f : Face 3) (x : Pt 4) (x0 x1 x2 x3 a b c a' b' c' a'' b'' c'' e g h u v w z : ℝ)
    (hJ : f.map.jacobian 0 =
      (!![a, b, c; a', b', c'; a'', b'', c''; e, g, h] : Matrix (Fin 4) (Fin 3) ℝ))
    (ht : f.map.transform 0 = ![u, v, w, z]) (hx : x = ![x0, x1, x2, x3]) :
    level f x = f.map.sign *
      ((a' * (-b'' * h + g * c'') + a'' * (b' * h - g * c') + e * (-b' * c'' + b'' * c')) * (x0 - u) +
       (a * (b'' * h - g * c'') + a'' * (-b * h + g * c) + e * (b * c'' - b'' * c)) * (x1 - v) +
       (a * (-b' * h + g * c') + a' * (b * h - g * c) + e * (-b * c' + b' * c)) * (x2 - w) +
       (a * (b' * c'' - b'' * c') + a' * (-b * c'' + b'' * c) + a'' * (b * c' - b' * c)) *
         (x3 - z)) :=
  level_three f x x0 x1 x2 x3 a b c a' b' c' a'' b'' c'' e g h u v w z hJ ht (by rw [hx]; rfl)
    (by rw [hx]; rfl) (by rw [hx]; rfl) (by rw [hx]; rfl)

theorem point_hull : body pointG = convexHull ℝ {x | x ∈ pointG.nodes} := by
  ext p
  exact ⟨fun _ => point_vrep p, fun _ => trivial⟩

theorem line_good : Good ⟨lineG, lineFaces⟩ where
  hrep x := by
    simp only [lineFaces, lineG, List.forall_mem_cons, List.not_mem_nil,
      false_imp_iff, implies_true, and_true]
    rw [level_zero _ _ _ _ rfl rfl,
      level_zero _ _ _ _ rfl rfl]
    constructor
    · rintro ⟨h0, h1⟩
      refine ⟨?_, ?_⟩ <;> norm_num <;> linarith
    · rintro ⟨h0, h1⟩
      norm_num at h0 h1
      refine ⟨?_, ?_⟩ <;> linarith
  vrep := line_vrep
  nodeZip := by
    simp only [lineFaces, List.forall_mem_cons, List.not_mem_nil,
      false_imp_iff, implies_true, and_true]
    refine ⟨?_, ?_⟩ <;> simp only [lineG, List.zipIdx_cons, List.zipIdx_nil,
      List.forall_mem_cons, List.not_mem_nil, false_imp_iff, implies_true, and_true] <;>
      refine ⟨?_, ?_⟩ <;> rw [level_zero' _ _ _ _ rfl rfl] <;> norm_num
  affine := by
    simp only [lineFaces, List.forall_mem_cons, List.not_mem_nil,
      false_imp_iff, implies_true, and_true]
    refine ⟨?_, ?_⟩ <;> intro p q <;> ext i <;> fin_cases i <;>
      simp [Matrix.mulVec, dotProduct, Fin.sum_univ_succ] <;> ring
  nodes := by
    norm_num [lineFaces, lineG, pointG]
  faceHull := by
    simp only [lineFaces, List.forall_mem_cons, List.not_mem_nil,
      false_imp_iff, implies_true, and_true,
      point_hull]
  other := by
    simp only [lineFaces, List.forall_mem_cons, List.not_mem_nil,
      false_imp_iff, implies_true, and_true, lineG, List.length_cons, List.length_nil]
    decide

theorem triangle_good : Good ⟨triangleG, triangleFaces⟩ where
  hrep x := by
    simp only [triangleFaces, triangleG, List.forall_mem_cons, List.not_mem_nil,
      false_imp_iff, implies_true, and_true]
    rw [level_one _ _ _ _ _ _ _ _ rfl rfl rfl rfl,
      level_one _ _ _ _ _ _ _ _ rfl rfl rfl rfl,
      level_one _ _ _ _ _ _ _ _ rfl rfl rfl rfl]
    constructor
    · rintro ⟨h0, h1, h2, h3⟩
      refine ⟨?_, ?_, ?_⟩ <;> norm_num <;> linarith
    · rintro ⟨h0, h1, h2⟩
      norm_num at h0 h1 h2
      refine ⟨?_, ?_, ?_, ?_⟩ <;> linarith
  vrep := triangle_vrep
  nodeZip := by
    simp only [triangleFaces, List.forall_mem_cons, List.not_mem_nil,
      false_imp_iff, implies_true, and_true]
    refine ⟨?_, ?_, ?_⟩ <;> simp only [triangleG, List.zipIdx_cons, List.zipIdx_nil,
      List.forall_mem_cons, List.not_mem_nil, false_imp_iff, implies_true, and_true] <;>
      refine ⟨?_, ?_, ?_⟩ <;> rw [level_one' _ _ _ _ _ _ _ _ rfl rfl rfl] <;> norm_num
  affine := by
    simp only [triangleFaces, List.forall_mem_cons, List.not_mem_nil,
      false_imp_iff, implies_true, and_true]
    refine ⟨?_, ?_, ?_⟩ <;> intro p q <;> ext i <;> fin_cases i <;>
      simp [Matrix.mulVec, dotProduct, Fin.sum_univ_succ] <;> ring
  nodes := by
    norm_num [triangleFaces, triangleG, lineG]
  faceHull := by
    simp only [triangleFaces, List.forall_mem_cons, List.not_mem_nil,
      false_imp_iff, implies_true, and_true,
      line_good.body_eq_hull]
  other := by
    simp only [triangleFaces, List.forall_mem_cons, List.not_mem_nil,
      false_imp_iff, implies_true, and_true, triangleG, List.length_cons, List.length_nil]
    decide

theorem square_good : Good ⟨squareG, squareFaces⟩ where
  hrep x := by
    simp only [squareFaces, squareG, List.forall_mem_cons, List.not_mem_nil,
      false_imp_iff, implies_true, and_true]
    rw [level_one _ _ _ _ _ _ _ _ rfl rfl rfl rfl,
      level_one _ _ _ _ _ _ _ _ rfl rfl rfl rfl,
      level_one _ _ _ _ _ _ _ _ rfl rfl rfl rfl,
      level_one _ _ _ _ _ _ _ _ rfl rfl rfl rfl]
    constructor
    · rintro ⟨h0, h1, h2, h3⟩
      refine ⟨?_, ?_, ?_, ?_⟩ <;> norm_num <;> linarith
    · rintro ⟨h0, h1, h2, h3⟩
      norm_num at h0 h1 h2 h3
      refine ⟨?_, ?_, ?_, ?_⟩ <;> linarith
  vrep := square_vrep
  nodeZip := by
    simp only [squareFaces, List.forall_mem_cons, List.not_mem_nil,
      false_imp_iff, implies_true, and_true]
    refine ⟨?_, ?_, ?_, ?_⟩ <;> simp only [squareG, List.zipIdx_cons, List.zipIdx_nil,
      List.forall_mem_cons, List.not_mem_nil, false_imp_iff, implies_true, and_true] <;>
      refine ⟨?_, ?_, ?_, ?_⟩ <;> rw [level_one' _ _ _ _ _ _ _ _ rfl rfl rfl] <;> norm_num
  affine := by
    simp only [squareFaces, List.forall_mem_cons, List.not_mem_nil,
      false_imp_iff, implies_true, and_true]
    refine ⟨?_, ?_, ?_, ?_⟩ <;> intro p q <;> ext i <;> fin_cases i <;>
      simp [Matrix.mulVec, dotProduct, Fin.sum_univ_succ] <;> ring
  nodes := by
    norm_num [squareFaces, squareG, lineG]
  faceHull := by
    simp only [squareFaces, List.forall_mem_cons, List.not_mem_nil,
      false_imp_iff, implies_true, and_true,
      line_good.body_eq_hull]
  other := by
    simp only [squareFaces, List.forall_mem_cons, List.not_mem_nil,
      false_imp_iff, implies_true, and_true, squareG, List.length_cons, List.length_nil]
    decide

theorem tetrahedron_good : Good ⟨tetrahedronG, tetrahedronFaces⟩ where
  hrep x := by
    simp only [tetrahedronFaces, tetrahedronG, List.forall_mem_cons, List.not_mem_nil,
      false_imp_iff, implies_true, and_true]
    rw [level_two _ _ _ _ _ _ _ _ _ _ _ _ _ _ rfl rfl rfl rfl rfl,
      level_two _ _ _ _ _ _ _ _ _ _ _ _ _ _ rfl rfl rfl rfl rfl,
      level_two _ _ _ _ _ _ _ _ _ _ _ _ _ _ rfl rfl rfl rfl rfl,
      level_two _ _ _ _ _ _ _ _ _ _ _ _ _ _ rfl rfl rfl rfl rfl]
    constructor
    · rintro ⟨h0, h1, h2, h3, h4, h5⟩
      refine ⟨?_, ?_, ?_, ?_⟩ <;> norm_num <;> linarith
    · rintro ⟨h0, h1, h2, h3⟩
      norm_num at h0 h1 h2 h3
      refine ⟨?_, ?_, ?_, ?_, ?_, ?_⟩ <;> linarith
  vrep := tetrahedron_vrep
  nodeZip := by
    simp only [tetrahedronFaces, List.forall_mem_cons, List.not_mem_nil,
      false_imp_iff, implies_true, and_true]
    refine ⟨?_, ?_, ?_, ?_⟩ <;> simp only [tetrahedronG, List.zipIdx_cons, List.zipIdx_nil,
      List.forall_mem_cons, List.not_mem_nil, false_imp_iff, implies_true, and_true] <;>
      refine ⟨?_, ?_, ?_, ?_⟩ <;> rw [level_two' _ _ _ _ _ _ _ _ _ _ _ _ _ _ rfl rfl rfl] <;> norm_num
  affine := by
    simp only [tetrahedronFaces, List.forall_mem_cons, List.not_mem_nil,
      false_imp_iff, implies_true, and_true]
    refine ⟨?_, ?_, ?_, ?_⟩ <;> intro p q <;> ext i <;> fin_cases i <;>
      simp [Matrix.mulVec, dotProduct, Fin.sum_univ_succ] <;> ring
  nodes := by
    norm_num [tetrahedronFaces, tetrahedronG, triangleG]
  faceHull := by
    simp only [tetrahedronFaces, List.forall_mem_cons, List.not_mem_nil,
      false_imp_iff, implies_true, and_true,
      triangle_good.body_eq_hull]
  other := by
    simp only [tetrahedronFaces, List.forall_mem_cons, List.not_mem_nil,
      false_imp_iff, implies_true, and_true, tetrahedronG, List.length_cons, List.length_nil]
    decide

theorem pyramid_good : Good ⟨pyramidG, pyramidFaces⟩ where
  hrep x := by
    simp only [pyramidFaces, pyramidG, List.forall_mem_cons, List.not_mem_nil,
      false_imp_iff, implies_true, and_true, abs_le]
    rw [level_two _ _ _ _ _ _ _ _ _ _ _ _ _ _ rfl rfl rfl rfl rfl,
      level_two _ _ _ _ _ _ _ _ _ _ _ _ _ _ rfl rfl rfl rfl rfl,
      level_two _ _ _ _ _ _ _ _ _ _ _ _ _ _ rfl rfl rfl rfl rfl,
      level_two _ _ _ _ _ _ _ _ _ _ _ _ _ _ rfl rfl rfl rfl rfl,
      level_two _ _ _ _ _ _ _ _ _ _ _ _ _ _ rfl rfl rfl rfl rfl]
    constructor
    · rintro ⟨h0, h1, ⟨h2, h3⟩, h4, h5⟩
      refine ⟨?_, ?_, ?_, ?_, ?_⟩ <;> norm_num <;> linarith
    · rintro ⟨h0, h1, h2, h3, h4⟩
      norm_num at h0 h1 h2 h3 h4
      refine ⟨?_, ?_, ⟨?_, ?_⟩, ?_, ?_⟩ <;> linarith
  vrep := pyramid_vrep
  nodeZip := by
    simp only [pyramidFaces, List.forall_mem_cons, List.not_mem_nil,
      false_imp_iff, implies_true, and_true]
    refine ⟨?_, ?_, ?_, ?_, ?_⟩ <;> simp only [pyramidG, List.zipIdx_cons, List.zipIdx_nil,
      List.forall_mem_cons, List.not_mem_nil, false_imp_iff, implies_true, and_true] <;>
      refine ⟨?_, ?_, ?_, ?_, ?_⟩ <;> rw [level_two' _ _ _ _ _ _ _ _ _ _ _ _ _ _ rfl rfl rfl] <;> norm_num
  affine := by
    simp only [pyramidFaces, List.forall_mem_cons, List.not_mem_nil,
      false_imp_iff, implies_true, and_true]
    refine ⟨?_, ?_, ?_, ?_, ?_⟩ <;> intro p q <;> ext i <;> fin_cases i <;>
      simp [Matrix.mulVec, dotProduct, Fin.sum_univ_succ] <;> ring
  nodes := by
    norm_num [pyramidFaces, pyramidG, triangleG, squareG]
  faceHull := by
    simp only [pyramidFaces, List.forall_mem_cons, List.not_mem_nil,
      false_imp_iff, implies_true, and_true,
      triangle_good.body_eq_hull, square_good.body_eq_hull]
  other := by
    simp only [pyramidFaces, List.forall_mem_cons, List.not_mem_nil,
      false_imp_iff, implies_true, and_true, pyramidG, List.length_cons, List.length_nil]
    decide

theorem prism_good : Good ⟨prismG, prismFaces⟩ where
  hrep x := by
    simp only [prismFaces, prismG, List.forall_mem_cons, List.not_mem_nil,
      false_imp_iff, implies_true, and_true]
    rw [level_two _ _ _ _ _ _ _ _ _ _ _ _ _ _ rfl rfl rfl rfl rfl,
      level_two _ _ _ _ _ _ _ _ _ _ _ _ _ _ rfl rfl rfl rfl rfl,
      level_two _ _ _ _ _ _ _ _ _ _ _ _ _ _ rfl rfl rfl rfl rfl,
      level_two _ _ _ _ _ _ _ _ _ _ _ _ _ _ rfl rfl rfl rfl rfl,
      level_two _ _ _ _ _ _ _ _ _ _ _ _ _ _ rfl rfl rfl rfl rfl]
    constructor
    · rintro ⟨h0, h1, h2, h3, h4, h5⟩
      refine ⟨?_, ?_, ?_, ?_, ?_⟩ <;> norm_num <;> linarith
    · rintro ⟨h0, h1, h2, h3, h4⟩
      norm_num at h0 h1 h2 h3 h4
      refine ⟨?_, ?_, ?_, ?_, ?_, ?_⟩ <;> linarith
  vrep := prism_vrep
  nodeZip := by
    simp only [prismFaces, List.forall_mem_cons, List.not_mem_nil,
      false_imp_iff, implies_true, and_true]
    refine ⟨?_, ?_, ?_, ?_, ?_⟩ <;> simp only [prismG, List.zipIdx_cons, List.zipIdx_nil,
      List.forall_mem_cons, List.not_mem_nil, false_imp_iff, implies_true, and_true] <;>
      refine ⟨?_, ?_, ?_, ?_, ?_, ?_⟩ <;> rw [level_two' _ _ _ _ _ _ _ _ _ _ _ _ _ _ rfl rfl rfl] <;> norm_num
  affine := by
    simp only [prismFaces, List.forall_mem_cons, List.not_mem_nil,
      false_imp_iff, implies_true, and_true]
    refine ⟨?_, ?_, ?_, ?_, ?_⟩ <;> intro p q <;> ext i <;> fin_cases i <;>
      simp [Matrix.mulVec, dotProduct, Fin.sum_univ_succ] <;> ring
  nodes := by
    norm_num [prismFaces, prismG, triangleG, squareG]
  faceHull := by
    simp only [prismFaces, List.forall_mem_cons, List.not_mem_nil,
      false_imp_iff, implies_true, and_true,
      triangle_good.body_eq_hull, square_good.body_eq_hull]
  other := by
    simp only [prismFaces, List.forall_mem_cons, List.not_mem_nil,
      false_imp_iff, implies_true, and_true, prismG, List.length_cons, List.length_nil]
    decide

theorem cube_good : Good ⟨cubeG, cubeFaces⟩ where
  hrep x := by
    simp only [cubeFaces, cubeG, List.forall_mem_cons, List.not_mem_nil,
      false_imp_iff, implies_true, and_true]
    rw [level_two _ _ _ _ _ _ _ _ _ _ _ _ _ _ rfl rfl rfl rfl rfl,
      level_two _ _ _ _ _ _ _ _ _ _ _ _ _ _ rfl rfl rfl rfl rfl,
      level_two _ _ _ _ _ _ _ _ _ _ _ _ _ _ rfl rfl rfl rfl rfl,
      level_two _ _ _ _ _ _ _ _ _ _ _ _ _ _ rfl rfl rfl rfl rfl,
      level_two _ _ _ _ _ _ _ _ _ _ _ _ _ _ rfl rfl rfl rfl rfl,
      level_two _ _ _ _ _ _ _ _ _ _ _ _ _ _ rfl rfl rfl rfl rfl]
    constructor
    · rintro ⟨h0, h1, h2, h3, h4, h5⟩
      refine ⟨?_, ?_, ?_, ?_, ?_, ?_⟩ <;> norm_num <;> linarith
    · rintro ⟨h0, h1, h2, h3, h4, h5⟩
      norm_num at h0 h1 h2 h3 h4 h5
      refine ⟨?_, ?_, ?_, ?_, ?_, ?_⟩ <;> linarith
  vrep := cube_vrep
  nodeZip := by
    simp only [cubeFaces, List.forall_mem_cons, List.not_mem_nil,
      false_imp_iff, implies_true, and_true]
    refine ⟨?_, ?_, ?_, ?_, ?_, ?_⟩ <;> simp only [cubeG, List.zipIdx_cons, List.zipIdx_nil,
      List.forall_mem_cons, List.not_mem_nil, false_imp_iff, implies_true, and_true] <;>
      refine ⟨?_, ?_, ?_, ?_, ?_, ?_, ?_, ?_⟩ <;> rw [level_two' _ _ _ _ _ _ _ _ _ _ _ _ _ _ rfl rfl rfl] <;> norm_num
  affine := by
    simp only [cubeFaces, List.forall_mem_cons, List.not_mem_nil,
      false_imp_iff, implies_true, and_true]
    refine ⟨?_, ?_, ?_, ?_, ?_, ?_⟩ <;> intro p q <;> ext i <;> fin_cases i <;>
      simp [Matrix.mulVec, dotProduct, Fin.sum_univ_succ] <;> ring
  nodes := by
    norm_num [cubeFaces, cubeG, squareG]
  faceHull := by
    simp only [cubeFaces, List.forall_mem_cons, List.not_mem_nil,
      false_imp_iff, implies_true, and_true,
      square_good.body_eq_hull]
  other := by
    simp only [cubeFaces, List.forall_mem_cons, List.not_mem_nil,
      false_imp_iff, implies_true, and_true, cubeG, List.length_cons, List.length_nil]
    decide

theorem hypercube_good : Good ⟨hypercubeG, hypercubeFaces⟩ where
  hrep x := by
    simp only [hypercubeFaces, hypercubeG, List.forall_mem_cons, List.not_mem_nil,
      false_imp_iff, implies_true, and_true]
    rw [level_three _ _ _ _ _ _ _ _ _ _ _ _ _ _ _ _ _ _ _ _ _ _ rfl rfl rfl rfl rfl rfl,
      level_three _ _ _ _ _ _ _ _ _ _ _ _ _ _ _ _ _ _ _ _ _ _ rfl rfl rfl rfl rfl rfl,
      level_three _ _ _ _ _ _ _ _ _ _ _ _ _ _ _ _ _ _ _ _ _ _ rfl rfl rfl rfl rfl rfl,
      level_three _ _ _ _ _ _ _ _ _ _ _ _ _ _ _ _ _ _ _ _ _ _ rfl rfl rfl rfl rfl rfl,
      level_three _ _ _ _ _ _ _ _ _ _ _ _ _ _ _ _ _ _ _ _ _ _ rfl rfl rfl rfl rfl rfl,
      level_three _ _ _ _ _ _ _ _ _ _ _ _ _ _ _ _ _ _ _ _ _ _ rfl rfl rfl rfl rfl rfl,
      level_three _ _ _ _ _ _ _ _ _ _ _ _ _ _ _ _ _ _ _ _ _ _ rfl rfl rfl rfl rfl rfl,
      level_three _ _ _ _ _ _ _ _ _ _ _ _ _ _ _ _ _ _ _ _ _ _ rfl rfl rfl rfl rfl rfl]
    constructor
    · rintro ⟨h0, h1, h2, h3, h4, h5, h6, h7⟩
      refine ⟨?_, ?_, ?_, ?_, ?_, ?_, ?_, ?_⟩ <;> norm_num <;> linarith
    · rintro ⟨h0, h1, h2, h3, h4, h5, h6, h7⟩
      norm_num at h0 h1 h2 h3 h4 h5 h6 h7
      refine ⟨?_, ?_, ?_, ?_, ?_, ?_, ?_, ?_⟩ <;> linarith
  vrep := hypercube_vrep
  nodeZip := by
    simp only [hypercubeFaces, List.forall_mem_cons, List.not_mem_nil,
      false_imp_iff, implies_true, and_true]
    refine ⟨?_, ?_, ?_, ?_, ?_, ?_, ?_, ?_⟩ <;> simp only [hypercubeG, List.zipIdx_cons, List.zipIdx_nil,
      List.forall_mem_cons, List.not_mem_nil, false_imp_iff, implies_true, and_true] <;>
      refine ⟨?_, ?_, ?_, ?_, ?_, ?_, ?_, ?_, ?_, ?_, ?_, ?_, ?_, ?_, ?_, ?_⟩ <;> rw [level_three' _ _ _ _ _ _ _ _ _ _ _ _ _ _ _ _ _ _ _ _ _ _ rfl rfl rfl] <;> norm_num
  affine := by
    simp only [hypercubeFaces, List.forall_mem_cons, List.not_mem_nil,
      false_imp_iff, implies_true, and_true]
    refine ⟨?_, ?_, ?_, ?_, ?_, ?_, ?_, ?_⟩ <;> intro p q <;> ext i <;> fin_cases i <;>
      simp [Matrix.mulVec, dotProduct, Fin.sum_univ_succ] <;> ring
  nodes := by
    norm_num [hypercubeFaces, hypercubeG, cubeG]
    exact ⟨rfl, rfl, rfl, rfl, rfl, rfl, rfl, rfl⟩
  faceHull := by
    simp only [hypercubeFaces, List.forall_mem_cons, List.not_mem_nil,
      false_imp_iff, implies_true, and_true,
      cube_good.body_eq_hull]
  other := by
    simp only [hypercubeFaces, List.forall_mem_cons, List.not_mem_nil,
      false_imp_iff, implies_true, and_true, hypercubeG, List.length_cons, List.length_nil]
    decide

theorem shapes_good (d : Nat) (S : Shape d) (hS : S ∈ shapes d) : Good S := by
  match d, S, hS with
  | 0, S, hS =>
    simp only [shapes, List.mem_cons, List.not_mem_nil, or_false] at hS
    subst hS; exact line_good
  | 1, S, hS =>
    simp only [shapes, List.mem_cons, List.not_mem_nil, or_false] at hS
    rcases hS with rfl | rfl
    · exact triangle_good
    · exact square_good
  | 2, S, hS =>
    simp only [shapes, List.mem_cons, List.not_mem_nil, or_false] at hS
    rcases hS with rfl | rfl | rfl | rfl
    · exact tetrahedron_good
    · exact pyramid_good
    · exact prism_good
    · exact cube_good
  | 3, S, hS =>
    simp only [shapes, List.mem_cons, List.not_mem_nil, or_false] at hS
    subst hS; exact hypercube_good
  | _ + 4, S, hS => simp [shapes] at hS

end Good
end Verif.RefGeometry
