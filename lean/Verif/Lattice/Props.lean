import Verif.Lattice.LemmasCurved

/-! # Properties of the Lagrange lattices (C02, C03, C04, C45, C46)

`Enumerates`, `simplexLattice`, `tensorLattice` and `EdgesAt` are in Spec.lean. -/
namespace Verif.Lattice
open RefGeometry

/-- C02. For every order `n ≥ 1` the VTK triangle has `(n+1)(n+2)/2` points: every lattice point of
the reference triangle exactly once, all inside it, the corners first, then the inner points of the
three edges in cyclic order, and the interior is the triangle of order `n - 3`, shrunk. -/
theorem vtkTriangle_complete (n : Nat) (hn : 1 ≤ n) :
    ∃ pts, vtkTriangle n = some pts ∧ pts.length = (n + 1) * (n + 2) / 2 ∧
      Enumerates pts (simplexLattice 2 n) ∧ (∀ p ∈ pts, triangleG.isInternal p) ∧
      pts.take 3 = [![0, 0], ![1, 0], ![0, 1]] ∧
      EdgesAt pts n 3 [(![0, 0], ![1, 0]), (![1, 0], ![0, 1]), (![0, 1], ![0, 0])] ∧
      (4 ≤ n → ∃ sub, vtkTriangle (n - 3) = some sub ∧
        pts.drop (3 * n) = sub.map fun p i => (1 + ((n : ℝ) - 3) * p i) / n) := by
  refine ⟨_, vtkTriangle_eq n, by rw [List.length_map, triLayers_count], triangle_enumerates n hn,
    fun p hp => triangle_inside n (((triangle_enumerates n hn).2 p).mp hp) hn, triangle_corners n hn,
    triangle_edges n hn, fun h4 => ⟨_, vtkTriangle_eq (n - 3), triangle_interior n h4⟩⟩

example : ∃ pts, vtkTriangle 5 = some pts ∧ pts.length = 21 ∧ ![1 / 5, 2 / 5] ∈ pts := by
  obtain ⟨pts, h1, h2, h3, _⟩ := vtkTriangle_complete 5 (by norm_num)
  exact ⟨pts, h1, h2, (h3.2 _).mpr ⟨![1, 2], by simp, by funext i; fin_cases i <;> simp⟩⟩

/-- C03. For every order `n ≥ 1` the VTK tetrahedron has `(n+1)(n+2)(n+3)/6` points: every lattice
point of the reference tetrahedron exactly once, all inside it; first the four corners, then the
inner points of the six edges, then those of the four faces (opposite to corner 2, 0, 1 and 3), and
the interior is the tetrahedron of order `n - 4`, shrunk. -/
theorem vtkTetrahedron_complete (n : Nat) (hn : 1 ≤ n) :
    ∃ pts, vtkTetrahedron n = some pts ∧ pts.length = (n + 1) * (n + 2) * (n + 3) / 6 ∧
      Enumerates pts (simplexLattice 3 n) ∧ (∀ p ∈ pts, tetrahedronG.isInternal p) ∧
      pts.take 4 = [![0, 0, 0], ![1, 0, 0], ![0, 1, 0], ![0, 0, 1]] ∧
      EdgesAt pts n 4
        [(![0, 0, 0], ![1, 0, 0]), (![1, 0, 0], ![0, 1, 0]), (![0, 1, 0], ![0, 0, 0]),
          (![0, 0, 0], ![0, 0, 1]), (![1, 0, 0], ![0, 0, 1]), (![0, 1, 0], ![0, 0, 1])] ∧
      (∀ i < (n - 1) * (n - 2) / 2, ∀ (k : Nat) (p : Pt 3),
        pts[4 + 6 * (n - 1) + k * ((n - 1) * (n - 2) / 2) + i]? = some p →
          (k = 0 → p 1 = 0) ∧ (k = 1 → p 0 + p 1 + p 2 = 1) ∧ (k = 2 → p 0 = 0) ∧
          (k = 3 → p 2 = 0)) ∧
      (5 ≤ n → ∃ sub, vtkTetrahedron (n - 4) = some sub ∧
        pts.drop (2 * (n * n + 1)) = sub.map fun p i => (1 + ((n : ℝ) - 4) * p i) / n) := by
  refine ⟨_, vtkTetrahedron_eq n, by rw [List.length_map, tetLayers_count],
    tetrahedron_enumerates n hn,
    fun p hp => tetrahedron_inside n (((tetrahedron_enumerates n hn).2 p).mp hp) hn,
    tetrahedron_corners n hn, tetrahedron_edges n hn,
    fun i hi k p hp => tetrahedron_faces n hn i p hi k hp,
    fun h5 => ⟨_, vtkTetrahedron_eq (n - 4), tetrahedron_interior n h5⟩⟩

example : ∃ pts, vtkTetrahedron 6 = some pts ∧ pts.length = 84 ∧ ![1 / 6, 2 / 6, 3 / 6] ∈ pts := by
  obtain ⟨pts, h1, h2, h3, _⟩ := vtkTetrahedron_complete 6 (by norm_num)
  exact ⟨pts, h1, h2, (h3.2 _).mpr
    ⟨![1, 2, 3], by simp [Fin.sum_univ_three], by funext i; fin_cases i <;> simp⟩⟩

/-- C04. For every order `n ≥ 1` the VTK curve lists the `n + 1` points that divide `[-1,1]` in `n`
equal parts exactly once: the two ends, then the others from left to right. -/
theorem vtkCurve_complete (n : Nat) (hn : 1 ≤ n) :
    ∃ pts, vtkCurve n = some pts ∧ pts.length = n + 1 ∧ Enumerates pts (tensorLattice 1 n) ∧
      (∀ p ∈ pts, lineG.isInternal p) ∧ pts.take 2 = [![-1], ![1]] ∧
      EdgesAt pts n 2 [(![-1], ![1])] := by
  refine ⟨_, vtkCurve_eq n hn, by simp [curveList]; omega, curve_enumerates n hn, fun p hp => ?_,
    by simp [curveList], curve_edges n hn⟩
  exact tensor_inside hn (((curve_enumerates n hn).2 p).mp hp) 0

example : ∃ pts, vtkCurve 4 = some pts ∧ pts.length = 5 ∧ pts[2]? = some ![(-1 / 2 : ℝ)] := by
  obtain ⟨pts, h1, h2, _, _, _, h3⟩ := vtkCurve_complete 4 (by norm_num)
  refine ⟨pts, h1, h2, ?_⟩
  have := h3 0 _ rfl 0 (by norm_num)
  simp only [Nat.zero_mul, Nat.add_zero] at this
  rw [this]
  congr 1; funext i; fin_cases i; simp [between, AffineMap.lineMap_apply]; norm_num

/-- C04. For every order `n ≥ 1` the VTK quadrilateral has `(n+1)²` points: every point of the
tensor lattice exactly once, all inside the reference square; first the corners (counter-clockwise),
then the inner points of the four sides, then the interior with the first coordinate fastest. -/
theorem vtkQuadrilateral_complete (n : Nat) (hn : 1 ≤ n) :
    ∃ pts, vtkQuadrilateral n = some pts ∧ pts.length = (n + 1) ^ 2 ∧
      Enumerates pts (tensorLattice 2 n) ∧ (∀ p ∈ pts, squareG.isInternal p) ∧
      pts.take 4 = [![-1, -1], ![1, -1], ![1, 1], ![-1, 1]] ∧
      EdgesAt pts n 4 [(![-1, -1], ![1, -1]), (![1, -1], ![1, 1]), (![-1, 1], ![1, 1]),
        (![-1, -1], ![-1, 1])] ∧
      (∀ i < n - 1, ∀ j < n - 1, pts[4 * n + i * (n - 1) + j]? =
        some ![-1 + ((j : ℝ) + 1) * (2 / n), -1 + ((i : ℝ) + 1) * (2 / n)]) := by
  refine ⟨_, vtkQuadrilateral_eq n hn, by rw [quadList_length n hn]; ring, quad_enumerates n hn,
    fun p hp => ?_, by simp [quadList], quad_edges n hn,
    fun i hi j hj => quad_interior n hn i j hi hj⟩
  have h := fun i => tensor_inside hn (((quad_enumerates n hn).2 p).mp hp) i
  exact ⟨(h 0).1, (h 0).2, (h 1).1, (h 1).2⟩

example : ∃ pts, vtkQuadrilateral 3 = some pts ∧ pts.length = 16 ∧ ![-1 / 3, 1 / 3] ∈ pts := by
  obtain ⟨pts, h1, h2, h3, _⟩ := vtkQuadrilateral_complete 3 (by norm_num)
  refine ⟨pts, h1, h2, (h3.2 _).mpr ⟨![1, 2], by simp, ?_⟩⟩
  funext i; fin_cases i <;> simp <;> norm_num

/-- C04. For every order `n ≥ 1` the VTK hexahedron has `(n+1)³` points: every point of the tensor
lattice exactly once, all inside the reference cube; first the corners, then the inner points of the
twelve edges, then the six faces `x = ∓1`, `y = ∓1`, `z = ∓1`, then the interior, with the first
(free) coordinate fastest. -/
theorem vtkHexahedron_complete (n : Nat) (hn : 1 ≤ n) :
    ∃ pts, vtkHexahedron n = some pts ∧ pts.length = (n + 1) ^ 3 ∧
      Enumerates pts (tensorLattice 3 n) ∧ (∀ p ∈ pts, cubeG.isInternal p) ∧
      pts.take 8 = [![-1, -1, -1], ![1, -1, -1], ![1, 1, -1], ![-1, 1, -1],
        ![-1, -1, 1], ![1, -1, 1], ![1, 1, 1], ![-1, 1, 1]] ∧
      EdgesAt pts n 8
        [(![-1, -1, -1], ![1, -1, -1]), (![1, -1, -1], ![1, 1, -1]), (![-1, 1, -1], ![1, 1, -1]),
          (![-1, -1, -1], ![-1, 1, -1]), (![-1, -1, 1], ![1, -1, 1]), (![1, -1, 1], ![1, 1, 1]),
          (![-1, 1, 1], ![1, 1, 1]), (![-1, -1, 1], ![-1, 1, 1]), (![-1, -1, -1], ![-1, -1, 1]),
          (![1, -1, -1], ![1, -1, 1]), (![-1, 1, -1], ![-1, 1, 1]), (![1, 1, -1], ![1, 1, 1])] ∧
      (∀ i < n - 1, ∀ j < n - 1,
        let s : ℝ := -1 + ((i : ℝ) + 1) * (2 / n)
        let f : ℝ := -1 + ((j : ℝ) + 1) * (2 / n)
        ∀ (k : Nat) (p : Pt 3), [![-1, f, s], ![1, f, s], ![f, -1, s], ![f, 1, s], ![f, s, -1],
            ![f, s, 1]][k]? = some p →
          pts[8 + 12 * (n - 1) + k * ((n - 1) * (n - 1)) + i * (n - 1) + j]? = some p) ∧
      (∀ x < n - 1, ∀ y < n - 1, ∀ z < n - 1,
        pts[8 + 12 * (n - 1) + 6 * ((n - 1) * (n - 1)) + z * ((n - 1) * (n - 1)) + y * (n - 1) + x]? =
          some ![-1 + ((x : ℝ) + 1) * (2 / n), -1 + ((y : ℝ) + 1) * (2 / n),
            -1 + ((z : ℝ) + 1) * (2 / n)]) := by
  refine ⟨_, vtkHexahedron_eq n hn, by rw [hexList_length n hn]; ring, hex_enumerates n hn,
    fun p hp => ?_, by simp [hexList, hexCorners], hex_edges n hn, ?_,
    fun x hx y hy z hz => hex_interior n hn x y z hx hy hz⟩
  · have h := fun i => tensor_inside hn (((hex_enumerates n hn).2 p).mp hp) i
    exact ⟨(h 0).1, (h 0).2, (h 1).1, (h 1).2, (h 2).1, (h 2).2⟩
  · intro i hi j hj s f k p hp
    have hk : k < 6 := by
      by_contra hc
      rw [List.getElem?_eq_none (by simp; omega)] at hp
      cases hp
    have : k = 0 ∨ k = 1 ∨ k = 2 ∨ k = 3 ∨ k = 4 ∨ k = 5 := by omega
    rcases this with rfl | rfl | rfl | rfl | rfl | rfl <;> cases hp
    · exact hex_faces n hn 0 i j _ rfl hi hj
    · exact hex_faces n hn 1 i j _ rfl hi hj
    · exact hex_faces n hn 2 i j _ rfl hi hj
    · exact hex_faces n hn 3 i j _ rfl hi hj
    · exact hex_faces n hn 4 i j _ rfl hi hj
    · exact hex_faces n hn 5 i j _ rfl hi hj

example : ∃ pts, vtkHexahedron 2 = some pts ∧ pts.length = 27 ∧ ![0, 0, 0] ∈ pts := by
  obtain ⟨pts, h1, h2, h3, _⟩ := vtkHexahedron_complete 2 (by norm_num)
  refine ⟨pts, h1, h2, (h3.2 _).mpr ⟨![1, 1, 1], ?_, ?_⟩⟩
  · intro i; fin_cases i <;> simp
  · funext i; fin_cases i <;> simp

/-- C45. The nodes of the curved reference line, triangle and tetrahedron of every order `n ≥ 1` are
the lattice points, each exactly once, `n + 1`, `(n+1)(n+2)/2` and `(n+1)(n+2)(n+3)/6` in number, and
all inside the reference element. -/
theorem curved_nodes_complete (n : Nat) (hn : 1 ≤ n) :
    (Enumerates (curvedLine n) (tensorLattice 1 n) ∧ (curvedLine n).length = n + 1 ∧
      ∀ p ∈ curvedLine n, lineG.isInternal p) ∧
    (Enumerates (curvedTriangle n) (simplexLattice 2 n) ∧
      (curvedTriangle n).length = (n + 1) * (n + 2) / 2 ∧
      ∀ p ∈ curvedTriangle n, triangleG.isInternal p) ∧
    (Enumerates (curvedTetrahedron n) (simplexLattice 3 n) ∧
      (curvedTetrahedron n).length = (n + 1) * (n + 2) * (n + 3) / 6 ∧
      ∀ p ∈ curvedTetrahedron n, tetrahedronG.isInternal p) := by
  have h1 := curvedLine_enumerates n hn
  have h2 := curvedTriangle_enumerates n hn
  have h3 := curvedTetrahedron_enumerates n hn
  refine ⟨⟨h1, by simp [curvedLine], fun p hp => tensor_inside hn ((h1.2 p).mp hp) 0⟩,
    ⟨h2, ?_, fun p hp => triangle_inside n ((h2.2 p).mp hp) hn⟩,
    ⟨h3, ?_, fun p hp => tetrahedron_inside n ((h3.2 p).mp hp) hn⟩⟩
  · rw [(h2.perm (triangle_enumerates n hn)).length_eq, List.length_map, triLayers_count]
  · rw [(h3.perm (tetrahedron_enumerates n hn)).length_eq, List.length_map, tetLayers_count]

/-- C45. The order read off from a number of points is right for every number of points: it is `p`
exactly when there are `(p+1)(p+2)/2` points, and `-1` when no order has that many. -/
theorem triangleOrderFromPoints_correct (N : Nat) :
    (∀ p : Nat, triangleOrderFromPoints N = p ↔ 2 * N = (p + 1) * (p + 2)) ∧
    ((∀ p : Nat, 2 * N ≠ (p + 1) * (p + 2)) ↔ triangleOrderFromPoints N = -1) := by
  have h1 : ∀ p : Nat, triangleOrderFromPoints N = p ↔ 2 * N = (p + 1) * (p + 2) := by
    intro p
    constructor
    · intro h
      rcases triangleOrder_cases N with h2 | ⟨q, h2, h3⟩
      · rw [h2] at h; omega
      · rw [h2] at h; have : q = p := by omega
        rw [← this]; exact h3
    · exact triangleOrder_of N p
  refine ⟨h1, ?_, ?_⟩
  · intro h
    rcases triangleOrder_cases N with h2 | ⟨q, _, h3⟩
    · exact h2
    · exact absurd h3 (h q)
  · intro h p hp
    have := (h1 p).mpr hp
    omega

example : triangleOrderFromPoints 21 = 5 ∧ triangleOrderFromPoints 20 = -1 :=
  ⟨(triangleOrderFromPoints_correct 21).1 5 |>.mpr (by norm_num),
    (triangleOrderFromPoints_correct 20).2.mp fun p hp => by
      have h1 : p < 6 := by by_contra hc; nlinarith
      have h2 : 4 < p := by by_contra hc; nlinarith
      have : p = 5 := by omega
      subst this; omega⟩

/-- C45. The same for the tetrahedron: `p` exactly when there are `(p+1)(p+2)(p+3)/6` points. -/
theorem tetrahedronOrderFromPoints_correct (N : Nat) :
    (∀ p : Nat, tetrahedronOrderFromPoints N = p ↔ 6 * N = (p + 1) * (p + 2) * (p + 3)) ∧
    ((∀ p : Nat, 6 * N ≠ (p + 1) * (p + 2) * (p + 3)) ↔ tetrahedronOrderFromPoints N = -1) := by
  have h1 : ∀ p : Nat, tetrahedronOrderFromPoints N = p ↔ 6 * N = (p + 1) * (p + 2) * (p + 3) := by
    intro p
    constructor
    · intro h
      rcases tetrahedronOrder_cases N with ⟨h2, _⟩ | ⟨q, h2, h3⟩
      · rw [h2] at h; omega
      · rw [h2] at h; have : q = p := by omega
        rw [← this]; exact h3
    · exact tetrahedronOrder_of N p
  refine ⟨h1, ?_, ?_⟩
  · intro h
    rcases tetrahedronOrder_cases N with ⟨h2, _⟩ | ⟨q, _, h3⟩
    · exact h2
    · exact absurd h3 (h q)
  · intro h p hp
    have := (h1 p).mpr hp
    omega

example : tetrahedronOrderFromPoints 84 = 6 :=
  (tetrahedronOrderFromPoints_correct 84).1 6 |>.mpr (by norm_num)

/-- The indices that a curved element computes for the nodes `nodes` of a face (or edge, or for the
corners) point at the images of those nodes. -/
def FindsNodes {d e : Nat} (points : List (Pt d)) (map : Pt e → Pt d) (nodes : List (Pt e)) : Prop :=
  ∃ idx, nodeIndices points map nodes = some idx ∧
    idx.map (fun j => points[j]?) = nodes.map fun x => some (map x)

/-- C46. A curved triangle of any order up to 10⁸ (the lattice is finer than the tolerance of the
search beyond that) finds its corners and all nodes of its curved sides among its own nodes. -/
theorem curvedTriangle_finds_nodes (n : Nat) (hn : 1 ≤ n) (hn8 : n ≤ 10 ^ 8) :
    FindsNodes (curvedTriangle n) id triangleG.nodes ∧
    ∀ f ∈ triangleFaces, FindsNodes (curvedTriangle n) f.map.transform (curvedLine n) := by
  have h2 := curvedTriangle_enumerates n hn
  have hsep : ∀ p ∈ curvedTriangle n, ∀ q ∈ curvedTriangle n,
      ∑ i, (p i - q i) ^ 2 < (1e-8 : ℝ) * 1e-8 → q = p := fun p hp q hq h =>
    simplex_separated hn hn8 ((h2.2 p).mp hp) ((h2.2 q).mp hq) h
  exact ⟨nodeIndices_exact id _ (fun x hx => (h2.2 _).mpr (corner_mem_two hn hx)) hsep,
    fun f hf => nodeIndices_exact _ _ (fun x hx => (h2.2 _).mpr
      (triangle_face_mem hn hf (((curvedLine_enumerates n hn).2 x).mp hx))) hsep⟩

/-- C46. Likewise a curved tetrahedron finds its corners, all nodes of its curved faces and all nodes
of its edges. -/
theorem curvedTetrahedron_finds_nodes (n : Nat) (hn : 1 ≤ n) (hn8 : n ≤ 10 ^ 8) :
    FindsNodes (curvedTetrahedron n) id tetrahedronG.nodes ∧
    (∀ f ∈ tetrahedronFaces, FindsNodes (curvedTetrahedron n) f.map.transform (curvedTriangle n)) ∧
    ∀ a ∈ tetrahedronG.nodes, ∀ b ∈ tetrahedronG.nodes,
      FindsNodes (curvedTetrahedron n) (lineToTetrahedron a b).transform (curvedLine n) := by
  have h3 := curvedTetrahedron_enumerates n hn
  have hsep : ∀ p ∈ curvedTetrahedron n, ∀ q ∈ curvedTetrahedron n,
      ∑ i, (p i - q i) ^ 2 < (1e-8 : ℝ) * 1e-8 → q = p := fun p hp q hq h =>
    simplex_separated hn hn8 ((h3.2 p).mp hp) ((h3.2 q).mp hq) h
  exact ⟨nodeIndices_exact id _ (fun x hx => (h3.2 _).mpr (corner_mem_three hn hx)) hsep,
    fun f hf => nodeIndices_exact _ _ (fun x hx => (h3.2 _).mpr
      (tetrahedron_face_mem hn hf (((curvedTriangle_enumerates n hn).2 x).mp hx))) hsep,
    fun a ha b hb => nodeIndices_exact _ _ (fun x hx => (h3.2 _).mpr
      (tetrahedron_edge_mem hn ha hb (((curvedLine_enumerates n hn).2 x).mp hx))) hsep⟩

example : FindsNodes (curvedTetrahedron 3) (tetrahedronFaces.getLast (by simp [tetrahedronFaces])).map.transform
    (curvedTriangle 3) :=
  (curvedTetrahedron_finds_nodes 3 (by norm_num) (by norm_num)).2.1 _ (List.getLast_mem _)

end Verif.Lattice
