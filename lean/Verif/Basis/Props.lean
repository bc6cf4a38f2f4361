import Verif.Basis.LemmasIndep
import Verif.Basis.LemmasIndep3
import Verif.Basis.LemmasVanish
import Verif.Basis.LemmasVertex
import Verif.Basis.LemmasSets

/-! # Properties of the H1 basis functions -/
namespace Verif.Basis
open Verif.RefGeometry
open Verif.Legendre (lobatto lobattoDeriv)

/-! ### C36: derivatives -/

/-- C36. Whatever `evalDeriv k` returns is the partial derivative of `eval` in direction `k`, for
every function (any nodes and any orders, not only those that are put in a set) of every shape. For
the pyramid the function is the one without the `1e-50` of `eval`, away from the tip; the monomials
have derivatives for all exponents in every dimension. -/
theorem evalDeriv_is_partial_derivative :
    (∀ (f : LineFn) k p v, f.evalDeriv k p = some v →
      HasDerivAt (fun t => f.eval (Function.update p k t)) v (p k)) ∧
    (∀ (f : TriangleFn) k p v, f.evalDeriv k p = some v →
      HasDerivAt (fun t => f.eval (Function.update p k t)) v (p k)) ∧
    (∀ (f : SquareFn) k p v, f.evalDeriv k p = some v →
      HasDerivAt (fun t => f.eval (Function.update p k t)) v (p k)) ∧
    (∀ (f : TetFn) k p v, f.evalDeriv k p = some v →
      HasDerivAt (fun t => f.eval (Function.update p k t)) v (p k)) ∧
    (∀ (f : PrismFn) k p v, f.evalDeriv k p = some v →
      HasDerivAt (fun t => f.eval (Function.update p k t)) v (p k)) ∧
    (∀ (f : CubeFn) k p v, f.evalDeriv k p = some v →
      HasDerivAt (fun t => f.eval (Function.update p k t)) v (p k)) ∧
    (∀ (n : Fin 5) k (p : Pt 3), p 2 ≠ 1 → 1e-14 ≤ |p 0| + |p 1| + |p 2 - 1| →
      HasDerivAt (fun t => pyramidEval 0 n (Function.update p k t)) (pyramidDeriv n k p) (p k)) ∧
    (∀ (d : Nat) (e : Fin d → Nat) k (p : Pt d),
      HasDerivAt (fun t => monomialEval e (Function.update p k t)) (monomialDeriv e k p) (p k)) :=
  ⟨line_deriv, triangle_deriv, square_deriv, tet_deriv, prism_deriv, cube_deriv,
    fun n k p h1 h2 => pyramid_deriv_aux n k p h1 (by
      unfold pyramidShift; rw [if_neg (not_lt.2 h2)]),
    fun d e k p => monomial_deriv e k p⟩

/-- C36, partial: all derivatives of all functions of a discontinuous set are available if the order
is at most 5. Missing: higher orders, see `evalDeriv_aborts`. -/
theorem evalDeriv_defined_partial (o : Nat) (ho : o ≤ 5) :
    (∀ f ∈ lineDG o, ∀ k p, ∃ v, f.evalDeriv k p = some v) ∧
    (∀ f ∈ triangleDG o, ∀ k p, ∃ v, f.evalDeriv k p = some v) ∧
    (∀ f ∈ squareDG o, ∀ k p, ∃ v, f.evalDeriv k p = some v) ∧
    (∀ f ∈ tetDG o, ∀ k p, ∃ v, f.evalDeriv k p = some v) ∧
    (∀ f ∈ prismDG o, ∀ k p, ∃ v, f.evalDeriv k p = some v) ∧
    (∀ f ∈ cubeDG o, ∀ k p, ∃ v, f.evalDeriv k p = some v) :=
  ⟨line_defined o ho, triangle_defined o ho, square_defined o ho, tet_defined o ho,
    prism_defined o ho, cube_defined o ho⟩

/-- C36, violation: in every set of order 6 or more there is a function for which `evalDeriv` ends in
a fatal error, at every point. -/
theorem evalDeriv_aborts (o : Nat) (ho : 6 ≤ o) :
    (∃ f ∈ lineDG o, ∀ p, f.evalDeriv 0 p = none) ∧
    (∃ f ∈ triangleDG o, ∀ p, f.evalDeriv 0 p = none) ∧
    (∃ f ∈ squareDG o, ∀ p, f.evalDeriv 0 p = none) ∧
    (∃ f ∈ tetDG o, ∀ p, f.evalDeriv 0 p = none) ∧
    (∃ f ∈ prismDG o, ∀ p, f.evalDeriv 0 p = none) ∧
    (∃ f ∈ cubeDG o, ∀ p, f.evalDeriv 0 p = none) := undefined o ho

/-- The `1e-50` in `eval` on the pyramid changes the value by at most that amount. -/
theorem pyramid_regularisation (eps : ℝ) (heps : 0 < eps) (n : Fin 5) (p : Pt 3) (h2 : p 2 < 1)
    (hx : |p 0| ≤ 1 - p 2) (hy : |p 1| ≤ 1 - p 2) :
    |pyramidEval eps n p - pyramidEval 0 n p| ≤ eps := by
  have h : 0 < 1 - p 2 := by linarith
  rw [abs_le] at hx hy
  have key : ∀ A B : ℝ, 0 ≤ A → A ≤ 2 * (1 - p 2) → 0 ≤ B → B ≤ 2 * (1 - p 2) →
      |A * B / 4 / (1 - p 2 + eps) - A * B / 4 / (1 - p 2 + 0)| ≤ eps := by
    intro A B hA hA' hB hB'
    have hAB : A * B ≤ 4 * ((1 - p 2) * (1 - p 2)) := by nlinarith
    have hAB0 : 0 ≤ A * B := mul_nonneg hA hB
    have e : A * B / 4 / (1 - p 2 + eps) - A * B / 4 / (1 - p 2 + 0) =
        -(A * B / 4 * eps / ((1 - p 2) * (1 - p 2 + eps))) := by
      have : 1 - p 2 + eps ≠ 0 := by positivity
      have : 1 - p 2 ≠ 0 := by positivity
      rw [add_zero]
      field_simp
      ring
    rw [e, abs_neg, abs_of_nonneg (by positivity), div_le_iff₀ (by positivity)]
    nlinarith [mul_pos h heps, mul_pos heps heps]
  fin_cases n
  · simpa [pyramidEval] using heps.le
  · exact key _ _ (by linarith) (by linarith) (by linarith) (by linarith)
  · exact key _ _ (by linarith) (by linarith) (by linarith) (by linarith)
  · exact key _ _ (by linarith) (by linarith) (by linarith) (by linarith)
  · exact key _ _ (by linarith) (by linarith) (by linarith) (by linarith)

/-! ### C47: the contents of the sets -/

/-- C47. The set of a discontinuous method consists, up to the order in which they are added, of
the functions a conforming method uses on one element; no function occurs twice; the number of
functions is the dimension of the polynomial space. -/
theorem dg_sets_partial (o : Nat) (ho : 0 < o) :
    (lineDG o).Perm (conformingSet 0 ((lineVertexSets o).map (·.fns)) [] [] (lineInterior o)) ∧
    (triangleDG o).Perm
      (conformingSet 1 (triangleVertexSets o) [] (triangleFaceSets o) (triangleInterior o)) ∧
    (squareDG o).Perm
      (conformingSet 0 (squareVertexSets o) [] (squareFaceSets o) (squareInterior o)) ∧
    (tetDG o).Perm
      (conformingSet 0 (tetVertexSets o) (tetEdgeSets o) (tetFaceSets o) (tetInterior o)) ∧
    (cubeDG o).Perm
      (conformingSet 0 (cubeVertexSets o) (cubeEdgeSets o) (cubeFaceSets o) (cubeInterior o)) :=
  ⟨line_perm o ho, triangle_perm o ho, square_perm o ho, tet_perm o ho, cube_perm o ho⟩

/-- C47. No function is added twice. -/
theorem dg_sets_nodup (o : Nat) :
    (lineDG o).Nodup ∧ (triangleDG o).Nodup ∧ (squareDG o).Nodup ∧ (tetDG o).Nodup ∧ (prismDG o).Nodup ∧
      (cubeDG o).Nodup :=
  ⟨line_nodup o, triangle_nodup o, square_nodup o, tet_nodup o, prism_nodup o, cube_nodup o⟩

/-- C47. The number of functions, including order 0. -/
theorem dg_sets_length_partial (o : Nat) :
    (lineDG o).length = o + 1 ∧
    (triangleDG o).length * 2 = (o + 1) * (o + 2) ∧
    (squareDG o).length = (o + 1) ^ 2 ∧
    (tetDG o).length * 6 = (o + 1) * (o + 2) * (o + 3) ∧
    (cubeDG o).length = (o + 1) ^ 3 :=
  ⟨line_length o, triangle_length o, square_length o, tet_length o, cube_length o⟩

/-- C47, violation: the set of the triangular prism has too many functions for every order of 3 or
more (the dimension is `(o+1)² (o+2) / 2`). -/
theorem prism_dg_length (o : Nat) :
    (prismDG o).length * 2 = (o + 1) ^ 2 * (o + 2) + (o - 1) * (o - 2) ∧
    (3 ≤ o → (o + 1) ^ 2 * (o + 2) < (prismDG o).length * 2) := by
  refine ⟨prism_length o, fun h => ?_⟩
  rw [prism_length]
  have : 0 < (o - 1) * (o - 2) := Nat.mul_pos (by omega) (by omega)
  omega

/-- The monomials of `assembleMonomialBasisFunctions` are those of total degree at most the
maximum. -/
theorem monomials_complete (m : Nat) :
    (∀ e : Fin 1 → Nat, e ∈ monomials1 m ↔ e 0 ≤ m) ∧
    (∀ e : Fin 2 → Nat, e ∈ monomials2 m ↔ e 0 + e 1 ≤ m) ∧
    (∀ e : Fin 3 → Nat, e ∈ monomials3 m ↔ e 0 + e 1 + e 2 ≤ m) ∧
    (∀ e : Fin 4 → Nat, e ∈ monomials4 m ↔ e 0 + e 1 + e 2 + e 3 ≤ m) := by
  refine ⟨?_, ?_, ?_, ?_⟩ <;> intro e <;>
    simp only [monomials1, monomials2, monomials3, monomials4, List.mem_flatMap, List.mem_map,
      mem_upTo] <;> constructor
  · rintro ⟨i, h, rfl⟩; simpa using h
  · intro h; exact ⟨e 0, by omega, by ext i; fin_cases i; rfl⟩
  · rintro ⟨i, h, j, h', rfl⟩; simp; omega
  · intro h; exact ⟨e 0, by omega, e 1, by omega, by ext i; fin_cases i <;> rfl⟩
  · rintro ⟨i, h, j, h', k, h'', rfl⟩; simp; omega
  · intro h
    exact ⟨e 0, by omega, e 1, by omega, e 2, by omega, by ext i; fin_cases i <;> rfl⟩
  · rintro ⟨i, h, j, h', k, h'', l, h3, rfl⟩; simp; omega
  · intro h
    exact ⟨e 0, by omega, e 1, by omega, e 2, by omega, e 3, by omega,
      by ext i; fin_cases i <;> rfl⟩

/-- C50, violation: for every order of 7 or more the set contains a function that is a linear
combination of two others, so the mass matrix is singular. -/
theorem dg_sets_dependent (o : Nat) (ho : 7 ≤ o) :
    (∃ f ∈ lineDG o, ∃ g ∈ lineDG o, ∃ h ∈ lineDG o, f ≠ g ∧ f ≠ h ∧
      ∃ a b : ℝ, ∀ p, f.eval p = a * g.eval p + b * h.eval p) ∧
    (∃ f ∈ triangleDG o, ∃ g ∈ triangleDG o, ∃ h ∈ triangleDG o, f ≠ g ∧ f ≠ h ∧
      ∃ a b : ℝ, ∀ p, f.eval p = a * g.eval p + b * h.eval p) ∧
    (∃ f ∈ squareDG o, ∃ g ∈ squareDG o, ∃ h ∈ squareDG o, f ≠ g ∧ f ≠ h ∧
      ∃ a b : ℝ, ∀ p, f.eval p = a * g.eval p + b * h.eval p) ∧
    (∃ f ∈ tetDG o, ∃ g ∈ tetDG o, ∃ h ∈ tetDG o, f ≠ g ∧ f ≠ h ∧
      ∃ a b : ℝ, ∀ p, f.eval p = a * g.eval p + b * h.eval p) ∧
    (∃ f ∈ prismDG o, ∃ g ∈ prismDG o, ∃ h ∈ prismDG o, f ≠ g ∧ f ≠ h ∧
      ∃ a b : ℝ, ∀ p, f.eval p = a * g.eval p + b * h.eval p) ∧
    (∃ f ∈ cubeDG o, ∃ g ∈ cubeDG o, ∃ h ∈ cubeDG o, f ≠ g ∧ f ≠ h ∧
      ∃ a b : ℝ, ∀ p, f.eval p = a * g.eval p + b * h.eval p) := dependent o ho

/-- C50, partial (the sets of order 7 and more are excluded because the claim is false for them): on
each of the six shapes the functions of the set of order `o` are linearly independent, on the points
of the shape alone, exactly when `o ≤ 6`. -/
theorem dg_sets_independent_partial (o : Nat) :
    (Independent lineG LineFn.eval (lineDG o) ↔ o ≤ 6) ∧
    (Independent triangleG TriangleFn.eval (triangleDG o) ↔ o ≤ 6) ∧
    (Independent squareG SquareFn.eval (squareDG o) ↔ o ≤ 6) ∧
    (Independent tetrahedronG TetFn.eval (tetDG o) ↔ o ≤ 6) ∧
    (Independent prismG PrismFn.eval (prismDG o) ↔ o ≤ 6) ∧
    (Independent cubeG CubeFn.eval (cubeDG o) ↔ o ≤ 6) := by
  by_cases ho : o ≤ 6
  · simp only [ho, iff_true]
    exact ⟨line_independent o ho, triangle_independent o ho, square_independent o ho, tet_independent o ho,
      prism_independent o ho, cube_independent o ho⟩
  · obtain ⟨h1, h2, h3, h4, h5, h6⟩ := dependent o (by omega)
    simp only [ho, iff_false]
    exact ⟨not_independent _ _ _ (line_nodup o) h1, not_independent _ _ _ (triangle_nodup o) h2,
      not_independent _ _ _ (square_nodup o) h3, not_independent _ _ _ (tet_nodup o) h4,
      not_independent _ _ _ (prism_nodup o) h5, not_independent _ _ _ (cube_nodup o) h6⟩

/-- The theorem is not about empty sets: the set of order 6 on the tetrahedron has 84 functions, as
many as there are polynomials of degree at most 6 in three variables. -/
example : (tetDG 6).length = 84 ∧ (prismDG 6).length = 206 ∧ (cubeDG 6).length = 343 := by decide +kernel

/-! ### C48: nodal functions and supports -/

/-- C48. The function of a vertex is 1 there and 0 at the other vertices, and the vertex functions
add up to 1 everywhere. -/
theorem vertex_functions_nodal :
    (∀ i j : Fin 2, (LineFn.vertex i).eval (lineG.nodes[j.val]'(j.2)) = if i = j then 1 else 0) ∧
    (∀ i j : Fin 3, (TriangleFn.vertex i).eval (triangleG.nodes[j.val]'(j.2)) =
      if i = j then 1 else 0) ∧
    (∀ i j : Fin 4, (SquareFn.vertex i).eval (squareG.nodes[j.val]'(j.2)) =
      if i = j then 1 else 0) ∧
    (∀ i j : Fin 4, (TetFn.vertex i).eval (tetrahedronG.nodes[j.val]'(j.2)) =
      if i = j then 1 else 0) ∧
    (∀ i j : Fin 6, (PrismFn.vertex i).eval (prismG.nodes[j.val]'(j.2)) =
      if i = j then 1 else 0) ∧
    (∀ i j : Fin 8, (CubeFn.vertex i).eval (cubeG.nodes[j.val]'(j.2)) = if i = j then 1 else 0) ∧
    (∀ i j : Fin 5, pyramidEval 0 i (pyramidG.nodes[j.val]'(j.2)) = if i = j then 1 else 0) :=
  ⟨line_nodal, triangle_nodal, square_nodal, tet_nodal, prism_nodal, cube_nodal, pyramid_nodal⟩

/-- C48. -/
theorem vertex_functions_unity (p1 : Pt 1) (p2 : Pt 2) (p : Pt 3) :
    (∑ i, (LineFn.vertex i).eval p1 = 1) ∧ (∑ i, (TriangleFn.vertex i).eval p2 = 1) ∧
    (∑ i, (SquareFn.vertex i).eval p2 = 1) ∧ (∑ i, (TetFn.vertex i).eval p = 1) ∧
    (∑ i, (PrismFn.vertex i).eval p = 1) ∧ (∑ i, (CubeFn.vertex i).eval p = 1) ∧
    (p 2 ≠ 1 → ∑ i, pyramidEval 0 i p = 1) := unity p1 p2 p

/-- C48. Every function of a conforming set is zero on all faces that do not contain the vertex,
edge or face it belongs to; interior functions are zero on all faces. -/
theorem functions_vanish_elsewhere_partial (o : Nat) :
    (∀ i : Fin 3, VanishesOff triangleFaces [i.val] (TriangleFn.vertex i).eval) ∧
    SetsVanishOff TriangleFn.eval triangleFaces (triangleFaces.map (·.nodeIdx))
      (triangleFaceSets o) ∧
    (∀ f ∈ triangleInterior o, VanishesOff triangleFaces [0, 1, 2] f.eval) ∧
    (∀ i : Fin 4, VanishesOff squareFaces [i.val] (SquareFn.vertex i).eval) ∧
    SetsVanishOff SquareFn.eval squareFaces (squareFaces.map (·.nodeIdx)) (squareFaceSets o) ∧
    (∀ f ∈ squareInterior o, VanishesOff squareFaces [0, 1, 2, 3] f.eval) ∧
    (∀ i : Fin 4, VanishesOff tetrahedronFaces [i.val] (TetFn.vertex i).eval) ∧
    SetsVanishOff TetFn.eval tetrahedronFaces tetrahedronEdges (tetEdgeSets o) ∧
    SetsVanishOff TetFn.eval tetrahedronFaces (tetrahedronFaces.map (·.nodeIdx)) (tetFaceSets o) ∧
    (∀ f ∈ tetInterior o, VanishesOff tetrahedronFaces [0, 1, 2, 3] f.eval) ∧
    (∀ i : Fin 8, VanishesOff cubeFaces [i.val] (CubeFn.vertex i).eval) ∧
    SetsVanishOff CubeFn.eval cubeFaces cubeEdgeTable (cubeEdgeSets o) ∧
    SetsVanishOff CubeFn.eval cubeFaces (cubeFaces.map (·.nodeIdx)) (cubeFaceSets o) ∧
    (∀ f ∈ cubeInterior o, VanishesOff cubeFaces [0, 1, 2, 3, 4, 5, 6, 7] f.eval) ∧
    (∀ i : Fin 6, VanishesOff prismFaces [i.val] (PrismFn.vertex i).eval) ∧
    SetsVanishOff PrismFn.eval prismFaces prismEdgeTable (prismEdgeSets o) ∧
    (∀ s ∈ prismFaceSets o, s.face < 2 →
      ∃ nodes, (prismFaces.map (·.nodeIdx))[s.face]? = some nodes ∧
        ∀ f ∈ s.fns, VanishesOff prismFaces nodes f.eval) ∧
    (∀ f ∈ prismInterior o, VanishesOff prismFaces [0, 1, 2, 3, 4, 5] f.eval) :=
  ⟨tri_vertex_vanish, tri_face_vanish o, tri_interior_vanish o, sq_vertex_vanish, sq_face_vanish o,
    sq_interior_vanish o, tet_vertex_vanish, tet_edge_vanish o, tet_face_vanish o,
    tet_interior_vanish o, cube_vertex_vanish, cube_edge_vanish o, cube_face_vanish o,
    cube_interior_vanish o, prism_vertex_vanish, prism_edge_vanish o, prism_face_vanish o,
    prism_interior_vanish o⟩

/-- C48, violation: for every order of 2 or more, each square face of the prism has a function that
is not zero at some point of another face. -/
theorem prism_square_faces_leak (o : Nat) (ho : 2 ≤ o) (i : Nat) (h1 : 2 ≤ i) (h2 : i < 5) :
    ∃ s ∈ prismFaceSets o, s.orientation = 0 ∧ s.face = i ∧ ∃ f ∈ s.fns, ∃ F ∈ prismFaces,
      ∃ nodes, (prismFaces.map (·.nodeIdx))[i]? = some nodes ∧ (∃ a ∈ nodes, a ∉ F.nodeIdx) ∧
        ∃ x ∈ {x | F.geom.isInternal x}, f.eval (F.map.transform x) ≠ 0 := prism_square_face_bad o ho i h1 h2

/-! ### C49: continuity between elements -/

/-- C49. The trace of a vertex function is the vertex function of the face geometry, so that it does
not depend on the kind of element. -/
theorem vertex_traces :
    (∀ F ∈ triangleFaces, VertexTraces triangleG.nodes (fun i => (TriangleFn.vertex i).eval)
      (fun a => (LineFn.vertex a).eval) F) ∧
    (∀ F ∈ squareFaces, VertexTraces squareG.nodes (fun i => (SquareFn.vertex i).eval)
      (fun a => (LineFn.vertex a).eval) F) ∧
    (∀ F ∈ tetrahedronFaces, VertexTraces tetrahedronG.nodes (fun i => (TetFn.vertex i).eval)
      (fun a => (TriangleFn.vertex a).eval) F) ∧
    (∀ F ∈ prismFaces.take 2, VertexTraces prismG.nodes (fun i => (PrismFn.vertex i).eval)
      (fun a => (TriangleFn.vertex a).eval) F) ∧
    (∀ F ∈ prismFaces.drop 2, VertexTraces prismG.nodes (fun i => (PrismFn.vertex i).eval)
      (fun a => (SquareFn.vertex a).eval) F) ∧
    (∀ F ∈ cubeFaces, VertexTraces cubeG.nodes (fun i => (CubeFn.vertex i).eval)
      (fun a => (SquareFn.vertex a).eval) F) :=
  ⟨traces_triangle, traces_square, traces_tet, traces_prism_tri, traces_prism_sq, traces_cube⟩

/-- C49. Face functions of triangles and squares, in any combination and for both orientations,
agree on the common face. -/
theorem line_faces_conform (o k : Nat) (K : RefMap 1 1) (hK : lineToLine[k]? = some K)
    (L R : FaceOf 1) (hL : L ∈ lineFacesOf) (hR : R ∈ lineFacesOf) :
    TracesMatch L.face R.face K (L.fns o 0) (R.fns o k) := by
  have hk : k < 2 := by
    have := (List.getElem?_eq_some_iff.1 hK).1; simpa [lineToLine] using this
  have h0 := canon_line o 0 (by omega) ⟨fun p => ![p 0], fun _ => !![1]⟩ rfl L hL
  simp only [idLine] at h0
  exact match_of_canonical h0 (canon_line o k hk K hK R hR)

/-- C49. Face functions of the triangular faces of tetrahedra and prisms, in any combination and for
all six orientations, agree on the common face. -/
theorem triangular_faces_conform (o k : Nat) (K : RefMap 2 2) (hK : triangleToTriangle[k]? = some K)
    (L R : FaceOf 2) (hL : L ∈ triangularFacesOf) (hR : R ∈ triangularFacesOf) :
    TracesMatch L.face R.face K (L.fns o 0) (R.fns o k) := by
  have hk : k < 6 := by
    have := (List.getElem?_eq_some_iff.1 hK).1; simpa [triangleToTriangle] using this
  have h0 := canon_tri o 0 (by omega) ⟨fun p => ![p 0, p 1], fun _ => !![1, 0; 0, 1]⟩ rfl L hL
  have e : ∀ x : Pt 2, ![x 0, x 1] = x := by intro x; ext i; fin_cases i <;> rfl
  simp only [e] at h0
  exact match_of_canonical h0 (canon_tri o k hk K hK R hR)

/-- C49, partial: the face functions of two cubes agree for the four orientations that do not
exchange the axes of the face. -/
theorem cube_faces_conform_partial (o k : Nat) (hk : k = 0 ∨ k = 2 ∨ k = 4 ∨ k = 5) (K : RefMap 2 2)
    (hK : squareToSquare[k]? = some K) (L R : FaceOf 2) (hL : L ∈ cubeFacesOf)
    (hR : R ∈ cubeFacesOf) : TracesMatch L.face R.face K (L.fns o 0) (R.fns o k) := by
  obtain ⟨i, hi, hLi, hLf⟩ := mem_cubeFacesOf L hL
  obtain ⟨i', hi', hRi, hRf⟩ := mem_cubeFacesOf R hR
  have h0 := canon_cube o 0 i (by simp) hi ⟨fun p => ![p 0, p 1], fun _ => !![1, 0; 0, 1]⟩ rfl _ hLi
  have e : ∀ x : Pt 2, ![x 0, x 1] = x := by intro x; ext i; fin_cases i <;> rfl
  simp only [e] at h0
  rw [hLf, hRf]
  exact match_of_canonical h0 (canon_cube o k i' hk hi' K hK _ hRi)

/-- C49, partial: up to order 2 the face functions of two cubes agree for all eight orientations. -/
theorem cube_faces_conform_low_order_partial (o k : Nat) (ho : o ≤ 2) (K : RefMap 2 2)
    (hK : squareToSquare[k]? = some K) (L R : FaceOf 2) (hL : L ∈ cubeFacesOf)
    (hR : R ∈ cubeFacesOf) : TracesMatch L.face R.face K (L.fns o 0) (R.fns o k) := by
  have hk : k < 8 := by
    have := (List.getElem?_eq_some_iff.1 hK).1; simpa [squareToSquare] using this
  by_cases h : k = 0 ∨ k = 2 ∨ k = 4 ∨ k = 5
  · exact cube_faces_conform_partial o k h K hK L R hL hR
  have h' : k = 1 ∨ k = 3 ∨ k = 6 ∨ k = 7 := by omega
  obtain ⟨i, hi, hLi, hLf⟩ := mem_cubeFacesOf L hL
  obtain ⟨i', hi', hRi, hRf⟩ := mem_cubeFacesOf R hR
  have h0 := canon_cube o 0 i (by simp) hi ⟨fun p => ![p 0, p 1], fun _ => !![1, 0; 0, 1]⟩ rfl _ hLi
  have e : ∀ x : Pt 2, ![x 0, x 1] = x := by intro x; ext i; fin_cases i <;> rfl
  simp only [e] at h0
  rw [hLf, hRf]
  obtain ⟨m, _, h1⟩ := canon_cube' o k i' h' hi' K hK _ hRi
  obtain ⟨c, _, hc⟩ := lobatto0
  refine match_of_canonical h0 (h1.trans ?_)
  interval_cases o
  · simp [canonSq, upTo]
  · simp [canonSq, upTo]
  · simp [canonSq, upTo, hc]

/-- C49, violation: for the four orientations that exchange the axes of the face the face functions
of two cubes never agree if the order is 3 or more, whatever the two faces are. -/
theorem cube_faces_do_not_conform (o k : Nat) (ho : 3 ≤ o) (hk : k = 1 ∨ k = 3 ∨ k = 6 ∨ k = 7)
    (K : RefMap 2 2) (hK : squareToSquare[k]? = some K) (L R : FaceOf 2) (hL : L ∈ cubeFacesOf)
    (hR : R ∈ cubeFacesOf) : ¬ TracesMatch L.face R.face K (L.fns o 0) (R.fns o k) :=
  cube_mismatch o k ho hk K hK L R hL hR

/-- C49, partial: on a common edge of two tetrahedra, two prisms, a tetrahedron and a prism or two
cubes the edge functions agree. -/
theorem edges_conform_partial (o k k' : Nat) (hk : k < 2) (hk' : k' < 2) :
    (∀ e ∈ tetPrismEdges, ∀ e' ∈ tetPrismEdges, EdgesMatch e e' o k k') ∧
    (∀ e ∈ cubeEdges, ∀ e' ∈ cubeEdges, EdgesMatch e e' o k k') :=
  ⟨fun e he e' he' => edges_match_of (mem_tetPrismEdges e he o k hk)
      (mem_tetPrismEdges e' he' o k' hk'),
   fun e he e' he' => edges_match_of (mem_cubeEdges e he o k hk) (mem_cubeEdges e' he' o k' hk')⟩

/-- C49, violation: on a common edge of a cube and a prism (or tetrahedron) the edge functions never
agree if the order is 3 or more. -/
theorem mixed_edges_do_not_conform (e e' : EdgeOf) (he : e ∈ tetPrismEdges) (he' : e' ∈ cubeEdges)
    (o k k' : Nat) (ho : 3 ≤ o) (hk : k < 2) (hk' : k' < 2) : ¬ EdgesMatch e e' o k k' :=
  edges_mismatch e e' he he' o k k' ho hk hk'

/-! ### Concrete cases -/

/-- The sets are not empty: sizes for order 4 and the functions compared in C49 for order 5. -/
example : (triangleDG 4).length = 15 ∧ (tetDG 4).length = 35 ∧ (cubeDG 4).length = 125 ∧
    (prismDG 3).length = 41 ∧ (prismDG 2).length = 18 := by decide +kernel

/-- The comparison on triangular faces of order 5 is about six functions. -/
example : ∀ F ∈ triangularFacesOf, (F.fns 5 3).length = 6 := by
  intro F hF
  have := congrArg List.length (canon_tri 5 3 (by omega) _ rfl F hF)
  rw [List.length_map] at this
  rw [this]
  simp [canonTri, upTo, List.range_succ]

example : ∀ F ∈ cubeFacesOf, (F.fns 3 1).length = 4 := by
  intro F hF
  obtain ⟨i, hi, h, hf⟩ := mem_cubeFacesOf F hF
  obtain ⟨m, _, h2⟩ := canon_cube' 3 1 i (by simp) hi _ rfl _ h
  have := congrArg List.length h2
  rw [List.length_map] at this
  rw [hf]
  dsimp only
  rw [this]
  simp [upTo, List.range_succ]

example : ∀ e ∈ cubeEdges, (e.fns 4 1).length = 3 := by
  intro e he
  have := congrArg List.length (mem_cubeEdges e he 4 1 (by omega))
  rw [List.length_map] at this
  rw [this]; simp [canonEdge, upTo]

end Verif.Basis
