import Verif.Basis.LemmasTrace
import Mathlib.Algebra.BigOperators.Fin

set_option linter.all false
namespace Verif.Basis
open Verif.RefGeometry
open Verif.Legendre (lobatto lobattoDeriv)

/-! ### Edges -/

noncomputable def canonEdge (m : ℝ) (o : Nat) : List (ℝ → ℝ) :=
  (upTo 2 o).map fun j s => (1 - s) * s * lobatto j (m * (1 - 2 * s))

theorem edges_canon_tet (o k i : Nat) (hk : k < 2) (hi : i < 6) (e : EdgeOf)
    (he : (mkEdges tetrahedronG TetFn.eval tetEdgeSets tetrahedronEdges)[i]? = some e) :
    (e.fns o k).map (fun f s => f (e.point k s)) = canonEdge 1 o := by
  simp [mkEdges, tetrahedronEdges, tetrahedronG] at he
  interval_cases i <;> interval_cases k <;>
    (simp at he; subst he
     simp [fnsOf, tetEdgeSets, tetEdgeNodes, List.find?_cons, canonEdge]
     intro j hj
     funext s
     simp [-mul_eq_mul_right_iff, -mul_eq_mul_left_iff, EdgeOf.point, TetFn.eval, bary3]
     ring_nf)

theorem edges_canon_prism (o k i : Nat) (hk : k < 2) (hi : i < 9) (e : EdgeOf)
    (he : (mkEdges prismG PrismFn.eval prismEdgeSets prismEdgeTable)[i]? = some e) :
    (e.fns o k).map (fun f s => f (e.point k s)) = canonEdge 1 o := by
  simp [mkEdges, prismEdgeTable, prismG] at he
  interval_cases i <;> interval_cases k <;>
    (simp at he; subst he
     simp [fnsOf, prismEdgeSets, prismTriEdgeNodes, prismSideEdgeNodes, List.find?_cons, canonEdge]
     intro j hj
     funext s
     simp [-mul_eq_mul_right_iff, -mul_eq_mul_left_iff, EdgeOf.point, PrismFn.eval, baryP, triNode, bary2, posP, mirrorP]
     ring_nf)

theorem edges_canon_cube (o k i : Nat) (hk : k < 2) (hi : i < 12) (e : EdgeOf)
    (he : (mkEdges cubeG CubeFn.eval cubeEdgeSets cubeEdgeTable)[i]? = some e) :
    (e.fns o k).map (fun f s => f (e.point k s)) = canonEdge (-1) o := by
  simp [mkEdges, cubeEdgeTable, cubeG] at he
  interval_cases i <;> interval_cases k <;>
    (simp at he; subst he
     simp [fnsOf, cubeEdgeSets, cubeEdgeNodes0, cubeEdgeNodes1, cubeEdgeNodes2, List.find?_cons,
      canonEdge]
     intro j hj
     funext s
     simp [-mul_eq_mul_right_iff, -mul_eq_mul_left_iff, EdgeOf.point, CubeFn.eval, pos0, pos1, pos2, mirror]
     norm_num
     ring_nf)

theorem mem_tetPrismEdges (e) (he : e ∈ tetPrismEdges) (o k : Nat) (hk : k < 2) :
    (e.fns o k).map (fun f s => f (e.point k s)) = canonEdge 1 o := by
  simp only [tetPrismEdges, List.mem_append] at he
  rcases he with h | h
  · obtain ⟨i, h⟩ := List.mem_iff_getElem?.1 h
    refine edges_canon_tet o k i hk ?_ e h
    have := (List.getElem?_eq_some_iff.1 h).1
    simpa [mkEdges, tetrahedronEdges] using this
  · obtain ⟨i, h⟩ := List.mem_iff_getElem?.1 h
    refine edges_canon_prism o k i hk ?_ e h
    have := (List.getElem?_eq_some_iff.1 h).1
    simpa [mkEdges, prismEdgeTable] using this

theorem mem_cubeEdges (e) (he : e ∈ cubeEdges) (o k : Nat) (hk : k < 2) :
    (e.fns o k).map (fun f s => f (e.point k s)) = canonEdge (-1) o := by
  obtain ⟨i, h⟩ := List.mem_iff_getElem?.1 he
  refine edges_canon_cube o k i hk ?_ e h
  have := (List.getElem?_eq_some_iff.1 h).1
  simpa [cubeEdges, mkEdges, cubeEdgeTable] using this

theorem edges_match_of {e e' : EdgeOf} {o k k' : Nat} {c : List (ℝ → ℝ)}
    (h : (e.fns o k).map (fun f s => f (e.point k s)) = c)
    (h' : (e'.fns o k').map (fun f s => f (e'.point k' s)) = c) : EdgesMatch e e' o k k' := by
  apply forall2_of_map _ _ (h.trans h'.symm)
  intro a b h s
  exact congrFun h s

theorem edges_mismatch (e e' : EdgeOf) (he : e ∈ tetPrismEdges) (he' : e' ∈ cubeEdges)
    (o k k' : Nat) (ho : 3 ≤ o) (hk : k < 2) (hk' : k' < 2) : ¬ EdgesMatch e e' o k k' := by
  have h0 := mem_tetPrismEdges e he o k hk
  have h1 := mem_cubeEdges e' he' o k' hk'
  intro h
  obtain ⟨l, hl⟩ := upTo2_cons o ho
  unfold EdgesMatch at h
  have h2 := (List.forall₂_map_left_iff (f := fun (f : Pt 3 → ℝ) s => f (e.point k s))
    (R := fun (a b : ℝ → ℝ) => ∀ x, a x = b x)).2 ((List.forall₂_map_right_iff
      (f := fun (f : Pt 3 → ℝ) s => f (e'.point k' s))).2 h)
  rw [h0, h1, canonEdge, canonEdge, hl] at h2
  simp only [List.map_cons, List.forall₂_cons] at h2
  obtain ⟨_, h3, _⟩ := h2
  have h4 := h3 (1 / 4)
  obtain ⟨c1, hc1, e1⟩ := lobatto1
  simp [e1] at h4
  norm_num at h4
  apply hc1
  linarith

/-! ### Vertex functions -/

theorem forallFin_lookup {m : Nat} {l : List Nat} {P : Fin m → Nat → Prop} (hl : l.length = m)
    (h : ∀ a : Fin m, P a (l[a.val]'(by omega))) : ∀ (a : Fin m) i, l[a.val]? = some i → P a i := by
  intro a i hi
  have := h a
  rw [List.getElem?_eq_getElem (by omega)] at hi
  simp at hi
  rwa [hi] at this

theorem traces_triangle (F) (hF : F ∈ triangleFaces) :
    VertexTraces triangleG.nodes (fun i => (TriangleFn.vertex i).eval)
      (fun a => (LineFn.vertex a).eval) F := by
  simp only [triangleFaces, List.mem_cons, List.not_mem_nil, or_false] at hF
  refine ⟨by rcases hF with rfl | rfl | rfl <;> rfl, rfl, ?_⟩
  intro a i h x
  rcases hF with rfl | rfl | rfl <;> fin_cases a <;> simp at h <;> fin_cases i <;> simp at h <;>
    simp [TriangleFn.eval, LineFn.eval, bary2] <;> ring

theorem traces_square (F) (hF : F ∈ squareFaces) :
    VertexTraces squareG.nodes (fun i => (SquareFn.vertex i).eval)
      (fun a => (LineFn.vertex a).eval) F := by
  simp only [squareFaces, List.mem_cons, List.not_mem_nil, or_false] at hF
  refine ⟨by rcases hF with rfl | rfl | rfl | rfl <;> rfl, rfl, ?_⟩
  intro a i h x
  rcases hF with rfl | rfl | rfl | rfl <;> fin_cases a <;> simp at h <;> fin_cases i <;>
    simp at h <;> simp [SquareFn.eval, LineFn.eval, pos0, pos1] <;> norm_num <;> ring

theorem traces_tet (F) (hF : F ∈ tetrahedronFaces) :
    VertexTraces tetrahedronG.nodes (fun i => (TetFn.vertex i).eval)
      (fun a => (TriangleFn.vertex a).eval) F := by
  simp only [tetrahedronFaces, List.mem_cons, List.not_mem_nil, or_false] at hF
  refine ⟨by rcases hF with rfl | rfl | rfl | rfl <;> rfl, rfl, ?_⟩
  intro a i h x
  rcases hF with rfl | rfl | rfl | rfl <;> fin_cases a <;> simp at h <;> fin_cases i <;>
    simp at h <;> simp [TetFn.eval, TriangleFn.eval, bary2, bary3] <;> ring

theorem traces_cube (F) (hF : F ∈ cubeFaces) :
    VertexTraces cubeG.nodes (fun i => (CubeFn.vertex i).eval)
      (fun a => (SquareFn.vertex a).eval) F := by
  simp only [cubeFaces, List.mem_cons, List.not_mem_nil, or_false] at hF
  refine ⟨by rcases hF with rfl | rfl | rfl | rfl | rfl | rfl <;> rfl, rfl, ?_⟩
  intro a i h x
  rcases hF with rfl | rfl | rfl | rfl | rfl | rfl <;> fin_cases a <;> simp at h <;>
    fin_cases i <;> simp at h <;> simp [CubeFn.eval, SquareFn.eval, pos0, pos1, pos2] <;>
    norm_num <;> ring

theorem traces_prism_tri (F) (hF : F ∈ prismFaces.take 2) :
    VertexTraces prismG.nodes (fun i => (PrismFn.vertex i).eval)
      (fun a => (TriangleFn.vertex a).eval) F := by
  simp only [prismFaces, List.take_succ_cons, List.take_zero, List.mem_cons, List.not_mem_nil,
    or_false] at hF
  refine ⟨by rcases hF with rfl | rfl <;> rfl, rfl, ?_⟩
  intro a i h x
  rcases hF with rfl | rfl <;> fin_cases a <;> simp at h <;>
    fin_cases i <;> simp at h <;> simp [PrismFn.eval, TriangleFn.eval, baryP, bary2, triNode, posP] <;>
    norm_num <;> ring

theorem traces_prism_sq (F) (hF : F ∈ prismFaces.drop 2) :
    VertexTraces prismG.nodes (fun i => (PrismFn.vertex i).eval)
      (fun a => (SquareFn.vertex a).eval) F := by
  simp only [prismFaces, List.drop_succ_cons, List.drop_zero, List.mem_cons, List.not_mem_nil,
    or_false] at hF
  refine ⟨by rcases hF with rfl | rfl | rfl <;> rfl, rfl, ?_⟩
  intro a i h x
  rcases hF with rfl | rfl | rfl <;> fin_cases a <;> simp at h <;>
    fin_cases i <;> simp at h <;>
    simp [PrismFn.eval, SquareFn.eval, baryP, bary2, triNode, posP, pos0, pos1] <;>
    norm_num <;> ring

end Verif.Basis
