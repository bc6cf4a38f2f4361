import Verif.CurlBasis.LemmasTrace

/-!
# Properties of the curl-conforming basis functions (C125 - C128)
-/
namespace Verif.CurlBasis
open Verif.RefGeometry (Pt tetrahedronG)
open Verif.Legendre (legendre)

/-- C125: the curl of a Nédélec function on the tetrahedron is the curl of its values, for all
degrees, nodes and points. -/
theorem nedelec_curl_correct (f : NedelecFn) (p : Pt 3) : IsCurl f.eval (f.evalCurl p) p :=
  nedelec_curl f p

/-- C125: so is the curl of an Ainsworth-Coyle function. -/
theorem ainsworth_curl_correct (f : AinsworthFn) (p : Pt 3) : IsCurl f.eval (f.evalCurl p) p :=
  ainsworth_curl f p

/-- C125: the first component of the curl of a Nédélec function on the triangle is its rotation, the
second is zero, whenever a curl is given. -/
theorem nedelec2_curl_correct (f : Nedelec2Fn) (p c : Pt 2) (h : f.evalCurl p = some c) :
    IsCurl2 f.eval (c 0) p ∧ c 1 = 0 := nedelec2_curl f p c h

example : (NedelecFn.edge 0 0 0 1).evalCurl ![1 / 3, 1 / 4, 1 / 5] = ![0, 2, -2] := by
  funext k; fin_cases k <;> simp [NedelecFn.evalCurl, outer, baryGrad]

/-- C125, partial: in two dimensions all curls are available up to order 6. Missing: higher orders,
see `nedelec2_curl_aborts`. -/
theorem nedelec2_curl_defined_partial (k : Nat) (hk : k ≤ 6) (f : Nedelec2Fn) (hf : f ∈ nedelec2 k)
    (p : Pt 2) : ∃ c, f.evalCurl p = some c := by
  simp only [nedelec2, List.mem_append, List.mem_flatMap] at hf
  rcases hf with ⟨g, hg, h⟩ | h
  · obtain ⟨v, hv⟩ := Verif.Basis.line_defined (k - 1) (by omega) g hg 0 (modulatorCoord 0 p)
    obtain ⟨v', hv'⟩ := Verif.Basis.line_defined (k - 1) (by omega) g hg 0 (modulatorCoord 1 p)
    obtain ⟨v'', hv''⟩ := Verif.Basis.line_defined (k - 1) (by omega) g hg 0 (modulatorCoord 2 p)
    simp at h
    rcases h with rfl | rfl | rfl <;> simp [Nedelec2Fn.evalCurl, hv, hv', hv'']
  · split_ifs at h with h1
    · simp only [List.mem_flatMap] at h
      obtain ⟨g, hg, h⟩ := h
      obtain ⟨v, hv⟩ := Verif.Basis.triangle_defined (k - 2) (by omega) g hg 0 p
      obtain ⟨v', hv'⟩ := Verif.Basis.triangle_defined (k - 2) (by omega) g hg 1 p
      simp at h
      rcases h with rfl | rfl <;> simp [Nedelec2Fn.evalCurl, hv, hv']
    · simp at h

/-- C125, violation: from order 7 on there is a function whose curl ends in a fatal error, at every
point. -/
theorem nedelec2_curl_aborts (k : Nat) (hk : 7 ≤ k) :
    ∃ f ∈ nedelec2 k, ∀ p, f.evalCurl p = none := by
  obtain ⟨⟨g, hg, h⟩, -⟩ := Verif.Basis.undefined (k - 1) (by omega)
  refine ⟨.edge 0 g, ?_, fun p => ?_⟩
  · simp only [nedelec2, List.mem_append, List.mem_flatMap]
    exact Or.inl ⟨g, hg, by simp⟩
  · simp [Nedelec2Fn.evalCurl, h]

/-- C126: the Nédélec functions of order `k` on the tetrahedron form a basis: they are different and
linearly independent on the tetrahedron, their linear combinations are precisely the functions of
Nédélec's space of the first kind, and their number is `k (k + 2) (k + 3) / 2`. -/
theorem nedelec_basis (k : Nat) (hk : 0 < k) :
    VecIndependent tetrahedronG.isInternal NedelecFn.eval (nedelec3 k) ∧
    (∀ u, InSpan NedelecFn.eval (nedelec3 k) u ↔ NedelecSpace 3 k u) ∧
    2 * (nedelec3 k).length = k * (k + 2) * (k + 3) := by
  refine ⟨⟨nedelec_nodup k, fun c h f hf => ?_⟩, nedelec_span_iff hk, nedelec_length k⟩
  refine nedelec_ind (nedelec3 k).toFinset (fun f hf => List.mem_toFinset.mp hf) c ?_ f
    (List.mem_toFinset.mpr hf)
  intro p hp
  rw [List.sum_toFinset _ (nedelec_nodup k)]
  exact h p hp

example : (nedelec3 1).length = 6 ∧ (nedelec3 2).length = 20 ∧ (nedelec3 3).length = 45 := by decide

/-- The field `(-y, x, 0)` is in the space of order 1, `(x, 0, 0)` is not. -/
example : NedelecSpace 3 1 (fun p => ![-p 1, p 0, 0]) := by
  refine ⟨![-MvPolynomial.X 1, MvPolynomial.X 0, 0], fun p i => by fin_cases i <;> simp,
    fun i => ?_, ?_⟩
  · fin_cases i <;> simp [MvPolynomial.totalDegree_X, MvPolynomial.totalDegree_neg]
  · have : ∑ i : Fin 3, MvPolynomial.X i *
        (![-MvPolynomial.X 1, MvPolynomial.X 0, 0] : Fin 3 → MvPolynomial (Fin 3) ℝ) i = 0 := by
      rw [Fin.sum_univ_three]; simp; ring
    rw [this]; simp

/-- C127: Nédélec functions of an edge have no tangential part on the faces opposite of its nodes,
those of a face have none on the other faces, those of the interior have none on the boundary. Along
their edge, from node `i` to node `j`, the edge functions are `-(1 - s) ^ l * s ^ m`. -/
theorem nedelec_traces :
    (∀ l m i j, NoTrace (NedelecFn.edge l m i j).eval i ∧ NoTrace (NedelecFn.edge l m i j).eval j) ∧
    (∀ l m n d e, e ≠ d → NoTrace (NedelecFn.face1 l m n d).eval e ∧
      NoTrace (NedelecFn.face2 l m n d).eval e) ∧
    (∀ l m n o e, NoTrace (NedelecFn.interior1 l m n o).eval e ∧
      NoTrace (NedelecFn.interior2 l m n o).eval e ∧ NoTrace (NedelecFn.interior3 l m n o).eval e) ∧
    ∀ l m i j, i ≠ j → ∀ s : ℝ,
      ∑ k, (NedelecFn.edge l m i j).eval ((1 - s) • corner i + s • corner j) k *
        (corner j k - corner i k) = -((1 - s) ^ l * s ^ m) :=
  ⟨nedelec_edge_notrace, nedelec_face_notrace, nedelec_interior_notrace, nedelec_edge_value⟩

/-- C127: Ainsworth-Coyle functions of an edge have no tangential part on the faces opposite of its
nodes, those of a face have none on the other faces, those of the interior have none on the boundary.
Along their edge, from node `o` to node `i`, the edge functions are minus Legendre polynomials. -/
theorem ainsworth_traces :
    (∀ q o i, NoTrace (AinsworthFn.edge q o i).eval o ∧ NoTrace (AinsworthFn.edge q o i).eval i) ∧
    (∀ q d c e, d ≠ c → e ≠ d → NoTrace (AinsworthFn.edgeFace q d c).eval e) ∧
    (∀ l m d e b, e ≠ d → NoTrace (AinsworthFn.face l m d b).eval e) ∧
    (∀ l m d e, NoTrace (AinsworthFn.faceInterior l m d).eval e) ∧
    (∀ l m n d e, NoTrace (AinsworthFn.interior l m n d).eval e) ∧
    ∀ q o i, o ≠ i → ∀ s : ℝ,
      ∑ k, (AinsworthFn.edge q o i).eval ((1 - s) • corner o + s • corner i) k *
        (corner i k - corner o k) = -legendre q (2 * s - 1) :=
  ⟨ainsworth_edge_notrace, ainsworth_edgeFace_notrace, ainsworth_face_notrace,
    ainsworth_faceInterior_notrace, ainsworth_interior_notrace, ainsworth_edge_value⟩

/-- C127: Nédélec functions of a side of the triangle have no tangential part on the other two sides,
those of the interior have none on any side. Side 0 of the code is opposite of the last corner, side
1 of the first one, side 2 of the second one. -/
theorem nedelec2_traces :
    (∀ g, NoTrace2 (Nedelec2Fn.edge 0 g).eval 0 ∧ NoTrace2 (Nedelec2Fn.edge 0 g).eval 1 ∧
      NoTrace2 (Nedelec2Fn.edge 1 g).eval 1 ∧ NoTrace2 (Nedelec2Fn.edge 1 g).eval 2 ∧
      NoTrace2 (Nedelec2Fn.edge 2 g).eval 0 ∧ NoTrace2 (Nedelec2Fn.edge 2 g).eval 2) ∧
    ∀ t g d, NoTrace2 (Nedelec2Fn.interior t g).eval d := by
  constructor
  · intro g
    refine ⟨?_, ?_, ?_, ?_, ?_, ?_⟩ <;> intro p hp t ht <;>
      simp only [OnSide, ParallelSide] at hp ht <;> rw [Fin.sum_univ_two] <;>
      simp only [Nedelec2Fn.eval, sideFunction, Pi.smul_apply, smul_eq_mul, Matrix.cons_val_zero,
        Matrix.cons_val_one, hp, ht]
    · linear_combination g.eval (modulatorCoord 0 p) * t 0 * hp +
        (-(g.eval (modulatorCoord 0 p)) * p 0) * ht
    · ring
    · ring
    · ring
    · linear_combination g.eval (modulatorCoord 2 p) * t 0 * hp +
        (g.eval (modulatorCoord 2 p) * (1 - p 0)) * ht
    · ring
  · intro t g d p hp s hs
    fin_cases t <;> fin_cases d <;> simp [OnSide, ParallelSide] at hp hs <;>
      rw [Fin.sum_univ_two] <;> simp [Nedelec2Fn.eval, typePart, hp, hs]
    · linear_combination (g.eval p * p 0 * s 0) * hp + (g.eval p * p 0 * (1 - p 0)) * hs
    · linear_combination (-(g.eval p) * p 1 * s 0) * hp + (g.eval p * p 1 * p 0) * hs

example : NoTrace (NedelecFn.face1 1 0 2 3).eval 0 := (nedelec_traces.2.1 1 0 2 3 0 (by decide)).1

/-- C128: the Ainsworth-Coyle functions of order `k > 0` form a basis of the vector fields with
components of degree at most `k`: they are different and linearly independent on the tetrahedron,
their linear combinations are precisely these vector fields, and their number is
`(k + 1) (k + 2) (k + 3) / 2`. -/
theorem ainsworth_basis (k : Nat) (hk : 0 < k) :
    VecIndependent tetrahedronG.isInternal AinsworthFn.eval (ainsworth3 k) ∧
    (∀ u, InSpan AinsworthFn.eval (ainsworth3 k) u ↔ PolySpace 3 k u) ∧
    2 * (ainsworth3 k).length = (k + 1) * (k + 2) * (k + 3) :=
  ⟨⟨ainsworth_nodup k, ainsworth_ind k⟩, ainsworth_span_iff hk, ainsworth_length k hk⟩

example : (ainsworth3 1).length = 12 ∧ (ainsworth3 2).length = 30 ∧ (ainsworth3 4).length = 105 := by
  decide

/-- C128: for order zero the set holds six independent functions, none of which is constant. -/
theorem ainsworth_order_zero :
    VecIndependent tetrahedronG.isInternal AinsworthFn.eval (ainsworth3 0) ∧
    (ainsworth3 0).length = 6 ∧ ∀ f ∈ ainsworth3 0, ¬ PolySpace 3 0 f.eval := by
  refine ⟨⟨ainsworth_nodup 0, ainsworth_ind 0⟩, by decide, ?_⟩
  intro f hf ⟨q, h1, h2⟩
  have hc : ∀ p, f.eval p = f.eval 0 := by
    intro p
    funext i
    rw [h1, h1, MvPolynomial.totalDegree_eq_zero_iff_eq_C.mp (Nat.le_zero.mp (h2 i))]
    simp
  simp [ainsworth3] at hf
  rcases hf with rfl | rfl | rfl | rfl | rfl | rfl
  · have := congrFun (hc ![0, 1, 0]) 0; simp [AinsworthFn.eval, baryGrad, Verif.Basis.bary3] at this
  · have := congrFun (hc ![1, 0, 0]) 1; simp [AinsworthFn.eval, baryGrad, Verif.Basis.bary3] at this
  · have := congrFun (hc ![1, 0, 0]) 2; simp [AinsworthFn.eval, baryGrad, Verif.Basis.bary3] at this
  · have := congrFun (hc ![0, 1, 1]) 1; simp [AinsworthFn.eval, baryGrad, Verif.Basis.bary3] at this
  · have := congrFun (hc ![1, 0, 1]) 0; simp [AinsworthFn.eval, baryGrad, Verif.Basis.bary3] at this
  · have := congrFun (hc ![1, 1, 0]) 0; simp [AinsworthFn.eval, baryGrad, Verif.Basis.bary3] at this

/-- C127, partial: the functions of a face that are no edge-based functions are parallel to the face.
Missing: the face opposite of node 0, see `face_zero_not_parallel`. -/
theorem face_parallel_partial (l m : Nat) (d : Fin 4) (b : Bool) (hd : d ≠ 0) (p : Pt 3) :
    Parallel d ((AinsworthFn.face l m d b).eval p) := by
  fin_cases d <;> first | exact absurd rfl hd | skip
  all_goals cases b <;> simp [Parallel, AinsworthFn.eval, faceNodesDir, faceNodes, faceDirection]

/-- C127, violation: on the face opposite of node 0 none of them is. -/
theorem face_zero_not_parallel (l m : Nat) (b : Bool) :
    ∃ p, tetrahedronG.isInternal p ∧ OnFace 0 p ∧
      ¬ Parallel 0 ((AinsworthFn.face l m 0 b).eval p) := by
  by_contra hcon
  push Not at hcon
  have key := legendre_ind2 (l + m + 1) (fun i j => if i = l ∧ j = m then 1 else 0)
    (fun x y h0 h1 h2 h3 => ?_) l m (by omega)
  · simp at key
  · rw [Finset.sum_eq_single l, Finset.sum_eq_single m]
    · simp only [and_self, if_true, one_mul]
      cases b
      · obtain ⟨P, hb0, hb1, hb2, hb3, hin⟩ := exists_pt 0 ((1 - x - y) / 3) ((1 - x - y) / 3 + x)
          ((1 - x - y) / 3 + y) (by ring) (by linarith) (by linarith) (by linarith) (by linarith)
        have h := hcon P hin (by simp [Verif.Basis.bary3] at hb0; simp [OnFace]; linarith)
        simp [Parallel, AinsworthFn.eval, faceNodesDir, faceNodes, faceDirection, hb1, hb2, hb3] at h
        rcases h with ((((h | h) | h) | h) | h)
        · linarith
        · linarith
        · linarith
        · rw [h, zero_mul]
        · rw [h, mul_zero]
      · obtain ⟨P, hb0, hb1, hb2, hb3, hin⟩ := exists_pt 0 ((1 - x - y) / 3) ((1 - x - y) / 3 + y)
          ((1 - x - y) / 3 + x) (by ring) (by linarith) (by linarith) (by linarith) (by linarith)
        have h := hcon P hin (by simp [Verif.Basis.bary3] at hb0; simp [OnFace]; linarith)
        simp [Parallel, AinsworthFn.eval, faceNodesDir, faceNodes, faceDirection, hb1, hb2, hb3] at h
        rcases h with ((((h | h) | h) | h) | h)
        · linarith
        · linarith
        · linarith
        · rw [h, zero_mul]
        · rw [h, mul_zero]
    · intro j _ hj; simp [hj]
    · intro h; exact absurd (Finset.mem_range.mpr (by omega)) h
    · intro i _ hi; exact Finset.sum_eq_zero fun j _ => by simp [hi]
    · intro h; exact absurd (Finset.mem_range.mpr (by omega)) h

end Verif.CurlBasis
