import Verif.PhysMap.LemmasNewton
import Verif.PhysMap.LemmasFace
import Verif.RefGeometry.Props
import Verif.Lattice.Props

/-!
# Elements fit together at their faces

C58 of properties.jsonl.
-/
namespace Verif.PhysMap
open Verif.RefGeometry (Pt Face)
open Matrix

variable {V : Type*} [AddCommGroup V] [Module ℝ V]

/-- The map of the shape of a face with `n` nodes. -/
noncomputable def faceMap (V : Type*) [AddCommGroup V] [Module ℝ V] : (d n : Nat) → Option ((Nat → V) → Pt d → V)
  | 1, 2 => some (transform .line)
  | 2, 3 => some (transform .triangle)
  | 2, 4 => some (transform .square)
  | _, _ => none

/-- On a face an element is the face that is spanned by the nodes of the face: nothing but the positions of these nodes
and the shape of the face matter. -/
theorem face_map {d n : Nat} {T : (Nat → V) → Pt (d + 1) → V} {f : Face d} (h : HasFace V d n T f) :
    f.nodeIdx.length = n ∧ ∃ T', faceMap V d n = some T' ∧ OnFace T f T' := by
  cases h with
  | triangle f hf => exact ⟨by revert f; simp [RefGeometry.triangleFaces], _, rfl, triangle_onFace f hf⟩
  | square f hf => exact ⟨by revert f; simp [RefGeometry.squareFaces], _, rfl, square_onFace f hf⟩
  | tetrahedron f hf => exact ⟨by revert f; simp [RefGeometry.tetrahedronFaces], _, rfl, tetrahedron_onFace f hf⟩
  | cube f hf => exact ⟨by revert f; simp [RefGeometry.cubeFaces], _, rfl, cube_onFace f hf⟩
  | pyramid n f hf hn =>
    subst hn
    rcases pyramid_onFace (V := V) f hf with ⟨h1, h2⟩ | ⟨h1, h2⟩ <;> rw [h1] <;> exact ⟨rfl, _, rfl, h2⟩
  | prism n f hf hn =>
    subst hn
    rcases prism_onFace (V := V) f hf with ⟨h1, h2⟩ | ⟨h1, h2⟩ <;> rw [h1] <;> exact ⟨rfl, _, rfl, h2⟩

/-- All faces of the shapes of `RefGeometry.shapes` are covered, other than those of the line and the hypercube. -/
theorem face_map_all (d : Nat) (hd : d = 1 ∨ d = 2) (S : RefGeometry.Shape d) (hS : S ∈ RefGeometry.shapes d)
    (f : Face d) (hf : f ∈ S.faces) : ∃ n T, HasFace V d n T f := by
  rcases hd with rfl | rfl
  · simp only [RefGeometry.shapes, List.mem_cons, List.not_mem_nil, or_false] at hS
    rcases hS with rfl | rfl
    · exact ⟨_, _, .triangle f hf⟩
    · exact ⟨_, _, .square f hf⟩
  · simp only [RefGeometry.shapes, List.mem_cons, List.not_mem_nil, or_false] at hS
    rcases hS with rfl | rfl | rfl | rfl
    all_goals first
      | exact ⟨_, _, .tetrahedron f hf⟩ | exact ⟨_, _, .cube f hf⟩ | exact ⟨_, _, .pyramid _ f hf rfl⟩
      | exact ⟨_, _, .prism _ f hf rfl⟩

/-- The side of a quadratic triangle is the parabola through the three nodes that the curved reference triangle lists
for the side. -/
theorem triangle2_side (f : Face 1) (hf : f ∈ RefGeometry.triangleFaces) :
    ∃ idx, Lattice.nodeIndices (Lattice.curvedTriangle 2) f.map.transform (Lattice.curvedLine 2) = some idx ∧
      ∀ (p : Nat → V) x, transform .triangle2 p (f.map.transform x) = parabola (fun i => p (idx.getD i 0)) x := by
  obtain ⟨idx, h1, h2⟩ := (Lattice.curvedTriangle_finds_nodes 2 (by norm_num) (by norm_num)).2 f hf
  refine ⟨idx, h1, fun p x => ?_⟩
  have hl : idx.length = 3 := by simpa [curvedLine_two] using congrArg List.length h2
  have hn : ∀ i < 3, triangle2 p (f.map.transform ((Lattice.curvedLine 2).getD i 0)) = p (idx.getD i 0) := by
    intro i hi
    have h3 := congrArg (fun l => l[i]?) h2
    have h4 : (Lattice.curvedLine 2)[i]? = some ((Lattice.curvedLine 2).getD i 0) := by
      rw [List.getD_eq_getElem?_getD, List.getElem?_eq_getElem (by simp [curvedLine_two]; omega)]; rfl
    have h5 : idx[i]? = some (idx.getD i 0) := by
      rw [List.getD_eq_getElem?_getD, List.getElem?_eq_getElem (by omega)]; rfl
    simp only [List.getElem?_map, h4, h5, Option.map_some, Option.some.injEq] at h3
    exact nodes_map_lem .triangle2 (by simp) p _ _ h3
  show triangle2 p _ = _
  rw [triangle2_face f hf]
  simp only [parabola, hn 0 (by omega), hn 1 (by omega), hn 2 (by omega)]

/-- The face of a quadratic tetrahedron is the quadratic triangle through the six nodes of the face. -/
theorem tetrahedron2_side (f : Face 2) (hf : f ∈ RefGeometry.tetrahedronFaces) :
    ∃ idx, Lattice.nodeIndices (Lattice.curvedTetrahedron 2) f.map.transform (Lattice.curvedTriangle 2) = some idx ∧
      ∀ (p : Nat → V) x,
        transform .tetrahedron2 p (f.map.transform x) = transform .triangle2 (fun i => p (idx.getD i 0)) x := by
  obtain ⟨idx, h1, h2⟩ := (Lattice.curvedTetrahedron_finds_nodes 2 (by norm_num) (by norm_num)).2.1 f hf
  refine ⟨idx, h1, fun p x => ?_⟩
  have hl : idx.length = 6 := by simpa [curvedTriangle_two] using congrArg List.length h2
  have hn : ∀ i < 6, tetrahedron2 p (f.map.transform ((Lattice.curvedTriangle 2).getD i 0)) = p (idx.getD i 0) := by
    intro i hi
    have h3 := congrArg (fun l => l[i]?) h2
    have h4 : (Lattice.curvedTriangle 2)[i]? = some ((Lattice.curvedTriangle 2).getD i 0) := by
      rw [List.getD_eq_getElem?_getD, List.getElem?_eq_getElem (by simp [curvedTriangle_two]; omega)]; rfl
    have h5 : idx[i]? = some (idx.getD i 0) := by
      rw [List.getD_eq_getElem?_getD, List.getElem?_eq_getElem (by omega)]; rfl
    simp only [List.getElem?_map, h4, h5, Option.map_some, Option.some.injEq] at h3
    exact nodes_map_lem .tetrahedron2 (by simp) p _ _ h3
  show tetrahedron2 p _ = triangle2 _ x
  rw [tetrahedron2_face f hf]
  simp only [triangle2_eq, hn 0 (by omega), hn 1 (by omega), hn 2 (by omega), hn 3 (by omega), hn 4 (by omega),
    hn 5 (by omega)]

/-! ## Gluing -/

theorem exists_perm {n : Nat} {l r : Fin n → Nat} (hl : Function.Injective l) (hr : Function.Injective r)
    (h : Set.range l = Set.range r) : ∃ σ : Equiv.Perm (Fin n), l = r ∘ σ := by
  refine ⟨(Equiv.ofInjective l hl).trans ((Equiv.setCongr h).trans (Equiv.ofInjective r hr).symm), ?_⟩
  funext i
  simp [Equiv.apply_ofInjective_symm]

theorem line_body (m : RefGeometry.RefMap 1 1) (hm : m ∈ RefGeometry.lineToLine) (x : Pt 1)
    (hx : x ∈ RefGeometry.body RefGeometry.lineG) : m.transform x ∈ RefGeometry.body RefGeometry.lineG := by
  simp only [RefGeometry.body, RefGeometry.lineG, Set.mem_ofPred_eq] at hx ⊢
  simp only [RefGeometry.lineToLine, List.mem_cons, List.not_mem_nil, or_false] at hm
  rcases hm with rfl | rfl <;> simp <;> constructor <;> linarith

theorem triangle_body (m : RefGeometry.RefMap 2 2) (hm : m ∈ RefGeometry.triangleToTriangle) (x : Pt 2)
    (hx : x ∈ RefGeometry.body RefGeometry.triangleG) : m.transform x ∈ RefGeometry.body RefGeometry.triangleG := by
  simp only [RefGeometry.body, RefGeometry.triangleG, Set.mem_ofPred_eq] at hx ⊢
  simp only [RefGeometry.triangleToTriangle, List.mem_cons, List.not_mem_nil, or_false] at hm
  rcases hm with rfl | rfl | rfl | rfl | rfl | rfl <;> simp <;> refine ⟨?_, ?_, ?_, ?_⟩ <;> linarith

theorem square_body (m : RefGeometry.RefMap 2 2) (hm : m ∈ RefGeometry.squareToSquare) (x : Pt 2)
    (hx : x ∈ RefGeometry.body RefGeometry.squareG) : m.transform x ∈ RefGeometry.body RefGeometry.squareG := by
  simp only [RefGeometry.body, RefGeometry.squareG, Set.mem_ofPred_eq] at hx ⊢
  simp only [RefGeometry.squareToSquare, List.mem_cons, List.not_mem_nil, or_false] at hm
  rcases hm with rfl | rfl | rfl | rfl | rfl | rfl | rfl | rfl <;> simp <;> refine ⟨?_, ?_, ?_, ?_⟩ <;> linarith

/-- The geometry of a face is that of its number of nodes. -/
theorem face_geom {d n : Nat} {T : (Nat → V) → Pt (d + 1) → V} {f : Face d} (h : HasFace V d n T f) :
    (d = 1 ∧ n = 2 ∧ HEq f.geom RefGeometry.lineG) ∨ (d = 2 ∧ n = 3 ∧ HEq f.geom RefGeometry.triangleG) ∨
      (d = 2 ∧ n = 4 ∧ HEq f.geom RefGeometry.squareG) := by
  cases h with
  | triangle f hf => revert f; simp [RefGeometry.triangleFaces]
  | square f hf => revert f; simp [RefGeometry.squareFaces]
  | tetrahedron f hf => revert f; simp [RefGeometry.tetrahedronFaces]
  | cube f hf => revert f; simp [RefGeometry.cubeFaces]
  | pyramid n f hf hn => subst hn; revert f; simp [RefGeometry.pyramidFaces]
  | prism n f hf hn => subst hn; revert f; simp [RefGeometry.prismFaces]

omit [AddCommGroup V] [Module ℝ V] in
theorem glue_core {d n : Nat} {T' : (Nat → V) → Pt d → V} {TL TR : (Nat → V) → Pt (d + 1) → V} {fL fR : Face d}
    (gL : OnFace TL fL T') (gR : OnFace TR fR T') (G : RefGeometry.Geom d) (eL : fL.geom = G) (eR : fR.geom = G)
    (m : RefGeometry.RefMap d d) (hbody : ∀ x ∈ RefGeometry.body G, m.transform x ∈ RefGeometry.body G)
    (hperm : ∀ q x, T' q (m.transform x) = T' (fun i => T' q (m.transform (G.nodes.getD i 0))) x)
    (hcongr : ∀ p p' x, (∀ i < n, p i = p' i) → T' p x = T' p' x)
    (hnode : ∀ q i x, G.nodes[i]? = some x → T' q x = q i) (hlen : G.nodes.length = n) (σ : Fin n → Fin n)
    (hσ : ∀ i : Fin n, (G.nodes[(i : Nat)]?).map m.transform = G.nodes[(σ i : Nat)]?) (p q : Nat → V)
    (h : ∀ i : Fin n, p (fL.nodeIdx.getD i 0) = q (fR.nodeIdx.getD (σ i) 0)) (x : Pt d)
    (hx : x ∈ RefGeometry.body G) : TL p (fL.map.transform x) = TR q (fR.map.transform (m.transform x)) := by
  rw [gL p x (eL ▸ hx), gR q _ (eR ▸ hbody x hx), hperm]
  apply hcongr
  intro i hi
  have h6 := hσ ⟨i, hi⟩
  have h7 : G.nodes[i]? = some (G.nodes.getD i 0) := by
    rw [List.getD_eq_getElem?_getD, List.getElem?_eq_getElem (by omega)]; rfl
  rw [show ((⟨i, hi⟩ : Fin n) : Nat) = i from rfl, h7, Option.map_some] at h6
  rw [h ⟨i, hi⟩]
  exact (hnode (fun i => q (fR.nodeIdx.getD i 0)) _ _ h6.symm).symm

/-- Two elements in the plane with a common side: `l` and `r` number the nodes of the side as the left and the right
element list them, `pos` are the positions of the nodes. The point that the face assigns to the right element for a
point of the reference face is at the same position as the one that it assigns to the left element. -/
theorem glue_line {TL TR : (Nat → V) → Pt 2 → V} {fL fR : Face 1} (hL : HasFace V 1 2 TL fL) (hR : HasFace V 1 2 TR fR)
    (l r : Fin 2 → Nat) (hl : Function.Injective l) (hr : Function.Injective r) (hlr : Set.range l = Set.range r)
    (pos : Nat → V) (p q : Nat → V) (hp : ∀ i : Fin 2, p (fL.nodeIdx.getD i 0) = pos (l i))
    (hq : ∀ i : Fin 2, q (fR.nodeIdx.getD i 0) = pos (r i)) :
    ∃ m, RefGeometry.lineToLine[RefGeometry.lineIndex l r]? = some m ∧
      ∀ x ∈ RefGeometry.body RefGeometry.lineG,
        TL p (fL.map.transform x) = TR q (fR.map.transform (m.transform x)) := by
  obtain ⟨σ, rfl⟩ := exists_perm hl hr hlr
  obtain ⟨m, h1, h2⟩ := RefGeometry.line_codim0 σ r hr
  have hm : m ∈ RefGeometry.lineToLine := List.mem_of_getElem? h1
  obtain ⟨_, T', h3, h4⟩ := face_map hL
  obtain ⟨_, T'', h3', h5⟩ := face_map hR
  cases Option.some.inj h3
  cases Option.some.inj h3'
  have gL : fL.geom = RefGeometry.lineG := by simpa using face_geom hL
  have gR : fR.geom = RefGeometry.lineG := by simpa using face_geom hR
  refine ⟨m, h1, fun x hx => glue_core (n := 2) h4 h5 _ gL gR m (line_body m hm) (line_perm m hm) (fun p p' x h => ?_)
    (fun q i x h => nodes_map_lem .line (by simp) q i x h) rfl σ h2 p q (fun i => by rw [hp, hq]; rfl) x hx⟩
  show line p x = line p' x
  simp only [line_eq, h 0 (by omega), h 1 (by omega)]

/-- The same for two elements in space with a common triangle. -/
theorem glue_triangle {TL TR : (Nat → V) → Pt 3 → V} {fL fR : Face 2} (hL : HasFace V 2 3 TL fL)
    (hR : HasFace V 2 3 TR fR) (l r : Fin 3 → Nat) (hl : Function.Injective l) (hr : Function.Injective r)
    (hlr : Set.range l = Set.range r) (pos : Nat → V) (p q : Nat → V)
    (hp : ∀ i : Fin 3, p (fL.nodeIdx.getD i 0) = pos (l i)) (hq : ∀ i : Fin 3, q (fR.nodeIdx.getD i 0) = pos (r i)) :
    ∃ m, RefGeometry.triangleToTriangle[RefGeometry.triangleIndex l r]? = some m ∧
      ∀ x ∈ RefGeometry.body RefGeometry.triangleG,
        TL p (fL.map.transform x) = TR q (fR.map.transform (m.transform x)) := by
  obtain ⟨σ, rfl⟩ := exists_perm hl hr hlr
  obtain ⟨m, h1, h2⟩ := RefGeometry.triangle_codim0 σ r hr
  have hm : m ∈ RefGeometry.triangleToTriangle := List.mem_of_getElem? h1
  obtain ⟨_, T', h3, h4⟩ := face_map hL
  obtain ⟨_, T'', h3', h5⟩ := face_map hR
  cases Option.some.inj h3
  cases Option.some.inj h3'
  have gL : fL.geom = RefGeometry.triangleG := by simpa using face_geom hL
  have gR : fR.geom = RefGeometry.triangleG := by simpa using face_geom hR
  refine ⟨m, h1, fun x hx => glue_core (n := 3) h4 h5 _ gL gR m (triangle_body m hm) (triangle_perm m hm) (fun p p' x h => ?_)
    (fun q i x h => nodes_map_lem .triangle (by simp) q i x h) rfl σ h2 p q (fun i => by rw [hp, hq]; rfl) x hx⟩
  show simplex p x = simplex p' x
  simp only [triangle_eq, h 0 (by omega), h 1 (by omega), h 2 (by omega)]

/-- The same for two elements in space with a common square, if the nodes of the square are listed in the same order
or in orders that differ by a reflection or a rotation by 180 degrees. Missing: rotations by 90 degrees, for which the
claim is false, see `glue_square_fails`. -/
theorem glue_square_partial {TL TR : (Nat → V) → Pt 3 → V} {fL fR : Face 2} (hL : HasFace V 2 4 TL fL)
    (hR : HasFace V 2 4 TR fR) (r : Fin 4 → Nat) (hr : Function.Injective r) (σ : Equiv.Perm (Fin 4))
    (hσ : RefGeometry.SquareSymmetry σ) (h2 : σ * σ = 1) (pos : Nat → V) (p q : Nat → V)
    (hp : ∀ i : Fin 4, p (fL.nodeIdx.getD i 0) = pos (r (σ i)))
    (hq : ∀ i : Fin 4, q (fR.nodeIdx.getD i 0) = pos (r i)) :
    ∃ k m, RefGeometry.squareIndex (r ∘ σ) r = some k ∧ RefGeometry.squareToSquare[k]? = some m ∧
      ∀ x ∈ RefGeometry.body RefGeometry.squareG,
        TL p (fL.map.transform x) = TR q (fR.map.transform (m.transform x)) := by
  obtain ⟨k, m, h0, h1, h2⟩ := RefGeometry.square_codim0_partial σ hσ h2 r hr
  have hm : m ∈ RefGeometry.squareToSquare := List.mem_of_getElem? h1
  obtain ⟨_, T', h3, h4⟩ := face_map hL
  obtain ⟨_, T'', h3', h5⟩ := face_map hR
  cases Option.some.inj h3
  cases Option.some.inj h3'
  have gL : fL.geom = RefGeometry.squareG := by simpa using face_geom hL
  have gR : fR.geom = RefGeometry.squareG := by simpa using face_geom hR
  refine ⟨k, m, h0, h1, fun x hx => glue_core (n := 4) h4 h5 _ gL gR m (square_body m hm) (square_perm m hm) (fun p p' x h => ?_)
    (fun q i x h => nodes_map_lem .square (by simp) q i x h) rfl σ h2 p q (fun i => by rw [hp, hq]) x hx⟩
  show square p x = square p' x
  simp only [square_eq, h 0 (by omega), h 1 (by omega), h 2 (by omega), h 3 (by omega)]

/-- If the orders differ by a rotation by 90 degrees, the two elements are evaluated at different positions: this holds
at every corner of the face. -/
theorem glue_square_fails {TL TR : (Nat → V) → Pt 3 → V} {fL fR : Face 2} (hL : HasFace V 2 4 TL fL)
    (hR : HasFace V 2 4 TR fR) (r : Fin 4 → Nat) (hr : Function.Injective r) (σ : Equiv.Perm (Fin 4))
    (hσ : RefGeometry.SquareSymmetry σ) (h2 : σ * σ ≠ 1) (pos : Nat → V) (hpos : Function.Injective (pos ∘ r))
    (p q : Nat → V) (hp : ∀ i : Fin 4, p (fL.nodeIdx.getD i 0) = pos (r (σ i)))
    (hq : ∀ i : Fin 4, q (fR.nodeIdx.getD i 0) = pos (r i)) :
    ∃ k m, RefGeometry.squareIndex (r ∘ σ) r = some k ∧ RefGeometry.squareToSquare[k]? = some m ∧
      ∀ x ∈ RefGeometry.squareG.nodes,
        TL p (fL.map.transform x) ≠ TR q (fR.map.transform (m.transform x)) := by
  obtain ⟨k, m, h0, h1, h3⟩ := RefGeometry.square_codim0_inverse σ hσ r hr
  have hm : m ∈ RefGeometry.squareToSquare := List.mem_of_getElem? h1
  obtain ⟨_, T', h4, h5⟩ := face_map hL
  obtain ⟨_, T'', h4', h6⟩ := face_map hR
  cases Option.some.inj h4
  cases Option.some.inj h4'
  have gL : fL.geom = RefGeometry.squareG := by simpa using face_geom hL
  have gR : fR.geom = RefGeometry.squareG := by simpa using face_geom hR
  refine ⟨k, m, h0, h1, fun x hx => ?_⟩
  have hb : x ∈ RefGeometry.body RefGeometry.squareG := by
    revert x
    simp [RefGeometry.squareG, RefGeometry.body]
  rw [h5 p x (gL ▸ hb), h6 q _ (gR ▸ square_body m hm x hb)]
  obtain ⟨i, hi⟩ := List.mem_iff_getElem?.1 hx
  have hi4 : i < 4 := by
    by_contra hc
    rw [List.getElem?_eq_none (by simp [RefGeometry.squareG]; omega)] at hi
    exact absurd hi (by simp)
  have h7 := h3 ⟨i, hi4⟩
  rw [show ((⟨i, hi4⟩ : Fin 4) : Nat) = i from rfl, hi, Option.map_some] at h7
  rw [show transform .square (fun i => p (fL.nodeIdx.getD i 0)) x = _ from nodes_map_lem .square (by simp) _ i x hi,
    show transform .square (fun i => q (fR.nodeIdx.getD i 0)) (m.transform x) = _ from
      nodes_map_lem .square (by simp) _ _ _ h7.symm]
  have h8 := hp ⟨i, hi4⟩
  have h9 := hq (σ⁻¹ ⟨i, hi4⟩)
  dsimp only at h8
  rw [h8, h9]
  intro h
  have key : ∀ σ : Equiv.Perm (Fin 4), RefGeometry.SquareSymmetry σ → σ * σ ≠ 1 → ∀ i, σ⁻¹ i ≠ σ i := by decide
  exact key σ hσ h2 _ (hpos h).symm

/-- Two quadratic triangles that agree at the three nodes of a side agree on the side. -/
theorem glue_parabola (fL fR : Face 1) (hL : fL ∈ RefGeometry.triangleFaces) (hR : fR ∈ RefGeometry.triangleFaces)
    (m : RefGeometry.RefMap 1 1) (hm : m ∈ RefGeometry.lineToLine) (p q : Nat → V)
    (h : ∀ x ∈ Lattice.curvedLine 2, transform .triangle2 p (fL.map.transform x) =
      transform .triangle2 q (fR.map.transform (m.transform x))) (x : Pt 1) :
    transform .triangle2 p (fL.map.transform x) = transform .triangle2 q (fR.map.transform (m.transform x)) := by
  have hp : ∀ (q : Nat → V) x, parabola q (m.transform x) =
      parabola (fun i => parabola q (m.transform ((Lattice.curvedLine 2).getD i 0))) x := by
    intro q x
    rw [curvedLine_two]
    simp only [RefGeometry.lineToLine, List.mem_cons, List.not_mem_nil, or_false] at hm
    rcases hm with rfl | rfl <;> simp [parabola] <;> norm_num <;> module
  have hl := triangle2_face fL hL p
  have hr := triangle2_face fR hR q
  simp only [transform] at h ⊢
  rw [curvedLine_two] at h
  rw [hl x, hr (m.transform x), hp]
  simp only [← hr]
  simp only [curvedLine_two, parabola] at h ⊢
  rw [List.forall_mem_cons, List.forall_mem_cons, List.forall_mem_cons] at h
  obtain ⟨h0, h1, h2, _⟩ := h
  simp [h0, h1, h2]

/-- Two quadratic tetrahedra that agree at the six nodes of a face agree on the face. -/
theorem glue_triangle2 (fL fR : Face 2) (hL : fL ∈ RefGeometry.tetrahedronFaces)
    (hR : fR ∈ RefGeometry.tetrahedronFaces) (m : RefGeometry.RefMap 2 2) (hm : m ∈ RefGeometry.triangleToTriangle)
    (p q : Nat → V) (h : ∀ x ∈ Lattice.curvedTriangle 2, transform .tetrahedron2 p (fL.map.transform x) =
      transform .tetrahedron2 q (fR.map.transform (m.transform x))) (x : Pt 2) :
    transform .tetrahedron2 p (fL.map.transform x) = transform .tetrahedron2 q (fR.map.transform (m.transform x)) := by
  have hp : ∀ (q : Nat → V) x, triangle2 q (m.transform x) =
      triangle2 (fun i => triangle2 q (m.transform ((Lattice.curvedTriangle 2).getD i 0))) x := by
    intro q x
    rw [curvedTriangle_two]
    simp only [RefGeometry.triangleToTriangle, List.mem_cons, List.not_mem_nil, or_false] at hm
    rcases hm with rfl | rfl | rfl | rfl | rfl | rfl <;> simp only [triangle2_eq] <;> simp <;> norm_num <;> module
  have hl := tetrahedron2_face fL hL p
  have hr := tetrahedron2_face fR hR q
  simp only [transform] at h ⊢
  rw [curvedTriangle_two] at h
  rw [hl x, hr (m.transform x), hp]
  simp only [← hr]
  simp only [curvedTriangle_two, triangle2_eq] at h ⊢
  rw [List.forall_mem_cons, List.forall_mem_cons, List.forall_mem_cons, List.forall_mem_cons, List.forall_mem_cons,
    List.forall_mem_cons] at h
  obtain ⟨h0, h1, h2, h3, h4, h5, _⟩ := h
  simp only [List.getD_cons_zero, List.getD_cons_succ, h0, h1, h2, h3, h4, h5]

/-- The hypotheses can be met: two triangles with the nodes 7, 3, 5 and 3, 7, 9 that share the side from 3 to 7. -/
example : ∃ (fL fR : Face 1) (l r : Fin 2 → Nat), HasFace (Pt 2) 1 2 (transform .triangle) fL ∧
    HasFace (Pt 2) 1 2 (transform .triangle) fR ∧ Function.Injective l ∧ Function.Injective r ∧
    Set.range l = Set.range r ∧ (∀ i : Fin 2, [7, 3, 5].getD (fL.nodeIdx.getD i 0) 0 = l i) ∧
    (∀ i : Fin 2, [3, 7, 9].getD (fR.nodeIdx.getD i 0) 0 = r i) ∧ l ≠ r := by
  refine ⟨RefGeometry.triangleFaces[0], RefGeometry.triangleFaces[0], ![7, 3], ![3, 7],
    .triangle _ (List.getElem_mem _), .triangle _ (List.getElem_mem _), by decide, by decide, ?_, ?_, ?_, by decide⟩
  · ext i; simp [or_comm]
  · simp [RefGeometry.triangleFaces, Fin.forall_fin_two]
  · simp [RefGeometry.triangleFaces, Fin.forall_fin_two]

end Verif.PhysMap
