import Verif.Assign.LemmasTrace

/-! # Properties of the assignment of basis functions to a mesh (C82, C83) -/
namespace Verif.Assign
open Verif.Basis Verif.ElementData Verif.RefGeometry

/-- C82. After `useDefaultConformingBasisFunctions(order)` every element has, for every unknown, the sets of its own shape:
the interior functions, on each face and edge the set for the way in which it lies there, at each corner the function of
that corner, and nothing else. Whatever was assigned before is gone. -/
theorem conforming_assigns (m : Mesh) (hS : m.Sound) (order : Nat) (st st' : St) (F : Fits m st)
    (h : useConforming m order st = some st') :
    Fits m st' ∧ st'.Valid ∧ ∀ (e : Nat) (el : Elem) (u : Nat), m.elems[e]? = some el → u < m.unknowns →
      ∃ s, conforming order el.kind = some s ∧ Conforms m order st' e u el s := by
  simp only [useConforming, Option.bind_eq_some_iff] at h
  obtain ⟨s0, h0, h⟩ := h
  obtain ⟨c1, c2, c3, c4⟩ := clear_steps F h0
  obtain ⟨ho, coll, ix, cs, st1, a1, a2, a3, a4, a5, a6, a7, a8, a9, a10⟩ := assign_steps hS c2 h
  refine ⟨(run_spec cs a3).2.1 a7, run_valid cs a3 (a8 (clear_valid c3)), fun e el u hel hu => ?_⟩
  obtain ⟨s, a, hA⟩ := a1 e el hel
  have hu' : u ∈ List.range m.unknowns := by simpa using hu
  exact ⟨s, hA.sets, conforms_of hS a2 a3 a4 hel hA hu' (a10 u hu' e el s a hel hA)⟩

/-- C82. The call succeeds exactly for a positive order and shapes that have conforming functions of that order: pyramids
only of order one, points and hypercubes never. -/
theorem conforming_defined (m : Mesh) (hS : m.Sound) (order : Nat) (st : St) (F : Fits m st) :
    (useConforming m order st).isSome ↔ order ≠ 0 ∧ ∀ el ∈ m.elems, el.kind ≠ .point ∧ el.kind ≠ .hypercube ∧
      (el.kind = .pyramid → order = 1) := by
  have hk : ∀ k, (conforming order k).isSome ↔ k ≠ .point ∧ k ≠ .hypercube ∧ (k = .pyramid → order = 1) := by
    intro k
    cases k <;> simp [conforming]
  obtain ⟨s0, h0⟩ := clearMesh_defined F
  simp only [useConforming, h0, Option.bind_some]
  constructor
  · intro h
    obtain ⟨st', h⟩ := Option.isSome_iff_exists.1 h
    obtain ⟨h1, h2⟩ := assign_needs h
    exact ⟨h1, fun el hel => (hk _).1 (h2 el hel)⟩
  · rintro ⟨h1, h2⟩
    obtain ⟨st', h⟩ := assign_defined hS (us := List.range m.unknowns) (by simp) (clear_steps F h0).2.1 h1
      (fun el hel => (hk _).2 (h2 el hel))
    rw [h]; rfl

/-- C82. The number of functions a face, an edge or a node reports is the number each of the elements around it has there:
for faces it depends on the shape of the face only, for edges it is `order - 1`, for nodes 1. -/
theorem conforming_numbers (m : Mesh) (hS : m.Sound) (hM : m.Matches) (order : Nat) (st st' : St) (F : Fits m st)
    (h : useConforming m order st = some st') (u : Nat) (hu : u < m.unknowns) :
    (∀ i f, m.faces[i]? = some f → ∀ r ∈ (⟨f.1.1, f.1.2, 0⟩ : Side) :: f.2.toList, ∀ el sh,
      m.elems[r.elem]? = some el → el.kind.faceShape r.num = some sh →
      st'.count .face i u = some (sh.size order) ∧ st'.sizeOf r.elem u (1 + r.num) = sh.size order) ∧
    (∀ i l, m.edges[i]? = some l → ∀ r ∈ l, ∀ el, m.elems[r.elem]? = some el →
      st'.count .edge i u = some (order - 1) ∧ st'.sizeOf r.elem u (1 + el.faces + r.num) = order - 1) ∧
    (m.dim > 1 → ∀ i n, m.nodes[i]? = some n → ∀ c ∈ n, c.topological.isSome → ∀ el, m.elems[c.elem]? = some el →
      st'.count .node i u = some 1 ∧ st'.sizeOf c.elem u (1 + el.faces + el.edges + c.num) = 1) := by
  obtain ⟨-, -, hconf⟩ := conforming_assigns m hS order st st' F h
  simp only [useConforming, Option.bind_eq_some_iff] at h
  obtain ⟨s0, h0, h⟩ := h
  obtain ⟨c1, c2, c3, c4⟩ := clear_steps F h0
  obtain ⟨ho, coll, ix, cs, st1, a1, a2, a3, a4, a5, a6, a7, a8, a9, a10⟩ := assign_steps hS c2 h
  have hu' : u ∈ List.range m.unknowns := by simpa using hu
  have hcount : ∀ part i, (part = .node → m.dim > 1) → i < m.number part → st1.count part i u = some 0 := by
    intro part i hp hi
    have := c4 part hp i u hi hu
    rw [← this]; simp only [St.count, a5]
  have hzero : ∀ {sh : FaceShape} {el : Elem} {f : Nat}, el.kind = .pyramid → order = 1 →
      el.kind.faceShape f = some sh → sh.size order = 0 := by
    intro sh el f hk ho hsh
    subst ho
    rw [hk] at hsh
    simp only [Kind.faceShape] at hsh
    split at hsh
    · cases hsh; rfl
    · split at hsh
      · cases hsh; rfl
      · cases hsh
  refine ⟨?_, ?_, ?_⟩
  · intro i f hf r hr el sh hel hsh
    have hfm := List.mem_of_getElem? hf
    obtain ⟨el0, sh0, e1, e2, e3⟩ := hM.face f hfm
    have hshape : sh = sh0 ∧ r.orient < sh0.orientations := by
      rcases List.mem_cons.1 hr with rfl | hr
      · rw [e1] at hel; cases hel
        rw [e2] at hsh; cases hsh
        exact ⟨rfl, show 0 < sh.orientations by cases sh <;> decide⟩
      · obtain ⟨el', g1, g2, g3⟩ := e3 r (by simpa using hr)
        rw [g1] at hel; cases hel
        rw [g2] at hsh; cases hsh
        exact ⟨rfl, g3⟩
    obtain ⟨rfl, hor⟩ := hshape
    refine ⟨face_count a1 a2 a3 hu' hf e1 e2 (hcount .face i (by simp)
      (List.getElem?_eq_some_iff.1 hf).1), ?_⟩
    obtain ⟨s, hs, hC⟩ := hconf r.elem el u hel hu
    have hH := hC.face r (List.mem_flatMap.2 ⟨f, hfm, hr⟩) rfl
    unfold St.sizeOf
    by_cases hk : el.kind = .pyramid
    · have hord : order = 1 := by rw [hk] at hs; exact pyramid_order hs
      rw [hzero hk hord hsh]
      rcases hc : st'.content r.elem u (1 + r.num) with _ | x
      · rfl
      · exact absurd hk ((face_mem_iff hs r.orient r.num).1 ⟨x, (hH x).1 hc⟩).1
    · obtain ⟨x, hx, ax⟩ := (face_mem_iff hs r.orient r.num).2 ⟨hk, sh, hsh, hor⟩
      rw [(hH x).2 ⟨hx, ax⟩]
      exact face_size hs hx ax hsh
  · intro i l hl r hr el hel
    have hlm := List.mem_of_getElem? hl
    obtain ⟨el0, e1, e2, e3⟩ := hM.edge l hlm r hr
    rw [hel] at e1; cases e1
    refine ⟨edge_count a1 a2 a3 hu' hl hr hel e2 e3 (hcount .edge i (by simp) (List.getElem?_eq_some_iff.1 hl).1), ?_⟩
    obtain ⟨s, hs, hC⟩ := hconf r.elem el u hel hu
    have hH := hC.edge r (List.mem_flatten.2 ⟨l, hlm, hr⟩) rfl
    unfold St.sizeOf
    by_cases hk : el.kind = .pyramid
    · have hord : order = 1 := by rw [hk] at hs; exact pyramid_order hs
      rcases hc : st'.content r.elem u (1 + el.faces + r.num) with _ | x
      · simp [hord]
      · exact absurd hk ((edge_mem_iff hs r.orient r.num).1 ⟨x, (hH x).1 hc⟩).1
    · obtain ⟨x, hx, ax⟩ := (edge_mem_iff hs r.orient r.num).2 ⟨hk, e2, e3⟩
      rw [(hH x).2 ⟨hx, ax⟩]
      exact (edges_table hs).2 x hx
  · intro hd i n hn c hc htop el hel
    have hnm := List.mem_of_getElem? hn
    obtain ⟨t, ht⟩ := Option.isSome_iff_exists.1 htop
    refine ⟨node_count hS a1 a2 a3 hu' hn hd hc ht, ?_⟩
    obtain ⟨s, hs, hC⟩ := hconf c.elem el u hel hu
    have hcm := List.mem_flatten.2 ⟨n, hnm, hc⟩
    have hH := hC.node hd c hcm rfl t ht
    obtain ⟨el', e1, e2, e3⟩ := hS.corner c hcm
    rw [hel] at e1; cases e1
    have hlt : t < s.nodes.length := by
      rw [(nodes_table hs).1 ?_]
      · exact e3 t ht
      · intro hk
        have := hS.dims el (List.mem_of_getElem? hel)
        rw [hk] at this
        simp only [Kind.dim] at this
        omega
    unfold St.sizeOf
    rw [(hH s.nodes[t]).2 (List.getElem?_eq_getElem hlt)]
    exact (nodes_table hs).2 _ (List.getElem_mem hlt)

/-- C82. In two dimensions the functions the two elements at a face have been given for it have the same values on it,
one by one. -/
theorem conforming_continuous_2d (m : Mesh) (hS : m.Sound) (order : Nat) (st st' : St) (F : Fits m st)
    (h : useConforming m order st = some st') (u : Nat) (hu : u < m.unknowns)
    (f : (Nat × Nat) × Option Side) (hf : f ∈ m.faces) (r : Side) (hr : f.2 = some r)
    (el el' : Elem) (hel : m.elems[f.1.1]? = some el) (hel' : m.elems[r.elem]? = some el')
    (hk : el.kind = .triangle ∨ el.kind = .square) (hk' : el'.kind = .triangle ∨ el'.kind = .square)
    (G G' : Face 1) (hG : el.kind.faces2[f.1.2]? = some G) (hG' : el'.kind.faces2[r.num]? = some G')
    (K : RefMap 1 1) (hK : lineToLine[r.orient]? = some K) :
    ∃ x y, st'.content f.1.1 u (1 + f.1.2) = some x ∧ st'.content r.elem u (1 + r.num) = some y ∧
      TracesMatch G G' K (x.fns.map Fn.eval2) (y.fns.map Fn.eval2) := by
  obtain ⟨-, -, hconf⟩ := conforming_assigns m hS order st st' F h
  obtain ⟨s, hs, hC⟩ := hconf _ _ u hel hu
  obtain ⟨s', hs', hC'⟩ := hconf _ _ u hel' hu
  obtain ⟨L, hL, rfl, hLf⟩ := face2 hk hs hG
  obtain ⟨R, hR, rfl, hRf⟩ := face2 hk' hs' hG'
  have ho : r.orient < 2 := by
    have := (List.getElem?_eq_some_iff.1 hK).1; simpa [lineToLine] using this
  have shape : ∀ {e : Elem} {i : Nat} {H : Face 1}, (e.kind = .triangle ∨ e.kind = .square) →
      e.kind.faces2[i]? = some H → e.kind ≠ .pyramid ∧ e.kind.faceShape i = some .line := by
    intro e i H hke hH
    have hi := (List.getElem?_eq_some_iff.1 hH).1
    rcases hke with hke | hke <;> rw [hke] at hi ⊢ <;>
      simp [Kind.faces2, triangleFaces, squareFaces] at hi <;> exact ⟨by simp, by simp [Kind.faceShape, hi]⟩
  obtain ⟨p1, p2⟩ := shape hk hG
  obtain ⟨q1, q2⟩ := shape hk' hG'
  obtain ⟨x, hx, ax⟩ := (face_mem_iff hs 0 f.1.2).2 ⟨p1, .line, p2, by decide⟩
  obtain ⟨y, hy, ay⟩ := (face_mem_iff hs' r.orient r.num).2 ⟨q1, .line, q2, ho⟩
  refine ⟨x, y, (hC.face ⟨f.1.1, f.1.2, 0⟩ (List.mem_flatMap.2 ⟨f, hf, by simp⟩) rfl x).2 ⟨hx, ax⟩,
    (hC'.face r (List.mem_flatMap.2 ⟨f, hf, by simp [hr]⟩) rfl y).2 ⟨hy, ay⟩, ?_⟩
  rw [hLf 0 x hx ax, hRf r.orient y hy ay]
  exact line_faces_conform order r.orient K hK L R hL hR

/-- C82. The same in three dimensions for triangular faces between tetrahedra and prisms. -/
theorem conforming_continuous_triangles (m : Mesh) (hS : m.Sound) (order : Nat) (st st' : St) (F : Fits m st)
    (h : useConforming m order st = some st') (u : Nat) (hu : u < m.unknowns)
    (f : (Nat × Nat) × Option Side) (hf : f ∈ m.faces) (r : Side) (hr : f.2 = some r)
    (el el' : Elem) (hel : m.elems[f.1.1]? = some el) (hel' : m.elems[r.elem]? = some el')
    (hk : el.kind = .tetrahedron ∨ el.kind = .prism) (hk' : el'.kind = .tetrahedron ∨ el'.kind = .prism)
    (hsh : el.kind.faceShape f.1.2 = some .triangle) (hsh' : el'.kind.faceShape r.num = some .triangle)
    (G G' : Face 2) (hG : el.kind.faces3[f.1.2]? = some G) (hG' : el'.kind.faces3[r.num]? = some G')
    (K : RefMap 2 2) (hK : triangleToTriangle[r.orient]? = some K) :
    ∃ x y, st'.content f.1.1 u (1 + f.1.2) = some x ∧ st'.content r.elem u (1 + r.num) = some y ∧
      TracesMatch G G' K (x.fns.map Fn.eval3) (y.fns.map Fn.eval3) := by
  obtain ⟨-, -, hconf⟩ := conforming_assigns m hS order st st' F h
  obtain ⟨s, hs, hC⟩ := hconf _ _ u hel hu
  obtain ⟨s', hs', hC'⟩ := hconf _ _ u hel' hu
  obtain ⟨L, hL, rfl, hLf⟩ := face3tri hk hs hsh hG
  obtain ⟨R, hR, rfl, hRf⟩ := face3tri hk' hs' hsh' hG'
  have ho : r.orient < 6 := by
    have := (List.getElem?_eq_some_iff.1 hK).1; simpa [triangleToTriangle] using this
  obtain ⟨x, hx, ax⟩ := (face_mem_iff hs 0 f.1.2).2
    ⟨by rcases hk with h | h <;> rw [h] <;> simp, .triangle, hsh, by decide⟩
  obtain ⟨y, hy, ay⟩ := (face_mem_iff hs' r.orient r.num).2
    ⟨by rcases hk' with h | h <;> rw [h] <;> simp, .triangle, hsh', ho⟩
  refine ⟨x, y, (hC.face ⟨f.1.1, f.1.2, 0⟩ (List.mem_flatMap.2 ⟨f, hf, by simp⟩) rfl x).2 ⟨hx, ax⟩,
    (hC'.face r (List.mem_flatMap.2 ⟨f, hf, by simp [hr]⟩) rfl y).2 ⟨hy, ay⟩, ?_⟩
  rw [hLf 0 x hx ax, hRf r.orient y hy ay]
  exact triangular_faces_conform order r.orient K hK L R hL hR

/-- C82, partial. Between two cubes the same holds for the orientations 0, 2, 4 and 5 and up to order two for all; for the
others it fails from order three on (`Basis.cube_faces_do_not_conform`). Missing: square faces of prisms. -/
theorem conforming_continuous_cubes_partial (m : Mesh) (hS : m.Sound) (order : Nat) (st st' : St) (F : Fits m st)
    (h : useConforming m order st = some st') (u : Nat) (hu : u < m.unknowns)
    (f : (Nat × Nat) × Option Side) (hf : f ∈ m.faces) (r : Side) (hr : f.2 = some r)
    (el el' : Elem) (hel : m.elems[f.1.1]? = some el) (hel' : m.elems[r.elem]? = some el')
    (hk : el.kind = .cube) (hk' : el'.kind = .cube)
    (G G' : Face 2) (hG : el.kind.faces3[f.1.2]? = some G) (hG' : el'.kind.faces3[r.num]? = some G')
    (K : RefMap 2 2) (hK : squareToSquare[r.orient]? = some K)
    (hor : order ≤ 2 ∨ r.orient = 0 ∨ r.orient = 2 ∨ r.orient = 4 ∨ r.orient = 5) :
    ∃ x y, st'.content f.1.1 u (1 + f.1.2) = some x ∧ st'.content r.elem u (1 + r.num) = some y ∧
      TracesMatch G G' K (x.fns.map Fn.eval3) (y.fns.map Fn.eval3) := by
  obtain ⟨-, -, hconf⟩ := conforming_assigns m hS order st st' F h
  obtain ⟨s, hs, hC⟩ := hconf _ _ u hel hu
  obtain ⟨s', hs', hC'⟩ := hconf _ _ u hel' hu
  rw [hk] at hs hG
  rw [hk'] at hs' hG'
  obtain ⟨L, hL, rfl, hLf⟩ := face3cube hs hG
  obtain ⟨R, hR, rfl, hRf⟩ := face3cube hs' hG'
  have ho : r.orient < 8 := by
    have := (List.getElem?_eq_some_iff.1 hK).1; simpa [squareToSquare] using this
  have shape : ∀ {i : Nat} {H : Face 2}, (Kind.faces3 .cube)[i]? = some H → Kind.faceShape .cube i = some .square := by
    intro i H hH
    have hi := (List.getElem?_eq_some_iff.1 hH).1
    simp [Kind.faces3, cubeFaces] at hi
    simp [Kind.faceShape, hi]
  obtain ⟨x, hx, ax⟩ := (face_mem_iff hs 0 f.1.2).2 ⟨by simp, .square, shape hG, by decide⟩
  obtain ⟨y, hy, ay⟩ := (face_mem_iff hs' r.orient r.num).2 ⟨by simp, .square, shape hG', ho⟩
  refine ⟨x, y, (hC.face ⟨f.1.1, f.1.2, 0⟩ (List.mem_flatMap.2 ⟨f, hf, by simp⟩) rfl x).2 ⟨hx, ax⟩,
    (hC'.face r (List.mem_flatMap.2 ⟨f, hf, by simp [hr]⟩) rfl y).2 ⟨hy, ay⟩, ?_⟩
  rw [hLf 0 x hx ax, hRf r.orient y hy ay]
  rcases hor with hor | hor
  · exact cube_faces_conform_low_order_partial order r.orient hor K hK L R hL hR
  · exact cube_faces_conform_partial order r.orient hor K hK L R hL hR

/-- C82. `useDefaultConformingBasisFunctions(order, unknown)` gives this unknown the same sets as the call for all unknowns
and leaves the others as they are, sets and numbers. -/
theorem conforming_for_unknown (m : Mesh) (hS : m.Sound) (order unknown : Nat) (st st' : St) (F : Fits m st)
    (V : st.Valid) (h : useConformingFor m order unknown st = some st') :
    Fits m st' ∧ st'.Valid ∧
    (∀ (e : Nat) (el : Elem), m.elems[e]? = some el →
      ∃ s, conforming order el.kind = some s ∧ Conforms m order st' e unknown el s) ∧
    ∀ u, u ≠ unknown → (∀ e p, st'.content e u p = st.content e u p) ∧
      ∀ part i, st'.count part i u = st.count part i u := by
  simp only [useConformingFor] at h
  obtain ⟨ho, coll, ix, cs, st1, a1, a2, a3, a4, a5, a6, a7, a8, a9, a10⟩ := assign_steps hS F h
  refine ⟨(run_spec cs a3).2.1 a7, run_valid cs a3 (a8 V), fun e el hel => ?_, fun u hu => ?_⟩
  · obtain ⟨s, a, hA⟩ := a1 e el hel
    exact ⟨s, hA.sets, conforms_of hS a2 a3 a4 hel hA (by simp) (a10 unknown (by simp) e el s a hel hA)⟩
  · obtain ⟨b1, b2⟩ := run_other cs a3 u (by simpa using hu)
    refine ⟨fun e p => content_append V ?_ ?_, fun part i => ?_⟩
    · obtain ⟨l, hl⟩ := a6
      exact ⟨l, by rw [(run_spec cs a3).1, a4, hl]⟩
    · rw [b1, a9 u (by simpa using hu)]
    · rw [b2]; simp only [St.count, a5]

/-! ### Discontinuous functions -/

/-- C82. After `useDefaultDGBasisFunctions(order)` every element has, for every unknown, the discontinuous set of its shape
and nothing else, and faces, edges and (in two or more dimensions) nodes have no functions. -/
theorem discontinuous_assigns (m : Mesh) (order : Nat) (st st' : St) (F : Fits m st)
    (h : useDG m order st = some st') :
    Fits m st' ∧ st'.Valid ∧
    (∀ (e : Nat) (el : Elem) (u p : Nat), m.elems[e]? = some el → u < m.unknowns →
      (st'.content e u 0).isSome ∧ st'.content e u 0 = discontinuous order el.kind ∧
      (p ≠ 0 → st'.content e u p = none)) ∧
    ∀ part, (part = .node → m.dim > 1) → ∀ i u, i < m.number part → u < m.unknowns → st'.count part i u = some 0 := by
  simp only [useDG, Option.bind_eq_some_iff] at h
  obtain ⟨s0, h0, h⟩ := h
  obtain ⟨c1, c2, c3, c4⟩ := clear_steps F h0
  obtain ⟨d1, d2, d3, d4, d5, d6⟩ := dg_steps c2 h
  refine ⟨d1, d2 (clear_valid c3), fun e el u p hel hu => ?_, fun part hp i u hi hu => ?_⟩
  · have hu' : u ∈ List.range m.unknowns := by simpa using hu
    obtain ⟨s, hs, e1, e2⟩ := d3 e el hel u hu'
    exact ⟨by simp [e1], by rw [e1, hs], e2 p⟩
  · have := c4 part hp i u hi hu
    rw [← this]; simp only [St.count, d6]

/-- C82. `useDefaultDGBasisFunctions(order, unknown)` gives this unknown the discontinuous set and leaves the sets of the
others as they are. -/
theorem discontinuous_for_unknown (m : Mesh) (order unknown : Nat) (st st' : St) (F : Fits m st)
    (V : st.Valid) (h : useDGFor m order unknown st = some st') :
    Fits m st' ∧ st'.Valid ∧ 0 < unknown ∧
    (∀ (e : Nat) (el : Elem) (p : Nat), m.elems[e]? = some el →
      (st'.content e unknown 0).isSome ∧ st'.content e unknown 0 = discontinuous order el.kind ∧
      (p ≠ 0 → st'.content e unknown p = none)) ∧
    ∀ u, u ≠ unknown → ∀ e p, st'.content e u p = st.content e u p := by
  simp only [useDGFor] at h
  split at h
  · rename_i hpos
    obtain ⟨d1, d2, d3, d4, d5, d6⟩ := dg_steps F h
    refine ⟨d1, d2 V, hpos, fun e el p hel => ?_, fun u hu e p => content_append V d5 (d4 u (by simpa using hu) e p)⟩
    obtain ⟨s, hs, e1, e2⟩ := d3 e el hel unknown (by simp)
    exact ⟨by simp [e1], by rw [e1, hs], e2 p⟩
  · cases h

/-- C82, violation: `useDefaultDGBasisFunctions(order, unknown)` does not touch the numbers of faces, edges and nodes. After
conforming functions of order two or more every face of a two dimensional mesh goes on to report functions for this unknown
although the elements no longer have any there. -/
theorem discontinuous_for_unknown_keeps_numbers (m : Mesh) (hS : m.Sound) (hM : m.Matches) (order order' unknown : Nat)
    (ho : 2 ≤ order) (st st1 st2 : St) (F : Fits m st) (h1 : useConforming m order st = some st1)
    (h2 : useDGFor m order' unknown st1 = some st2) (hu : unknown < m.unknowns)
    (i : Nat) (f : (Nat × Nat) × Option Side) (hf : m.faces[i]? = some f) (el : Elem)
    (hel : m.elems[f.1.1]? = some el) (hsh : el.kind.faceShape f.1.2 = some .line) :
    ∃ n, 0 < n ∧ st2.count .face i unknown = some n ∧ st2.sizeOf f.1.1 unknown (1 + f.1.2) = 0 := by
  obtain ⟨F1, V1, -⟩ := conforming_assigns m hS order st st1 F h1
  obtain ⟨n1, -⟩ := conforming_numbers m hS hM order st st1 F h1 unknown hu
  have hc := (n1 i f hf ⟨f.1.1, f.1.2, 0⟩ (by simp) el .line hel hsh).1
  have h2' := h2
  simp only [useDGFor] at h2'
  split at h2'
  · obtain ⟨d1, d2, d3, d4, d5, d6⟩ := dg_steps F1 h2'
    refine ⟨order - 1, by omega, ?_, ?_⟩
    · have : st2.count .face i unknown = st1.count .face i unknown := by simp only [St.count, d6]
      rw [this, hc]; rfl
    · obtain ⟨s, hs, e1, e2⟩ := d3 _ el hel unknown (by simp)
      simp [St.sizeOf, e2 (1 + f.1.2) (by omega)]
  · cases h2'

/-! ### Edges -/

/-- The sets two elements around an edge have for it. -/
private theorem edge_sets (m : Mesh) (hS : m.Sound) (order : Nat) (st st' : St) (F : Fits m st)
    (h : useConforming m order st = some st') (u : Nat) (hu : u < m.unknowns)
    (l : List Side) (hl : l ∈ m.edges) (r : Side) (hr : r ∈ l) (el : Elem) (hel : m.elems[r.elem]? = some el) (c : ℝ)
    (hk : (el.kind = .tetrahedron ∨ el.kind = .prism) ∧ c = 1 ∨ el.kind = .cube ∧ c = -1)
    (E : Pt 3 × Pt 3) (hE : el.kind.ends r.num = some E) (a b : Nat) (fwd : Bool) (hab : a ≠ b)
    (hor : r.orient = orientationOf a b fwd) :
    ∃ x, st'.content r.elem u (1 + el.faces + r.num) = some x ∧
      x.fns.map (fun f t => f.eval3 (along E fwd (if a < b then t else 1 - t))) = canonEdge c order := by
  obtain ⟨-, -, hconf⟩ := conforming_assigns m hS order st st' F h
  obtain ⟨s, hs, hC⟩ := hconf _ _ u hel hu
  obtain ⟨k1, k2⟩ := kind_ends_lt hE
  have ho : r.orient < 2 := by rw [hor]; exact orientationOf_lt a b fwd
  obtain ⟨x, hx, ax⟩ := (edge_mem_iff hs r.orient r.num).2 ⟨k1, k2, ho⟩
  refine ⟨x, (hC.edge r (List.mem_flatten.2 ⟨l, hl, hr⟩) rfl x).2 ⟨hx, ax⟩, ?_⟩
  rw [← edge3 hk hs hE ho hx ax]
  refine List.map_congr_left fun f _ => ?_
  funext t
  rw [along_orientation E a b hab fwd, hor]
  congr 2
  split <;> ring

/-- C83. Two tetrahedra or prisms, or two cubes, with a common edge: if both number the coordinates of its two nodes in the
same order (as they do if every node has one coordinate), their functions have the same values along the edge, one by one,
whatever order the elements list the nodes in. -/
theorem edge_functions_agree (m : Mesh) (hS : m.Sound) (order : Nat) (st st' : St) (F : Fits m st)
    (h : useConforming m order st = some st') (u : Nat) (hu : u < m.unknowns)
    (l : List Side) (hl : l ∈ m.edges) (r r' : Side) (hr : r ∈ l) (hr' : r' ∈ l) (el el' : Elem)
    (hel : m.elems[r.elem]? = some el) (hel' : m.elems[r'.elem]? = some el')
    (hk : (el.kind = .tetrahedron ∨ el.kind = .prism) ∧ (el'.kind = .tetrahedron ∨ el'.kind = .prism) ∨
      el.kind = .cube ∧ el'.kind = .cube)
    (E E' : Pt 3 × Pt 3) (hE : el.kind.ends r.num = some E) (hE' : el'.kind.ends r'.num = some E')
    (a b a' b' : Nat) (fwd fwd' : Bool) (hab : a ≠ b) (hab' : a' ≠ b')
    (hor : r.orient = orientationOf a b fwd) (hor' : r'.orient = orientationOf a' b' fwd')
    (same : a < b ↔ a' < b') :
    ∃ x y, st'.content r.elem u (1 + el.faces + r.num) = some x ∧
      st'.content r'.elem u (1 + el'.faces + r'.num) = some y ∧ AgreeAlong x y E E' fwd fwd' := by
  obtain ⟨c, h1, h2⟩ : ∃ c : ℝ, ((el.kind = .tetrahedron ∨ el.kind = .prism) ∧ c = 1 ∨ el.kind = .cube ∧ c = -1) ∧
      ((el'.kind = .tetrahedron ∨ el'.kind = .prism) ∧ c = 1 ∨ el'.kind = .cube ∧ c = -1) := by
    rcases hk with ⟨k1, k2⟩ | ⟨k1, k2⟩
    · exact ⟨1, Or.inl ⟨k1, rfl⟩, Or.inl ⟨k2, rfl⟩⟩
    · exact ⟨-1, Or.inr ⟨k1, rfl⟩, Or.inr ⟨k2, rfl⟩⟩
  obtain ⟨x, hx, ex⟩ := edge_sets m hS order st st' F h u hu l hl r hr el hel c h1 E hE a b fwd hab hor
  obtain ⟨y, hy, ey⟩ := edge_sets m hS order st st' F h u hu l hl r' hr' el' hel' c h2 E' hE' a' b' fwd' hab' hor'
  refine ⟨x, y, hx, hy, ?_⟩
  unfold AgreeAlong
  refine forall2_of_map _ _ (ex.trans ey.symm) ?_
  intro f g hfg s
  have := congrFun hfg (if a < b then s else 1 - s)
  simp only [same] at this
  split at this
  · exact this
  · simpa using this

/-- C83, violation: the orientation of an edge is taken from the numbers of the coordinates, not of the nodes. In a periodic
mesh a node has several coordinates; if the elements at an edge have numbered them differently, then from order three on
their functions do not agree along the edge. -/
theorem edge_functions_disagree (m : Mesh) (hS : m.Sound) (order : Nat) (st st' : St) (F : Fits m st)
    (h : useConforming m order st = some st') (u : Nat) (hu : u < m.unknowns)
    (l : List Side) (hl : l ∈ m.edges) (r r' : Side) (hr : r ∈ l) (hr' : r' ∈ l) (el el' : Elem)
    (hel : m.elems[r.elem]? = some el) (hel' : m.elems[r'.elem]? = some el')
    (hk : (el.kind = .tetrahedron ∨ el.kind = .prism) ∧ (el'.kind = .tetrahedron ∨ el'.kind = .prism) ∨
      el.kind = .cube ∧ el'.kind = .cube)
    (E E' : Pt 3 × Pt 3) (hE : el.kind.ends r.num = some E) (hE' : el'.kind.ends r'.num = some E')
    (a b a' b' : Nat) (fwd fwd' : Bool)
    (hor : r.orient = orientationOf a b fwd) (hor' : r'.orient = orientationOf a' b' fwd')
    (hab : a < b) (hab' : b' < a') (ho : 3 ≤ order) :
    ∃ x y, st'.content r.elem u (1 + el.faces + r.num) = some x ∧
      st'.content r'.elem u (1 + el'.faces + r'.num) = some y ∧ ¬ AgreeAlong x y E E' fwd fwd' := by
  obtain ⟨c, h1, h2, hc⟩ : ∃ c : ℝ, ((el.kind = .tetrahedron ∨ el.kind = .prism) ∧ c = 1 ∨ el.kind = .cube ∧ c = -1) ∧
      ((el'.kind = .tetrahedron ∨ el'.kind = .prism) ∧ c = 1 ∨ el'.kind = .cube ∧ c = -1) ∧ c ≠ 0 := by
    rcases hk with ⟨k1, k2⟩ | ⟨k1, k2⟩
    · exact ⟨1, Or.inl ⟨k1, rfl⟩, Or.inl ⟨k2, rfl⟩, by norm_num⟩
    · exact ⟨-1, Or.inr ⟨k1, rfl⟩, Or.inr ⟨k2, rfl⟩, by norm_num⟩
  obtain ⟨x, hx, ex⟩ := edge_sets m hS order st st' F h u hu l hl r hr el hel c h1 E hE a b fwd (by omega) hor
  obtain ⟨y, hy, ey⟩ := edge_sets m hS order st st' F h u hu l hl r' hr' el' hel' c h2 E' hE' a' b' fwd' (by omega) hor'
  refine ⟨x, y, hx, hy, fun hA => ?_⟩
  unfold AgreeAlong at hA
  simp only [if_pos hab] at ex
  simp only [if_neg (show ¬ a' < b' by omega)] at ey
  have h3 := (List.forall₂_map_left_iff (f := fun (f : Fn) t => f.eval3 (along E fwd t))
    (R := fun (p q : ℝ → ℝ) => ∀ t, p t = q (1 - t))).2 ((List.forall₂_map_right_iff
      (f := fun (f : Fn) t => f.eval3 (along E' fwd' (1 - t)))).2
      (hA.imp fun f g hfg t => by have := hfg t; simpa using this))
  rw [ex, ey] at h3
  obtain ⟨l', hl'⟩ := upTo2_cons order ho
  rw [canonEdge, hl'] at h3
  simp only [List.map_cons, List.forall₂_cons] at h3
  obtain ⟨-, h4, -⟩ := h3
  have h5 := h4 (1 / 4)
  obtain ⟨c1, hc1, e1⟩ := lobatto1
  simp [e1] at h5
  have : c1 * c = 0 := by linarith
  rcases mul_eq_zero.1 this with h | h
  · exact hc1 h
  · exact hc h

/-! ### Examples -/

/-- Two triangles that share a face, for two unknowns. -/
def twoTriangles : Mesh where
  dim := 2
  unknowns := 2
  elems := [⟨.triangle, 3, 0, 3⟩, ⟨.triangle, 3, 0, 3⟩]
  faces := [((0, 2), some ⟨1, 1, 1⟩), ((0, 0), none), ((0, 1), none), ((1, 0), none), ((1, 2), none)]
  edges := []
  nodes := [[⟨0, 0, some 0⟩], [⟨0, 1, some 1⟩, ⟨1, 0, some 0⟩], [⟨0, 2, some 2⟩, ⟨1, 2, some 2⟩], [⟨1, 1, some 1⟩]]

/-- A mesh to which nothing has been assigned. -/
def Mesh.blank (m : Mesh) : St where
  coll := []
  elems := m.elems.map fun _ => EBF.init m.unknowns
  counts := fun p => List.replicate (m.number p) (List.replicate m.unknowns 0)

theorem blank_fits (m : Mesh) : Fits m m.blank where
  elems := by simp [Mesh.blank]
  unknowns := by
    intro b hb
    simp only [Mesh.blank, List.mem_map] at hb
    obtain ⟨_, -, rfl⟩ := hb
    simp [EBF.init]
  parts := by intro p; simp [Mesh.blank]
  part := by
    intro p l hl
    simp only [Mesh.blank] at hl
    rw [List.eq_of_mem_replicate hl]; simp

theorem twoTriangles_sound : twoTriangles.Sound where
  dims := by decide
  sides := by decide
  side := by
    intro s hs
    have : s.elem < 2 ∧ s.num < 3 := by revert s; decide
    obtain ⟨h1, h2⟩ := this
    refine ⟨⟨.triangle, 3, 0, 3⟩, ?_, h2⟩
    obtain h | h : s.elem = 0 ∨ s.elem = 1 := by omega
    all_goals rw [h]; rfl
  edges := by decide
  edge := by simp [twoTriangles]
  corners := by decide
  corner := by
    intro c hc
    simp only [twoTriangles, List.flatten_cons, List.flatten_nil, List.cons_append, List.nil_append, List.append_nil, List.mem_cons,
      List.not_mem_nil, or_false] at hc
    rcases hc with rfl | rfl | rfl | rfl | rfl | rfl <;>
      exact ⟨⟨.triangle, 3, 0, 3⟩, rfl, by decide, by intro t ht; cases ht; decide⟩
  node := by
    intro n hn
    simp only [twoTriangles, List.mem_cons, List.not_mem_nil, or_false] at hn
    rcases hn with rfl | rfl | rfl | rfl <;> exact ⟨by simp, Or.inr (by simp)⟩

theorem twoTriangles_matches : twoTriangles.Matches where
  face := by
    intro f hf
    simp only [twoTriangles, List.mem_cons, List.not_mem_nil, or_false] at hf
    rcases hf with rfl | rfl | rfl | rfl | rfl <;>
      refine ⟨⟨.triangle, 3, 0, 3⟩, .line, rfl, rfl, ?_⟩
    · intro r hr
      cases hr
      exact ⟨⟨.triangle, 3, 0, 3⟩, rfl, rfl, by decide⟩
    all_goals intro r hr; cases hr
  edge := by simp [twoTriangles]

/-- The functions of order three can be assigned, the common face then has two for each unknown, and the two elements agree
on them. -/
example : ∃ st', useConforming twoTriangles 3 twoTriangles.blank = some st' ∧ st'.count .face 0 1 = some 2 ∧
    ∃ x y, st'.content 0 1 3 = some x ∧ st'.content 1 1 2 = some y ∧ x.fns.length = 2 ∧
      ∀ G G' K, (Kind.faces2 .triangle)[2]? = some G → (Kind.faces2 .triangle)[1]? = some G' → lineToLine[1]? = some K →
        TracesMatch G G' K (x.fns.map Fn.eval2) (y.fns.map Fn.eval2) := by
  have hd := (conforming_defined twoTriangles twoTriangles_sound 3 _ (blank_fits _)).2
    ⟨by decide, by simp [twoTriangles]⟩
  obtain ⟨st', h⟩ := Option.isSome_iff_exists.1 hd
  obtain ⟨n1, -⟩ := conforming_numbers _ twoTriangles_sound twoTriangles_matches 3 _ _ (blank_fits _) h 1 (by decide)
  obtain ⟨n2, n3⟩ := n1 0 _ rfl ⟨0, 2, 0⟩ (by simp [twoTriangles]) ⟨.triangle, 3, 0, 3⟩ .line rfl rfl
  have hc := fun G G' hG hG' K hK => conforming_continuous_2d _ twoTriangles_sound 3 _ _ (blank_fits _) h 1 (by decide)
    ((0, 2), some ⟨1, 1, 1⟩) (by simp [twoTriangles]) ⟨1, 1, 1⟩ rfl ⟨.triangle, 3, 0, 3⟩ ⟨.triangle, 3, 0, 3⟩ rfl rfl
    (Or.inl rfl) (Or.inl rfl) G G' hG hG' K hK
  obtain ⟨x, y, hx, hy, -⟩ := hc _ _ (List.getElem?_eq_getElem (by simp [Kind.faces2, triangleFaces]))
    (List.getElem?_eq_getElem (by simp [Kind.faces2, triangleFaces])) (lineToLine[1]'(by simp [lineToLine])) (List.getElem?_eq_getElem (by simp [lineToLine]))
  refine ⟨st', h, n2, x, y, hx, hy, ?_, fun G G' K hG hG' hK => ?_⟩
  · have : st'.sizeOf 0 1 3 = 2 := n3
    simpa [St.sizeOf, show st'.content 0 1 3 = some x from hx] using this
  · obtain ⟨x', y', hx', hy', hT⟩ := hc G G' hG hG' K hK
    rw [hx] at hx'; cases hx'
    rw [hy] at hy'; cases hy'
    exact hT

/-- Two tetrahedra around an edge whose coordinates are numbered 4 and 7 in the first and 9 and 2 in the second. -/
def twoTetrahedra : Mesh where
  dim := 3
  unknowns := 1
  elems := [⟨.tetrahedron, 4, 6, 4⟩, ⟨.tetrahedron, 4, 6, 4⟩]
  faces := []
  edges := [[⟨0, 0, orientationOf 4 7 true⟩, ⟨1, 3, orientationOf 9 2 false⟩]]
  nodes := []

example : ∃ st', useConforming twoTetrahedra 3 twoTetrahedra.blank = some st' ∧
    ∃ x y E E', (Kind.ends .tetrahedron 0) = some E ∧ (Kind.ends .tetrahedron 3) = some E' ∧ st'.content 0 0 5 = some x ∧
      st'.content 1 0 8 = some y ∧ ¬ AgreeAlong x y E E' true false := by
  have hS : twoTetrahedra.Sound := by
    refine ⟨by decide, by decide, by simp [Mesh.sides, twoTetrahedra], by decide, ?_, by decide, by simp [twoTetrahedra],
      by simp [twoTetrahedra]⟩
    intro s hs
    simp only [twoTetrahedra, List.flatten_cons, List.flatten_nil, List.append_nil, List.mem_cons, List.not_mem_nil,
      or_false] at hs
    rcases hs with rfl | rfl <;> exact ⟨⟨.tetrahedron, 4, 6, 4⟩, rfl, by decide⟩
  obtain ⟨st', h⟩ := Option.isSome_iff_exists.1 ((conforming_defined twoTetrahedra hS 3 _ (blank_fits _)).2
    ⟨by decide, by simp [twoTetrahedra]⟩)
  obtain ⟨x, y, hx, hy, hA⟩ := edge_functions_disagree _ hS 3 _ _ (blank_fits _) h 0 (by decide) _ (List.mem_singleton.2 rfl)
    ⟨0, 0, orientationOf 4 7 true⟩ ⟨1, 3, orientationOf 9 2 false⟩ (by simp) (by simp) ⟨.tetrahedron, 4, 6, 4⟩
    ⟨.tetrahedron, 4, 6, 4⟩ rfl rfl (Or.inl ⟨Or.inl rfl, Or.inl rfl⟩) _ _ rfl rfl 4 7 9 2 true false rfl rfl (by decide)
    (by decide) (by decide)
  exact ⟨st', h, x, y, _, _, rfl, rfl, hx, hy, hA⟩

end Verif.Assign
