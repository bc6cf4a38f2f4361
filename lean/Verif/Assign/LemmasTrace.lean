import Verif.Assign.Lemmas5
import Verif.Basis.Props

set_option linter.all false
namespace Verif.Assign
open Verif.Basis Verif.ElementData Verif.RefGeometry

theorem fnsOf_eq {d : Nat} {F : Type} (eval : F → Pt d → ℝ) {sets : List (OrientedSet F)}
    (hn : (sets.map fun s => (s.orientation, s.face)).Nodup) {s : OrientedSet F} (hs : s ∈ sets) :
    fnsOf eval sets s.face s.orientation = s.fns.map eval := by
  unfold fnsOf
  rcases h : sets.find? (fun t => t.orientation = s.orientation ∧ t.face = s.face) with _ | t
  · rw [List.find?_eq_none] at h
    exact absurd (h s hs) (by simp)
  · have h1 := List.find?_some h
    have h2 := List.mem_of_find?_eq_some h
    simp only [decide_eq_true_eq] at h1
    have : t = s := List.inj_on_of_nodup_map hn h2 hs (by simp [h1.1, h1.2])
    rw [h, this]

/-- the sets of a shape, its functions and where they are found -/
theorem fns_content {d : Nat} {F : Type} {order : Nat} {wrap : F → Fn} {eval : F → Pt d → ℝ} {ev : Fn → Pt d → ℝ}
    (hev : ∀ f, ev (wrap f) = eval f) {sets : List (OrientedSet F)}
    (hn : ((sets.map (oriented order wrap)).map FSet.aim).Nodup) {x : FSet} (hx : x ∈ sets.map (oriented order wrap)) {o i : Nat}
    (ha : x.aim = some (o, i)) : x.fns.map ev = fnsOf eval sets i o := by
  obtain ⟨s, hs, rfl⟩ := List.mem_map.1 hx
  simp only [oriented, Option.some.injEq, Prod.mk.injEq] at ha
  obtain ⟨rfl, rfl⟩ := ha
  rw [fnsOf_eq eval ?_ hs]
  · simp only [oriented, List.map_map]
    exact List.map_congr_left fun f _ => hev f
  · rw [List.map_map] at hn
    refine List.Nodup.of_map (fun p : Nat × Nat => some p) ?_
    rw [List.map_map]; exact hn

theorem face2 {order : Nat} {k : Kind} {s : Sets} (hk : k = .triangle ∨ k = .square) (h : conforming order k = some s)
    {i : Nat} {G : Face 1} (hG : k.faces2[i]? = some G) :
    ∃ L ∈ lineFacesOf, L.face = G ∧ ∀ o x, x ∈ s.faces → x.aim = some (o, i) → x.fns.map Fn.eval2 = L.fns order o := by
  have hn := faces_nodup h
  rcases hk with rfl | rfl <;> simp only [conforming, Option.some.injEq] at h <;> subst h
  · refine ⟨⟨G, fun o k => fnsOf TriangleFn.eval (triangleFaceSets o) i k⟩, ?_, rfl, fun o x hx ha =>
      fns_content (fun _ => rfl) hn hx ha⟩
    exact List.mem_append_left _ (List.mem_map.2 ⟨(G, i), List.mem_zipIdx_iff_getElem?.2 hG, rfl⟩)
  · refine ⟨⟨G, fun o k => fnsOf SquareFn.eval (squareFaceSets o) i k⟩, ?_, rfl, fun o x hx ha =>
      fns_content (fun _ => rfl) hn hx ha⟩
    exact List.mem_append_right _ (List.mem_map.2 ⟨(G, i), List.mem_zipIdx_iff_getElem?.2 hG, rfl⟩)

theorem face3tri {order : Nat} {k : Kind} {s : Sets} (hk : k = .tetrahedron ∨ k = .prism) (h : conforming order k = some s)
    {i : Nat} (hi : k.faceShape i = some .triangle) {G : Face 2} (hG : k.faces3[i]? = some G) :
    ∃ L ∈ triangularFacesOf, L.face = G ∧
      ∀ o x, x ∈ s.faces → x.aim = some (o, i) → x.fns.map Fn.eval3 = L.fns order o := by
  have hn := faces_nodup h
  rcases hk with rfl | rfl <;> simp only [conforming, Option.some.injEq] at h <;> subst h
  · refine ⟨⟨G, fun o k => fnsOf TetFn.eval (tetFaceSets o) i k⟩, ?_, rfl, fun o x hx ha =>
      fns_content (fun _ => rfl) hn hx ha⟩
    exact List.mem_append_left _ (List.mem_map.2 ⟨(G, i), List.mem_zipIdx_iff_getElem?.2 hG, rfl⟩)
  · refine ⟨⟨G, fun o k => fnsOf PrismFn.eval (prismFaceSets o) i k⟩, ?_, rfl, fun o x hx ha =>
      fns_content (fun _ => rfl) hn hx ha⟩
    have hi2 : i < 2 := by
      simp only [Kind.faceShape] at hi
      by_contra hc
      rw [if_neg hc] at hi
      split at hi <;> cases hi
    refine List.mem_append_right _ (List.mem_map.2 ⟨(G, i), ?_, rfl⟩)
    rw [List.mem_iff_getElem?]
    refine ⟨i, ?_⟩
    rw [List.getElem?_take, if_pos hi2, List.getElem?_zipIdx]
    simp only [Kind.faces3] at hG
    rw [hG]; simp

theorem face3cube {order : Nat} {s : Sets} (h : conforming order .cube = some s)
    {i : Nat} {G : Face 2} (hG : (Kind.faces3 .cube)[i]? = some G) :
    ∃ L ∈ cubeFacesOf, L.face = G ∧
      ∀ o x, x ∈ s.faces → x.aim = some (o, i) → x.fns.map Fn.eval3 = L.fns order o := by
  have hn := faces_nodup h
  simp only [conforming, Option.some.injEq] at h
  subst h
  refine ⟨⟨G, fun o k => fnsOf CubeFn.eval (cubeFaceSets o) i k⟩, ?_, rfl, fun o x hx ha =>
    fns_content (fun _ => rfl) hn hx ha⟩
  exact List.mem_map.2 ⟨(G, i), List.mem_zipIdx_iff_getElem?.2 hG, rfl⟩

/-- the trace of the functions of an edge, from the node with the smaller to the node with the larger index -/
theorem edge3 {order : Nat} {k : Kind} {s : Sets} {c : ℝ}
    (hk : (k = .tetrahedron ∨ k = .prism) ∧ c = 1 ∨ k = .cube ∧ c = -1) (h : conforming order k = some s)
    {i : Nat} {E : Pt 3 × Pt 3} (hE : k.ends i = some E) {o : Nat} (ho : o < 2) {x : FSet} (hx : x ∈ s.edges)
    (ha : x.aim = some (o, i)) :
    x.fns.map (fun f t => f.eval3 (along E (o = 0) t)) = canonEdge c order := by
  have key : ∀ e : EdgeOf, e.node0 = E.1 → e.node1 = E.2 → x.fns.map Fn.eval3 = e.fns order o →
      x.fns.map (fun f t => f.eval3 (along E (o = 0) t)) = (e.fns order o).map (fun f t => f (e.point o t)) := by
    intro e h0 h1 hf
    rw [← hf, List.map_map]
    refine List.map_congr_left fun f _ => ?_
    funext t
    simp only [Function.comp, along, EdgeOf.point, h0, h1, decide_eq_true_eq]
  have hn := (edges_nodup h)
  rcases hk with ⟨hk | hk, rfl⟩ | ⟨hk, rfl⟩ <;> subst hk <;> simp only [conforming, Option.some.injEq] at h <;> subst h <;>
    simp only [Kind.ends, Option.bind_some, Option.map_eq_some_iff] at hE <;> obtain ⟨ns, hns, rfl⟩ := hE
  · have := fns_content (ev := Fn.eval3) (eval := TetFn.eval) (fun _ => rfl) hn hx ha
    refine (key ⟨_, _, fun order o => fnsOf TetFn.eval (tetEdgeSets order) i o⟩ rfl rfl this).trans
      (mem_tetPrismEdges _ (List.mem_append_left _ (List.mem_map.2 ⟨(ns, i), List.mem_zipIdx_iff_getElem?.2 hns, rfl⟩)) order o ho)
  · have := fns_content (ev := Fn.eval3) (eval := PrismFn.eval) (fun _ => rfl) hn hx ha
    refine (key ⟨_, _, fun order o => fnsOf PrismFn.eval (prismEdgeSets order) i o⟩ rfl rfl this).trans
      (mem_tetPrismEdges _ (List.mem_append_right _ (List.mem_map.2 ⟨(ns, i), List.mem_zipIdx_iff_getElem?.2 hns, rfl⟩)) order o ho)
  · have := fns_content (ev := Fn.eval3) (eval := CubeFn.eval) (fun _ => rfl) hn hx ha
    refine (key ⟨_, _, fun order o => fnsOf CubeFn.eval (cubeEdgeSets order) i o⟩ rfl rfl this).trans
      (mem_cubeEdges _ (List.mem_map.2 ⟨(ns, i), List.mem_zipIdx_iff_getElem?.2 hns, rfl⟩) order o ho)

theorem orientationOf_lt (a b : Nat) (f : Bool) : orientationOf a b f < 2 := by
  unfold orientationOf edgeOrientation; split <;> split <;> omega

/-- from the node with the smaller index -/
theorem along_orientation (E : Pt 3 × Pt 3) (a b : Nat) (hab : a ≠ b) (f : Bool) (t : ℝ) :
    along E f t = along E (orientationOf a b f = 0) (if a < b then t else 1 - t) := by
  rcases Nat.lt_or_ge a b with h | h
  · cases f <;> simp [along, orientationOf, edgeOrientation, h, Nat.not_lt.2 h.le]
  · have h' : b < a := by omega
    cases f <;> simp [along, orientationOf, edgeOrientation, h', Nat.not_lt.2 h] <;> funext i <;> ring

theorem kind_ends_lt {k : Kind} {i : Nat} {E : Pt 3 × Pt 3} (h : k.ends i = some E) : k ≠ .pyramid ∧ i < k.numEdges := by
  cases k <;> simp only [Kind.ends, Option.bind_some, Option.bind_none, Option.map_eq_some_iff, reduceCtorEq] at h <;>
    obtain ⟨ns, hns, -⟩ := h <;> have := (List.getElem?_eq_some_iff.1 hns).1 <;>
    simpa [tetrahedronEdges, prismEdgeTable, cubeEdgeTable, Kind.numEdges] using this

end Verif.Assign
