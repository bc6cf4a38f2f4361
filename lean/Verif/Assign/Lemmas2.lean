import Verif.Assign.Lemmas
import Mathlib.Tactic.IntervalCases

set_option linter.all false
namespace Verif.Assign
open Verif.Basis Verif.ElementData

/-! ### The sets of the shapes -/

/-- orientation, number and size of the sets of the faces -/
def faceTable (order : Nat) : Kind → List (Option (Nat × Nat) × Nat)
  | .line => (List.range 2).map fun f => (some (0, f), 1)
  | .triangle => (List.range 3).flatMap fun f => (List.range 2).map fun o => (some (o, f), order - 1)
  | .square => (List.range 4).flatMap fun f => (List.range 2).map fun o => (some (o, f), order - 1)
  | .tetrahedron => (List.range 4).flatMap fun f => (List.range 6).map fun o => (some (o, f), (order - 1) * (order - 2) / 2)
  | .prism => ((List.range 2).flatMap fun f => (List.range 6).map fun o => (some (o, f), (order - 1) * (order - 2) / 2)) ++
      (List.range' 2 3).flatMap fun f => (List.range 8).map fun o => (some (o, f), (order - 1) * (order - 1))
  | .cube => (List.range 6).flatMap fun f => (List.range 8).map fun o => (some (o, f), (order - 1) * (order - 1))
  | _ => []

theorem tri_len {α : Type} (order : Nat) (f : Nat → Nat → α) :
    ((upTo 3 order).flatMap fun j => (upTo (j + 3) order).map fun k => f j k).length = (order - 1) * (order - 2) / 2 := by
  have : ∀ n, ((List.range n).map fun j => (n - j)).sum = (n + 1) * n / 2 := by
    intro n
    induction n with
    | zero => rfl
    | succ n ih =>
      rw [List.range_succ_eq_map]
      simp only [List.map_cons, List.map_map, List.sum_cons, Nat.sub_zero]
      have : ((fun j => n + 1 - j) ∘ Nat.succ) = fun j => n - j := by funext j; simp
      rw [this, ih]
      have : (n + 1 + 1) * (n + 1) = (n + 1) * n + 2 * (n + 1) := by ring
      rw [this, Nat.add_mul_div_left _ _ (by norm_num)]
      omega
  simp only [List.length_flatMap, List.length_map, upTo, List.length_range]
  have h2 := this (order - 2)
  have e : order + 1 - 3 = order - 2 := by omega
  rw [e]
  have e2 : (fun j => order + 1 - (j + 3)) = fun j => order - 2 - j := by funext j; omega
  rw [e2, h2]
  rcases Nat.lt_or_ge order 2 with h | h
  · have : order - 2 = 0 := by omega
    simp [this]
  · rw [show order - 2 + 1 = order - 1 by omega]

theorem sq_len {α : Type} (order : Nat) (f : Nat → Nat → α) :
    ((upTo 2 order).flatMap fun j => (upTo 2 order).map fun k => f j k).length = (order - 1) * (order - 1) := by
  simp [List.length_flatMap, upTo]

theorem line_len {α : Type} (order : Nat) (f : Nat → α) : ((upTo 2 order).map f).length = order - 1 := by
  simp [upTo]

theorem upTo2 (order : Nat) : (upTo 2 order).length = order - 1 := by
  simp [upTo]

theorem faces_table {order : Nat} {k : Kind} {s : Sets} (h : conforming order k = some s) :
    s.faces.map (fun x => (x.aim, x.fns.length)) = faceTable order k := by
  cases k <;> simp only [conforming, Option.some.injEq, reduceCtorEq] at h
  case line => subst h; rfl
  case pyramid => split at h <;> cases h; rfl
  all_goals subst h; simp only [List.map_map]
  case triangle =>
    simp only [triangleFaceSets, triangleFaceNodes, List.zipIdx_cons, List.zipIdx_nil, List.flatMap_cons, List.flatMap_nil,
      List.map_append, List.map_cons, List.map_nil, Function.comp, oriented, List.length_map, upTo2]
    rfl
  case square =>
    simp only [squareFaceSets, squareFaceNodes, List.zipIdx_cons, List.zipIdx_nil, List.flatMap_cons, List.flatMap_nil,
      List.map_append, List.map_cons, List.map_nil, Function.comp, oriented, List.length_map, upTo2]
    rfl
  case tetrahedron =>
    simp only [tetFaceSets, tetFaceNodes, trianglePerms, List.zipIdx_cons, List.zipIdx_nil, List.flatMap_cons, List.flatMap_nil,
      List.map_append, List.map_cons, List.map_nil, Function.comp, oriented, List.length_map, tri_len]
    rfl
  case prism =>
    simp only [prismFaceSets, prismTriFaceNodes, prismSquareFaceNodes, prismSquarePerms, trianglePerms, List.zipIdx_cons,
      List.zipIdx_nil, List.flatMap_cons, List.flatMap_nil,
      List.map_append, List.map_cons, List.map_nil, Function.comp, oriented, List.length_map, tri_len, sq_len]
    rfl
  case cube =>
    simp only [cubeFaceSets, cubeFaceNodes, cubeSquarePerms, List.zipIdx_cons, List.zipIdx_nil, List.flatMap_cons,
      List.flatMap_nil,
      List.map_append, List.map_cons, List.map_nil, Function.comp, oriented, List.length_map, sq_len]
    rfl

/-- orientation and number of the sets of the edges -/
def edgeTable : Kind → List (Option (Nat × Nat))
  | .tetrahedron => (List.range 6).flatMap fun f => (List.range 2).map fun o => some (o, f)
  | .prism => (List.range 9).flatMap fun f => (List.range 2).map fun o => some (o, f)
  | .cube => (List.range 12).flatMap fun f => (List.range 2).map fun o => some (o, f)
  | _ => []

theorem edges_table {order : Nat} {k : Kind} {s : Sets} (h : conforming order k = some s) :
    s.edges.map FSet.aim = edgeTable k ∧ ∀ x ∈ s.edges, x.fns.length = order - 1 := by
  cases k <;> simp only [conforming, Option.some.injEq, reduceCtorEq] at h
  case pyramid => split at h <;> cases h; exact ⟨rfl, by simp⟩
  all_goals subst h; refine ⟨rfl, ?_⟩
  case line => simp
  case triangle => simp
  case square => simp
  case tetrahedron =>
    simp only [tetEdgeSets, tetEdgeNodes, List.zipIdx_cons, List.zipIdx_nil, List.flatMap_cons, List.flatMap_nil,
      List.map_append, List.map_cons, List.map_nil, oriented, List.mem_append, List.mem_cons, List.not_mem_nil, or_false]
    rintro x hx
    casesm* _ ∨ _ <;> subst_vars <;> simp [upTo]
  case prism =>
    simp only [prismEdgeSets, prismTriEdgeNodes, prismSideEdgeNodes, List.zipIdx_cons, List.zipIdx_nil, List.flatMap_cons,
      List.flatMap_nil,
      List.map_append, List.map_cons, List.map_nil, oriented, List.mem_append, List.mem_cons, List.not_mem_nil, or_false]
    rintro x hx
    casesm* _ ∨ _ <;> subst_vars <;> simp [upTo]
  case cube =>
    simp only [cubeEdgeSets, cubeEdgeNodes0, cubeEdgeNodes1, cubeEdgeNodes2, List.zipIdx_cons, List.zipIdx_nil,
      List.flatMap_cons, List.flatMap_nil,
      List.map_append, List.map_cons, List.map_nil, oriented, List.mem_append, List.mem_cons, List.not_mem_nil, or_false]
    rintro x hx
    casesm* _ ∨ _ <;> subst_vars <;> simp [upTo]

theorem nodes_table {order : Nat} {k : Kind} {s : Sets} (h : conforming order k = some s) :
    (k ≠ .line → s.nodes.length = k.corners) ∧ ∀ x ∈ s.nodes, x.fns.length = 1 := by
  cases k <;> simp only [conforming, Option.some.injEq, reduceCtorEq] at h
  case pyramid =>
    split at h <;> cases h
    refine ⟨fun _ => rfl, fun x hx => ?_⟩
    obtain ⟨y, -, rfl⟩ := List.mem_map.1 hx
    rfl
  all_goals subst h
  case line => simp
  all_goals
    refine ⟨fun _ => rfl, fun x hx => ?_⟩
    obtain ⟨y, hy, rfl⟩ := List.mem_map.1 hx
    obtain ⟨z, -, rfl⟩ := List.mem_map.1 hy
    rfl

theorem faces_nodup {order : Nat} {k : Kind} {s : Sets} (h : conforming order k = some s) :
    (s.faces.map FSet.aim).Nodup := by
  have e : s.faces.map FSet.aim = (faceTable order k).map Prod.fst := by rw [← faces_table h, List.map_map]; rfl
  rw [e]
  have : (faceTable order k).map Prod.fst = (faceTable 0 k).map Prod.fst := by cases k <;> rfl
  rw [this]
  cases k <;> decide +kernel

theorem edges_nodup {order : Nat} {k : Kind} {s : Sets} (h : conforming order k = some s) :
    (s.edges.map FSet.aim).Nodup := by
  rw [(edges_table h).1]
  cases k <;> decide +kernel

theorem face_mem_iff {order : Nat} {k : Kind} {s : Sets} (h : conforming order k = some s) (o f : Nat) :
    (∃ x ∈ s.faces, x.aim = some (o, f)) ↔ k ≠ .pyramid ∧ ∃ sh, k.faceShape f = some sh ∧ o < sh.orientations := by
  have e : s.faces.map FSet.aim = (faceTable order k).map Prod.fst := by rw [← faces_table h, List.map_map]; rfl
  have e2 : (faceTable order k).map Prod.fst = (faceTable 0 k).map Prod.fst := by cases k <;> rfl
  have : (∃ x ∈ s.faces, x.aim = some (o, f)) ↔ some (o, f) ∈ (faceTable 0 k).map Prod.fst := by
    rw [← e2, ← e]; simp
  rw [this]
  cases k
  case line => simp [faceTable, Kind.faceShape, FaceShape.orientations]; omega
  case pyramid => simp [faceTable]
  case point => simp [faceTable, Kind.faceShape]
  case hypercube => simp [faceTable, Kind.faceShape]
  case prism =>
    simp only [faceTable, Kind.faceShape, List.map_append, List.mem_append, List.map_flatMap, List.mem_flatMap, List.map_map,
      List.mem_map, List.mem_range, List.mem_range'_1, Function.comp, Option.some.injEq, Prod.mk.injEq, ne_eq, reduceCtorEq,
      not_false_eq_true, true_and]
    constructor
    · rintro (⟨a, ha, b, hb, rfl, rfl⟩ | ⟨a, ha, b, hb, rfl, rfl⟩)
      · exact ⟨.triangle, by simp [ha], hb⟩
      · exact ⟨.square, by rw [if_neg (by omega), if_pos (by omega)], hb⟩
    · rintro ⟨sh, h1, h2⟩
      by_cases hf : f < 2
      · rw [if_pos hf] at h1
        cases h1
        exact Or.inl ⟨f, hf, o, h2, rfl, rfl⟩
      · rw [if_neg hf] at h1
        split at h1
        · cases h1
          exact Or.inr ⟨f, by omega, o, h2, rfl, rfl⟩
        · cases h1
  all_goals
    simp only [faceTable, Kind.faceShape, List.map_flatMap, List.mem_flatMap, List.map_map,
      List.mem_map, List.mem_range, Function.comp, Option.some.injEq, Prod.mk.injEq, ne_eq, reduceCtorEq,
      not_false_eq_true, true_and]
    constructor
    · rintro ⟨a, ha, b, hb, rfl, rfl⟩
      exact ⟨_, if_pos ha, hb⟩
    · rintro ⟨sh, h1, h2⟩
      split at h1
      · rename_i hf
        cases h1
        exact ⟨f, hf, o, h2, rfl, rfl⟩
      · cases h1

theorem face_size {order : Nat} {k : Kind} {s : Sets} (h : conforming order k = some s) {o f : Nat} {x : FSet}
    (hx : x ∈ s.faces) (ha : x.aim = some (o, f)) {sh : FaceShape} (hs : k.faceShape f = some sh) :
    x.fns.length = sh.size order := by
  have : (some (o, f), x.fns.length) ∈ faceTable order k := by
    rw [← faces_table h, ← ha]
    exact List.mem_map.2 ⟨x, hx, rfl⟩
  generalize x.fns.length = n at this ⊢
  clear ha hx h
  cases k
  case line =>
    simp only [faceTable, Kind.faceShape, List.mem_map, List.mem_range, Prod.mk.injEq] at this hs
    obtain ⟨a, ha, -, rfl⟩ := this
    split at hs <;> cases hs; rfl
  case pyramid => simp [faceTable] at this
  case point => simp [faceTable] at this
  case hypercube => simp [faceTable] at this
  case prism =>
    simp only [faceTable, Kind.faceShape, List.mem_append, List.mem_flatMap,
      List.mem_map, List.mem_range, List.mem_range'_1, Option.some.injEq, Prod.mk.injEq] at this hs
    rcases this with ⟨a, ha, b, hb, ⟨rfl, rfl⟩, rfl⟩ | ⟨a, ha, b, hb, ⟨rfl, rfl⟩, rfl⟩
    · rw [if_pos ha] at hs; cases hs; rfl
    · rw [if_neg (by omega), if_pos (by omega)] at hs; cases hs; rfl
  all_goals
    simp only [faceTable, Kind.faceShape, List.mem_flatMap,
      List.mem_map, List.mem_range, Option.some.injEq, Prod.mk.injEq] at this hs
    obtain ⟨a, ha, b, hb, ⟨rfl, rfl⟩, rfl⟩ := this
    rw [if_pos ha] at hs; cases hs; rfl

theorem edge_mem_iff {order : Nat} {k : Kind} {s : Sets} (h : conforming order k = some s) (o j : Nat) :
    (∃ x ∈ s.edges, x.aim = some (o, j)) ↔ k ≠ .pyramid ∧ j < k.numEdges ∧ o < 2 := by
  have : (∃ x ∈ s.edges, x.aim = some (o, j)) ↔ some (o, j) ∈ edgeTable k := by
    rw [← (edges_table h).1]; simp
  rw [this]
  cases k
  case tetrahedron => simp [edgeTable, Kind.numEdges]
  case prism => simp [edgeTable, Kind.numEdges]
  case cube => simp [edgeTable, Kind.numEdges]
  all_goals simp [edgeTable, Kind.numEdges]

theorem pyramid_order {order : Nat} {s : Sets} (h : conforming order .pyramid = some s) : order = 1 := by
  simp only [conforming] at h
  split at h
  · assumption
  · cases h

theorem eq_of_aim {l : List FSet} (h : (l.map FSet.aim).Nodup) {i j : Nat} {x y : FSet} (hi : l[i]? = some x)
    (hj : l[j]? = some y) (e : x.aim = y.aim) : i = j := by
  have h1 := (List.getElem?_eq_some_iff.1 hi).1
  have h2 := (List.getElem?_eq_some_iff.1 hj).1
  have := (List.nodup_iff_getElem?_ne_getElem?.1 h)
  by_contra hne
  rcases Nat.lt_or_gt_of_ne hne with hlt | hlt
  · exact this i j hlt (by simpa using h2) (by simp [hi, hj, e])
  · exact this j i hlt (by simpa using h1) (by simp [hi, hj, e])

/-! ### The elements -/

def block (s : Sets) : List FSet := s.interior :: (s.faces ++ s.edges ++ s.nodes)

/-- what the maps say is right -/
def Good (order : Nat) (coll : List FSet) (ix : Index) : Prop :=
  ∀ k a nf ne, ix k = some (a, nf, ne) → ∃ s, conforming order k = some s ∧ nf = s.faces.length ∧ ne = s.edges.length ∧
    ∀ j x, (block s)[j]? = some x → coll[a + j]? = some x

theorem Good.append {order : Nat} {coll : List FSet} {ix : Index} (h : Good order coll ix) (l : List FSet) :
    Good order (coll ++ l) ix := by
  intro k a nf ne hk
  obtain ⟨s, h1, h2, h3, h4⟩ := h k a nf ne hk
  refine ⟨s, h1, h2, h3, fun j x hj => ?_⟩
  have := h4 j x hj
  rw [List.getElem?_append_left (List.getElem?_eq_some_iff.1 this).1, this]

theorem gather_spec {order : Nat} (es : List Elem) {coll coll' : List FSet} {ix ix' : Index} {ps : List Nat}
    (hg : Good order coll ix) (h : gather order es coll ix = some (coll', ix', ps)) :
    (∃ l, coll' = coll ++ l) ∧ Good order coll' ix' ∧ (∀ k v, ix k = some v → ix' k = some v) ∧
    ps.length = es.length ∧
    ∀ (i : Nat) (el : Elem), es[i]? = some el → ∃ a nf ne, ix' el.kind = some (a, nf, ne) ∧ ps[i]? = some a := by
  induction es generalizing coll ix coll' ix' ps with
  | nil =>
    simp only [gather, Option.some.injEq, Prod.mk.injEq] at h
    obtain ⟨rfl, rfl, rfl⟩ := h
    exact ⟨⟨[], by simp⟩, hg, fun _ _ h => h, rfl, by simp⟩
  | cons e es ih =>
    simp only [gather] at h
    rcases hk : ix e.kind with _ | ⟨a, nf, ne⟩
    · rw [hk] at h
      simp only [Option.bind_eq_some_iff, Option.map_eq_some_iff] at h
      obtain ⟨s, hs, ⟨c, i, l⟩, hc, he⟩ := h
      simp only [Prod.mk.injEq] at he
      obtain ⟨rfl, rfl, rfl⟩ := he
      have hg' : Good order (coll ++ block s)
          (Function.update ix e.kind (some (coll.length, s.faces.length, s.edges.length))) := by
        intro k a nf ne hka
        by_cases hke : k = e.kind
        · subst hke
          rw [Function.update_self] at hka
          cases hka
          refine ⟨s, hs, rfl, rfl, fun j x hj => ?_⟩
          rw [List.getElem?_append_right (by omega), Nat.add_sub_cancel_left, hj]
        · rw [Function.update_of_ne hke] at hka
          exact hg.append _ k a nf ne hka
      obtain ⟨⟨l', h1⟩, h2, h3, h4, h5⟩ := ih hg' hc
      refine ⟨⟨block s ++ l', by rw [h1]; simp⟩, h2, fun k v hv => ?_, by simp [h4], fun i el hi => ?_⟩
      · have : k ≠ e.kind := by rintro rfl; rw [hk] at hv; cases hv
        exact h3 k v (by rw [Function.update_of_ne this]; exact hv)
      · cases i with
        | zero =>
          simp only [List.getElem?_cons_zero, Option.some.injEq] at hi
          subst hi
          exact ⟨_, _, _, h3 _ _ (Function.update_self ..), rfl⟩
        | succ i => simpa using h5 i el (by simpa using hi)
    · rw [hk] at h
      simp only [Option.map_eq_some_iff] at h
      obtain ⟨⟨c, i, l⟩, hc, he⟩ := h
      simp only [Prod.mk.injEq] at he
      obtain ⟨rfl, rfl, rfl⟩ := he
      obtain ⟨h1, h2, h3, h4, h5⟩ := ih hg hc
      refine ⟨h1, h2, h3, by simp [h4], fun i el hi => ?_⟩
      cases i with
      | zero =>
        simp only [List.getElem?_cons_zero, Option.some.injEq] at hi
        subst hi
        exact ⟨_, _, _, h3 _ _ hk, rfl⟩
      | succ i => simpa using h5 i el (by simpa using hi)

theorem gather_defined {order : Nat} (es : List Elem) (coll : List FSet) (ix : Index)
    (h : ∀ e ∈ es, (conforming order e.kind).isSome) : ∃ r, gather order es coll ix = some r := by
  induction es generalizing coll ix with
  | nil => exact ⟨_, rfl⟩
  | cons e es ih =>
    simp only [gather]
    rcases hk : ix e.kind with _ | ⟨a, nf, ne⟩
    · obtain ⟨s, hs⟩ := Option.isSome_iff_exists.1 (h e (by simp))
      obtain ⟨r, hr⟩ := ih _ _ (fun x hx => h x (by simp [hx]))
      exact ⟨_, by simp only [hs, Option.bind_some]; rw [hr]; rfl⟩
    · obtain ⟨r, hr⟩ := ih coll ix (fun x hx => h x (by simp [hx]))
      exact ⟨_, by simp only [hr]; rfl⟩

theorem gather_fails {order : Nat} (es : List Elem) (coll : List FSet) (ix : Index) (hix : ∀ k, (ix k).isSome → (conforming order k).isSome)
    (h : ∃ r, gather order es coll ix = some r) : ∀ e ∈ es, (conforming order e.kind).isSome := by
  induction es generalizing coll ix with
  | nil => simp
  | cons e es ih =>
    obtain ⟨r, h⟩ := h
    simp only [gather] at h
    rcases hk : ix e.kind with _ | ⟨a, nf, ne⟩
    · rw [hk] at h
      simp only [Option.bind_eq_some_iff, Option.map_eq_some_iff] at h
      obtain ⟨s, hs, q, hq, -⟩ := h
      intro x hx
      rcases List.mem_cons.1 hx with rfl | hx
      · simp [hs]
      · refine ih _ _ (fun k hk' => ?_) ⟨q, hq⟩ x hx
        by_cases hke : k = e.kind
        · subst hke; simp [hs]
        · rw [Function.update_of_ne hke] at hk'; exact hix k hk'
    · rw [hk] at h
      simp only [Option.map_eq_some_iff] at h
      obtain ⟨q, hq, -⟩ := h
      intro x hx
      rcases List.mem_cons.1 hx with rfl | hx
      · exact hix _ (by simp [hk])
      · exact ih _ _ hix ⟨q, hq⟩ x hx

/-! ### Finding a set by its orientation -/

theorem mem_matching {coll : List FSet} {l : List FSet} {a n o f i : Nat} (hn : n = l.length)
    (hl : ∀ j x, l[j]? = some x → coll[a + j]? = some x) :
    i ∈ matching coll a n o f ↔ ∃ j x, i = a + j ∧ l[j]? = some x ∧ x.aim = some (o, f) := by
  unfold matching
  simp only [List.mem_filter, List.mem_range'_1, beq_iff_eq]
  constructor
  · rintro ⟨⟨h1, h2⟩, h3⟩
    have hj : i - a < l.length := by omega
    have := hl (i - a) _ (List.getElem?_eq_getElem hj)
    rw [show a + (i - a) = i by omega] at this
    refine ⟨i - a, l[i - a], by omega, List.getElem?_eq_getElem hj, ?_⟩
    rw [this] at h3
    simpa using h3
  · rintro ⟨j, x, rfl, hj, hx⟩
    have := (List.getElem?_eq_some_iff.1 hj).1
    refine ⟨⟨by omega, by omega⟩, ?_⟩
    rw [hl j x hj]
    simpa using hx

end Verif.Assign
