import Verif.ElementReorder.Lemmas
import Verif.ElementReorder.Spec
import Mathlib.Tactic.Ring

/-!
# C21, C44: reordering the nodes of mesh file elements
-/
namespace Verif.ElementReorder
open RefGeometry

/-- C21, both directions, for every set of accepted types and every node list of a registered type
whose order repeats no index: each reordering undoes the other, and only permutes the nodes.
Missing from the full statement: orders with repeated indices, which are accepted as well
(`reorder_roundtrip_fails`). -/
theorem reorder_roundtrip_partial {types : List ElementType} {reg : Registry}
    (h : register types = some reg) {d : Nat} {nodes : List Nat} {e : ElementType}
    (he : lookup reg d nodes.length = some e) (hnd : e.order.Nodup) :
    (∃ r, reorderToHpGem reg d nodes = some r ∧ r.Perm nodes ∧
      reorderFromHpGem reg d r = some nodes) ∧
    (∃ r, reorderFromHpGem reg d nodes = some r ∧ r.Perm nodes ∧
      reorderToHpGem reg d r = some nodes) := by
  have hok := register_ok h
  obtain ⟨hm, _, hl⟩ := lookup_some he
  have hperm := order_surj (hok e hm) hnd
  have hsurj : ∀ o, o < nodes.length → ∃ i : Nat, e.order[i]? = some o := by
    intro o ho
    have : o ∈ e.order := hperm.mem_iff.2 (by simpa [hl] using ho)
    exact List.getElem?_of_mem this
  -- the reordered list, read through the order
  have key : ∀ (r s : List Nat), r.length = nodes.length → s.length = nodes.length →
      (∀ (i o : Nat), e.order[i]? = some o → r[i]? = s[o]?) → r.Perm s := by
    intro r s hr hs hrs
    have h1 : r = e.order.map (fun o => s.getD o 0) := by
      apply List.ext_getElem?
      intro i
      cases ho : e.order[i]? with
      | none =>
        have : e.order.length ≤ i := List.getElem?_eq_none_iff.1 ho
        rw [List.getElem?_eq_none (by omega), List.getElem?_eq_none (by simpa using this)]
      | some o =>
        have hlt := hok e hm o (List.mem_of_getElem? ho)
        rw [hrs i o ho, List.getElem?_map, ho]
        simp [List.getElem?_eq_getElem (by omega : o < s.length)]
    have h2 : s = (List.range e.order.length).map (fun o => s.getD o 0) := by
      apply List.ext_getElem?
      intro i
      by_cases hi : i < s.length
      · simp [hi, List.getElem?_range (by omega : i < e.order.length)]
      · rw [List.getElem?_eq_none (by omega), List.getElem?_eq_none (by simp; omega)]
    have h3 : (e.order.map (fun o => s.getD o 0)).Perm s := by
      conv_rhs => rw [h2]
      exact hperm.map _
    rw [h1]; exact h3
  constructor
  · obtain ⟨r, h1, h2, h3⟩ := to_spec hok he
    refine ⟨r, h1, key r nodes h2 rfl h3, ?_⟩
    obtain ⟨r', h1', h2', h3'⟩ := from_spec (idx := r) (d := d) hok (by rw [h2]; exact he) hnd
    rw [h1']
    congr 1
    apply List.ext_getElem?
    intro o
    by_cases ho : o < nodes.length
    · obtain ⟨i, hi⟩ := hsurj o ho
      rw [h3' i o hi, h3 i o hi]
    · rw [List.getElem?_eq_none (by omega), List.getElem?_eq_none (by omega)]
  · obtain ⟨r, h1, h2, h3⟩ := from_spec hok he hnd
    refine ⟨r, h1, (key nodes r rfl h2 (fun i o ho => (h3 i o ho).symm)).symm, ?_⟩
    obtain ⟨r', h1', h2', h3'⟩ := to_spec (idx := r) (d := d) hok (by rw [h2]; exact he)
    rw [h1']
    congr 1
    apply List.ext_getElem?
    intro i
    cases ho : e.order[i]? with
    | none =>
      have : e.order.length ≤ i := List.getElem?_eq_none_iff.1 ho
      rw [List.getElem?_eq_none (by omega), List.getElem?_eq_none (by omega)]
    | some o => rw [h3' i o ho, h3 i o ho]

/-- C21, no accepted type makes `reorderToHpGem` read outside the node list. -/
theorem reorderTo_defined {types : List ElementType} {reg : Registry}
    (h : register types = some reg) {d : Nat} {nodes : List Nat}
    (he : (lookup reg d nodes.length).isSome) : (reorderToHpGem reg d nodes).isSome := by
  obtain ⟨e, he⟩ := Option.isSome_iff_exists.1 he
  obtain ⟨r, h1, _⟩ := to_spec (register_ok h) he
  simp [h1]

/-- C21, the full statement fails: the order `{0, 0, 2}` is accepted, loses a node on the way to
hpGEM, and the way back does not restore it. -/
theorem reorder_roundtrip_fails : ∃ reg r s, register [⟨2, [0, 0, 2]⟩] = some reg ∧
    reorderToHpGem reg 2 [10, 11, 12] = some r ∧ 11 ∉ r ∧
    reorderFromHpGem reg 2 r = some s ∧ s ≠ [10, 11, 12] := by
  refine ⟨[⟨2, [0, 0, 2]⟩], [10, 10, 12], [10, 10, 12], ?_, ?_, ?_, ?_, ?_⟩
  · simp [register, addElementType, lookup, checkOrder, adjacentDifference, List.mergeSort,
      List.MergeSort.Internal.splitInTwo]
  · decide
  · decide
  · decide
  · decide

/-- The registry of the gmsh reader. -/
theorem gmsh_registers : register gmshTypes = some gmshTypes := by
  simp [register, gmshTypes, addElementType, lookup, checkOrder, adjacentDifference, List.mergeSort,
    List.MergeSort.Internal.splitInTwo]

/-- C21, in full for the types the gmsh reader registers. -/
theorem gmsh_roundtrip {d : Nat} {nodes : List Nat}
    (he : (lookup gmshTypes d nodes.length).isSome) :
    (∃ r, reorderToHpGem gmshTypes d nodes = some r ∧ r.Perm nodes ∧
      reorderFromHpGem gmshTypes d r = some nodes) ∧
    (∃ r, reorderFromHpGem gmshTypes d nodes = some r ∧ r.Perm nodes ∧
      reorderToHpGem gmshTypes d r = some nodes) := by
  obtain ⟨e, he⟩ := Option.isSome_iff_exists.1 he
  refine reorder_roundtrip_partial gmsh_registers he ?_
  have : ∀ e ∈ gmshTypes, e.order.Nodup := by decide
  exact this e (lookup_some he).1

/-! ## C44 -/

/-- One affine map per type relating the two reference elements is enough. -/
theorem readCorrectly_of {d : Nat} {gmshNodes hpNodes : List (Pt d)} {e : ElementType}
    (he : lookup gmshTypes d gmshNodes.length = some e) (T : Affine d)
    (hT : e.order.map (fun o => gmshNodes.getD o 0) = hpNodes.map T.map) :
    ReadCorrectly gmshTypes gmshNodes hpNodes := by
  intro pos indices a hp
  have hlen : indices.length = gmshNodes.length := by simpa using congrArg List.length hp
  have hlen2 : e.order.length = hpNodes.length := by simpa using congrArg List.length hT
  have hel := (lookup_some he).2.2
  have hok := register_ok gmsh_registers
  obtain ⟨r, h1, h2, h3⟩ := to_spec (idx := indices) (d := d) hok (by rw [hlen]; exact he)
  refine ⟨r, ⟨a.mat * T.mat, a.mat.mulVec T.shift + a.shift, ?_⟩, h1, ?_⟩
  · rw [Matrix.det_mul]; exact mul_ne_zero a.inv T.inv
  · apply List.ext_getElem?
    intro i
    cases ho : e.order[i]? with
    | none =>
      have : e.order.length ≤ i := List.getElem?_eq_none_iff.1 ho
      rw [List.getElem?_eq_none (by simp; omega), List.getElem?_eq_none (by simp; omega)]
    | some o =>
      have hlt := hok e (lookup_some he).1 o (List.mem_of_getElem? ho)
      have hi := (List.getElem?_eq_some_iff.1 ho).1
      have e1 : (indices.map pos)[o]? = (gmshNodes.map a.map)[o]? := by rw [hp]
      have e2 : (e.order.map (fun o => gmshNodes.getD o 0))[i]? = (hpNodes.map T.map)[i]? := by rw [hT]
      rw [List.getElem?_map, List.getElem?_map] at e1 e2
      rw [List.getElem?_map, List.getElem?_map, h3 i o ho, e1]
      rw [ho] at e2
      rw [List.getElem?_eq_getElem (by omega : o < gmshNodes.length)]
      rw [List.getElem?_eq_getElem (by omega : i < hpNodes.length)] at e2 ⊢
      simp only [Option.map_some, Option.some.injEq] at e2 ⊢
      have e3 : gmshNodes.getD o 0 = gmshNodes[o]'(by omega) := by
        simp [List.getD_eq_getElem?_getD, List.getElem?_eq_getElem (by omega : o < gmshNodes.length)]
      rw [e3] at e2
      rw [e2]
      simp only [Affine.map, Matrix.mulVec_add, Matrix.mulVec_mulVec]
      rw [add_assoc]

theorem map_matrix3 (a b c d e f g h i x y z : ℝ) (hd) :
    (⟨!![a, b, c; d, e, f; g, h, i], 0, hd⟩ : Affine 3).map ![x, y, z] =
      ![a * x + b * y + c * z, d * x + e * y + f * z, g * x + h * y + i * z] := by
  ext j
  fin_cases j <;> simp [Affine.map] <;> ring

/-- C44, the types that need no more than a fixed permutation. Missing from the full statement: the
linear tetrahedron, which is rejected (`gmsh_tetrahedron_rejected`). -/
theorem gmsh_read_correctly_partial :
    ReadCorrectly gmshTypes gmshPoint pointG.nodes ∧
    ReadCorrectly gmshTypes gmshLine lineG.nodes ∧
    ReadCorrectly gmshTypes gmshTriangle triangleG.nodes ∧
    ReadCorrectly gmshTypes gmshQuadrangle squareG.nodes ∧
    ReadCorrectly gmshTypes gmshPyramid pyramidG.nodes ∧
    ReadCorrectly gmshTypes gmshHexahedron cubeG.nodes ∧
    ReadCorrectly gmshTypes gmshPrism prismG.nodes ∧
    ReadCorrectly gmshTypes gmshLine2 hpLine2 ∧
    ReadCorrectly gmshTypes gmshTriangle2 hpTriangle2 ∧
    ReadCorrectly gmshTypes gmshTetrahedron2 hpTetrahedron2 := by
  have one : ∀ d (p : Pt d), (⟨1, 0, by simp⟩ : Affine d).map p = p := by
    intro d p; simp [Affine.map]
  refine ⟨?_, ?_, ?_, ?_, ?_, ?_, ?_, ?_, ?_, ?_⟩
  · refine readCorrectly_of (e := ⟨0, [0]⟩) (by decide) ⟨1, 0, by simp⟩ ?_
    simp only [List.map_cons, List.map_nil, pointG, List.cons.injEq, and_true]
    exact Subsingleton.elim _ _
  · refine readCorrectly_of (e := ⟨1, [0, 1]⟩) (by decide) ⟨1, 0, by simp⟩ ?_
    simp [gmshLine, lineG, one]
  · refine readCorrectly_of (e := ⟨2, [0, 1, 2]⟩) (by decide) ⟨1, 0, by simp⟩ ?_
    simp [gmshTriangle, triangleG, one]
  · refine readCorrectly_of (e := ⟨2, [0, 1, 3, 2]⟩) (by decide) ⟨1, 0, by simp⟩ ?_
    simp [gmshQuadrangle, squareG, one]
  · refine readCorrectly_of (e := ⟨3, [4, 1, 2, 0, 3]⟩) (by decide)
      ⟨!![0, -1, 0; 1, 0, 0; 0, 0, 1], 0, by simp [Matrix.det_fin_three]⟩ ?_
    simp [gmshPyramid, pyramidG, map_matrix3]
  · refine readCorrectly_of (e := ⟨3, [4, 5, 0, 1, 7, 6, 3, 2]⟩) (by decide)
      ⟨!![1, 0, 0; 0, 0, 1; 0, -1, 0], 0, by simp [Matrix.det_fin_three]⟩ ?_
    simp [gmshHexahedron, cubeG, map_matrix3]
  · refine readCorrectly_of (e := ⟨3, [0, 2, 1, 3, 5, 4]⟩) (by decide)
      ⟨!![0, 1, 0; 1, 0, 0; 0, 0, 1], 0, by simp [Matrix.det_fin_three]⟩ ?_
    simp [gmshPrism, prismG, map_matrix3]
  · refine readCorrectly_of (e := ⟨1, [0, 2, 1]⟩) (by decide) ⟨1, 0, by simp⟩ ?_
    simp [gmshLine2, hpLine2, one]
  · refine readCorrectly_of (e := ⟨2, [0, 3, 1, 5, 4, 2]⟩) (by decide) ⟨1, 0, by simp⟩ ?_
    simp [gmshTriangle2, hpTriangle2, one]
  · refine readCorrectly_of (e := ⟨3, [0, 4, 1, 6, 5, 2, 7, 9, 8, 3]⟩) (by decide)
      ⟨1, 0, by simp⟩ ?_
    simp [gmshTetrahedron2, hpTetrahedron2, one]

/-- C44, the full statement fails: no element with four nodes in three dimensions is read, since the
reader registers no linear tetrahedron. -/
theorem gmsh_tetrahedron_rejected (indices : List Nat) (h : indices.length = 4) :
    reorderToHpGem gmshTypes 3 indices = none := by
  simp [reorderToHpGem, h, lookup, gmshTypes]

/-- C44: in particular no placed linear tetrahedron is read. -/
theorem gmsh_tetrahedron_not_read : ¬ ReadCorrectly gmshTypes gmshTetrahedron tetrahedronG.nodes := by
  intro h
  have hp : PlacedBy (fun n => gmshTetrahedron.getD n 0) [0, 1, 2, 3] gmshTetrahedron
      ⟨1, 0, by simp⟩ := by
    simp [PlacedBy, gmshTetrahedron, Affine.map]
  obtain ⟨r, b, hr, _⟩ := h _ _ _ hp
  rw [gmsh_tetrahedron_rejected _ rfl] at hr
  exact absurd hr (by simp)

/-! ## Concrete cases -/

/-- The square type of the gmsh reader swaps the last two corners. -/
example : reorderToHpGem gmshTypes 2 [20, 21, 22, 23] = some [20, 21, 23, 22] := by decide

example : (lookup gmshTypes 3 [5, 6, 7, 8, 9].length).isSome ∧
    reorderToHpGem gmshTypes 3 [5, 6, 7, 8, 9] = some [9, 6, 7, 5, 8] ∧
    reorderFromHpGem gmshTypes 3 [9, 6, 7, 5, 8] = some [5, 6, 7, 8, 9] := by decide

end Verif.ElementReorder
