import Verif.Refine.Verdicts

/-! # Properties of the refinements -/
namespace Verif.Refine
open Verif.RefGeometry (Pt Geom Face)

/-- C78: for each refinement, each of its sub-elements and each point of the sub-element, `getRefinementMappingMatrixL` is
the derivative of `refinementTransform`, and `getRefinementMappingMatrixR` is its inverse. -/
theorem refinement_matrices {d : Nat} (n : Name d) (s : Nat) (hs : s < n.table.numSubs) : MatricesFit n s := by
  cases n with
  | point0 => exact fits_point0 s hs
  | line0 => exact fits_line0 s hs
  | line1 => exact fits_line1 s hs
  | square0 => exact fits_square0 s hs
  | square1 => exact fits_square1 s hs
  | square2 => exact fits_square2 s hs
  | square3 => exact fits_square3 s hs
  | triangle0 => exact fits_triangle0 s hs
  | triangle1 => exact fits_triangle1 s hs
  | triangle2 => exact fits_triangle2 s hs
  | triangle3 => exact fits_triangle3 s hs
  | triangle4 => exact fits_triangle4 s hs
  | triangle5 => exact fits_triangle5 s hs
  | triangle6 => exact fits_triangle6 s hs
  | triangle7 => exact fits_triangle7 s hs
  | triangle8 => exact fits_triangle8 s hs
  | cube0 => exact fits_cube0 s hs
  | cube1 => exact fits_cube1 s hs
  | cube2 => exact fits_cube2 s hs
  | cube3 => exact fits_cube3 s hs
  | cube4 => exact fits_cube4 s hs
  | cube5 => exact fits_cube5 s hs
  | cube6 => exact fits_cube6 s hs
  | cube7 => exact fits_cube7 s hs
  | tetrahedron0 => exact fits_tetrahedron0 s hs
  | pyramid0 => exact fits_pyramid0 s hs
  | prism0 => exact fits_prism0 s hs
  | prism1 => exact fits_prism1 s hs
  | prism2 => exact fits_prism2 s hs
  | prism3 => exact fits_prism3 s hs
  | prism4 => exact fits_prism4 s hs
  | prism5 => exact fits_prism5 s hs
  | prism6 => exact fits_prism6 s hs
  | prism7 => exact fits_prism7 s hs
  | prism8 => exact fits_prism8 s hs
  | prism9 => exact fits_prism9 s hs

/-- C78: the tables name existing nodes, as many as the shape of a sub-element has, and nothing is answered for a sub-element
that does not exist. -/
theorem tables_fit {d : Nat} (n : Name d) : Wellformed n := by
  cases n with
  | point0 => exact wf_point0
  | line0 => exact wf_line0
  | line1 => exact wf_line1
  | square0 => exact wf_square0
  | square1 => exact wf_square1
  | square2 => exact wf_square2
  | square3 => exact wf_square3
  | triangle0 => exact wf_triangle0
  | triangle1 => exact wf_triangle1
  | triangle2 => exact wf_triangle2
  | triangle3 => exact wf_triangle3
  | triangle4 => exact wf_triangle4
  | triangle5 => exact wf_triangle5
  | triangle6 => exact wf_triangle6
  | triangle7 => exact wf_triangle7
  | triangle8 => exact wf_triangle8
  | cube0 => exact wf_cube0
  | cube1 => exact wf_cube1
  | cube2 => exact wf_cube2
  | cube3 => exact wf_cube3
  | cube4 => exact wf_cube4
  | cube5 => exact wf_cube5
  | cube6 => exact wf_cube6
  | cube7 => exact wf_cube7
  | tetrahedron0 => exact wf_tetrahedron0
  | pyramid0 => exact wf_pyramid0
  | prism0 => exact wf_prism0
  | prism1 => exact wf_prism1
  | prism2 => exact wf_prism2
  | prism3 => exact wf_prism3
  | prism4 => exact wf_prism4
  | prism5 => exact wf_prism5
  | prism6 => exact wf_prism6
  | prism7 => exact wf_prism7
  | prism8 => exact wf_prism8
  | prism9 => exact wf_prism9

/-- C79: the sub-elements that `refine` makes tile the element, except for those of `badTiling`. -/
theorem children_tile_partial {d : Nat} (n : Name d) : Tiles n ↔ badTiling n = false := by
  cases n with
  | point0 => exact iff_of_true tiles_point0 rfl
  | line0 => exact iff_of_true tiles_line0 rfl
  | line1 => exact iff_of_true tiles_line1 rfl
  | square0 => exact iff_of_true tiles_square0 rfl
  | square1 => exact iff_of_true tiles_square1 rfl
  | square2 => exact iff_of_true tiles_square2 rfl
  | square3 => exact iff_of_true tiles_square3 rfl
  | triangle0 => exact iff_of_true tiles_triangle0 rfl
  | triangle1 => exact iff_of_true tiles_triangle1 rfl
  | triangle2 => exact iff_of_true tiles_triangle2 rfl
  | triangle3 => exact iff_of_true tiles_triangle3 rfl
  | triangle4 => exact iff_of_true tiles_triangle4 rfl
  | triangle5 => exact iff_of_true tiles_triangle5 rfl
  | triangle6 => exact iff_of_true tiles_triangle6 rfl
  | triangle7 => exact iff_of_true tiles_triangle7 rfl
  | triangle8 => exact iff_of_true tiles_triangle8 rfl
  | cube0 => exact iff_of_true tiles_cube0 rfl
  | cube1 => exact iff_of_true tiles_cube1 rfl
  | cube2 => exact iff_of_true tiles_cube2 rfl
  | cube3 => exact iff_of_true tiles_cube3 rfl
  | cube4 => exact iff_of_true tiles_cube4 rfl
  | cube5 => exact iff_of_false tiles_cube5 (by decide)
  | cube6 => exact iff_of_false tiles_cube6 (by decide)
  | cube7 => exact iff_of_false tiles_cube7 (by decide)
  | tetrahedron0 => exact iff_of_true tiles_tetrahedron0 rfl
  | pyramid0 => exact iff_of_true tiles_pyramid0 rfl
  | prism0 => exact iff_of_true tiles_prism0 rfl
  | prism1 => exact iff_of_true tiles_prism1 rfl
  | prism2 => exact iff_of_true tiles_prism2 rfl
  | prism3 => exact iff_of_true tiles_prism3 rfl
  | prism4 => exact iff_of_true tiles_prism4 rfl
  | prism5 => exact iff_of_false tiles_prism5 (by decide)
  | prism6 => exact iff_of_true tiles_prism6 rfl
  | prism7 => exact iff_of_true tiles_prism7 rfl
  | prism8 => exact iff_of_true tiles_prism8 rfl
  | prism9 => exact iff_of_true tiles_prism9 rfl

/-- C79: the sub-elements of any element, with its nodes at any places in any vector space, are the images of the sub-elements
of the reference shape under the map of the element. Hence they fill the element as those fill the reference shape. -/
theorem children_follow_partial {d : Nat} (n : Name d) (h : badTiling n = false) : ChildrenFollow n := by
  cases n with
  | point0 => exact follows_point0
  | line0 => exact follows_line0
  | line1 => exact follows_line1
  | square0 => exact follows_square0
  | square1 => exact follows_square1
  | square2 => exact follows_square2
  | square3 => exact follows_square3
  | triangle0 => exact follows_triangle0
  | triangle1 => exact follows_triangle1
  | triangle2 => exact follows_triangle2
  | triangle3 => exact follows_triangle3
  | triangle4 => exact follows_triangle4
  | triangle5 => exact follows_triangle5
  | triangle6 => exact follows_triangle6
  | triangle7 => exact follows_triangle7
  | triangle8 => exact follows_triangle8
  | cube0 => exact follows_cube0
  | cube1 => exact follows_cube1
  | cube2 => exact follows_cube2
  | cube3 => exact follows_cube3
  | cube4 => exact follows_cube4
  | cube5 => exact absurd h (by decide)
  | cube6 => exact absurd h (by decide)
  | cube7 => exact absurd h (by decide)
  | tetrahedron0 => exact follows_tetrahedron0
  | pyramid0 => exact follows_pyramid0
  | prism0 => exact follows_prism0
  | prism1 => exact follows_prism1
  | prism2 => exact follows_prism2
  | prism3 => exact follows_prism3
  | prism4 => exact follows_prism4
  | prism5 => exact absurd h (by decide)
  | prism6 => exact follows_prism6
  | prism7 => exact follows_prism7
  | prism8 => exact follows_prism8
  | prism9 => exact follows_prism9

/-- C79: `refinementTransform` places the sub-elements, except for those of `badTransform`. -/
theorem transform_places_children_partial {d : Nat} (n : Name d) : TransformFits n ↔ badTransform n = false := by
  cases n with
  | point0 => exact iff_of_true placed_point0 rfl
  | line0 => exact iff_of_true placed_line0 rfl
  | line1 => exact iff_of_true placed_line1 rfl
  | square0 => exact iff_of_true placed_square0 rfl
  | square1 => exact iff_of_true placed_square1 rfl
  | square2 => exact iff_of_true placed_square2 rfl
  | square3 => exact iff_of_true placed_square3 rfl
  | triangle0 => exact iff_of_true placed_triangle0 rfl
  | triangle1 => exact iff_of_false placed_triangle1 (by decide)
  | triangle2 => exact iff_of_false placed_triangle2 (by decide)
  | triangle3 => exact iff_of_false placed_triangle3 (by decide)
  | triangle4 => exact iff_of_true placed_triangle4 rfl
  | triangle5 => exact iff_of_true placed_triangle5 rfl
  | triangle6 => exact iff_of_true placed_triangle6 rfl
  | triangle7 => exact iff_of_true placed_triangle7 rfl
  | triangle8 => exact iff_of_true placed_triangle8 rfl
  | cube0 => exact iff_of_true placed_cube0 rfl
  | cube1 => exact iff_of_true placed_cube1 rfl
  | cube2 => exact iff_of_true placed_cube2 rfl
  | cube3 => exact iff_of_true placed_cube3 rfl
  | cube4 => exact iff_of_true placed_cube4 rfl
  | cube5 => exact iff_of_false placed_cube5 (by decide)
  | cube6 => exact iff_of_false placed_cube6 (by decide)
  | cube7 => exact iff_of_false placed_cube7 (by decide)
  | tetrahedron0 => exact iff_of_true placed_tetrahedron0 rfl
  | pyramid0 => exact iff_of_true placed_pyramid0 rfl
  | prism0 => exact iff_of_true placed_prism0 rfl
  | prism1 => exact iff_of_false placed_prism1 (by decide)
  | prism2 => exact iff_of_false placed_prism2 (by decide)
  | prism3 => exact iff_of_true placed_prism3 rfl
  | prism4 => exact iff_of_true placed_prism4 rfl
  | prism5 => exact iff_of_false placed_prism5 (by decide)
  | prism6 => exact iff_of_true placed_prism6 rfl
  | prism7 => exact iff_of_true placed_prism7 rfl
  | prism8 => exact iff_of_true placed_prism8 rfl
  | prism9 => exact iff_of_true placed_prism9 rfl

/-- C80: the parts of a face are the faces of the sub-elements that `getSubElementAndLocalFaceIndex` names, in the same
coordinates, except for the faces of `badFaces`. -/
theorem face_parts_partial {d : Nat} (n : Name (d + 1)) (f : Nat) (hf : f < n.table.shape.faces.length) :
    FaceFits n f ↔ f ∉ badFaces n := by
  cases n with
  | line0 =>
    have hf : f < 2 := hf
    interval_cases f
    · exact iff_of_true face_line0_0 (by decide)
    · exact iff_of_true face_line0_1 (by decide)
  | line1 =>
    have hf : f < 2 := hf
    interval_cases f
    · exact iff_of_true face_line1_0 (by decide)
    · exact iff_of_true face_line1_1 (by decide)
  | square0 =>
    have hf : f < 4 := hf
    interval_cases f
    · exact iff_of_true face_square0_0 (by decide)
    · exact iff_of_true face_square0_1 (by decide)
    · exact iff_of_true face_square0_2 (by decide)
    · exact iff_of_true face_square0_3 (by decide)
  | square1 =>
    have hf : f < 4 := hf
    interval_cases f
    · exact iff_of_true face_square1_0 (by decide)
    · exact iff_of_true face_square1_1 (by decide)
    · exact iff_of_true face_square1_2 (by decide)
    · exact iff_of_true face_square1_3 (by decide)
  | square2 =>
    have hf : f < 4 := hf
    interval_cases f
    · exact iff_of_true face_square2_0 (by decide)
    · exact iff_of_true face_square2_1 (by decide)
    · exact iff_of_true face_square2_2 (by decide)
    · exact iff_of_true face_square2_3 (by decide)
  | square3 =>
    have hf : f < 4 := hf
    interval_cases f
    · exact iff_of_true face_square3_0 (by decide)
    · exact iff_of_true face_square3_1 (by decide)
    · exact iff_of_true face_square3_2 (by decide)
    · exact iff_of_true face_square3_3 (by decide)
  | triangle0 =>
    have hf : f < 3 := hf
    interval_cases f
    · exact iff_of_true face_triangle0_0 (by decide)
    · exact iff_of_true face_triangle0_1 (by decide)
    · exact iff_of_true face_triangle0_2 (by decide)
  | triangle1 =>
    have hf : f < 3 := hf
    interval_cases f
    · exact iff_of_true face_triangle1_0 (by decide)
    · exact iff_of_true face_triangle1_1 (by decide)
    · exact iff_of_true face_triangle1_2 (by decide)
  | triangle2 =>
    have hf : f < 3 := hf
    interval_cases f
    · exact iff_of_true face_triangle2_0 (by decide)
    · exact iff_of_true face_triangle2_1 (by decide)
    · exact iff_of_true face_triangle2_2 (by decide)
  | triangle3 =>
    have hf : f < 3 := hf
    interval_cases f
    · exact iff_of_true face_triangle3_0 (by decide)
    · exact iff_of_true face_triangle3_1 (by decide)
    · exact iff_of_true face_triangle3_2 (by decide)
  | triangle4 =>
    have hf : f < 3 := hf
    interval_cases f
    · exact iff_of_true face_triangle4_0 (by decide)
    · exact iff_of_true face_triangle4_1 (by decide)
    · exact iff_of_true face_triangle4_2 (by decide)
  | triangle5 =>
    have hf : f < 3 := hf
    interval_cases f
    · exact iff_of_true face_triangle5_0 (by decide)
    · exact iff_of_false face_triangle5_1 (by decide)
    · exact iff_of_true face_triangle5_2 (by decide)
  | triangle6 =>
    have hf : f < 3 := hf
    interval_cases f
    · exact iff_of_true face_triangle6_0 (by decide)
    · exact iff_of_true face_triangle6_1 (by decide)
    · exact iff_of_false face_triangle6_2 (by decide)
  | triangle7 =>
    have hf : f < 3 := hf
    interval_cases f
    · exact iff_of_true face_triangle7_0 (by decide)
    · exact iff_of_true face_triangle7_1 (by decide)
    · exact iff_of_true face_triangle7_2 (by decide)
  | triangle8 =>
    have hf : f < 3 := hf
    interval_cases f
    · exact iff_of_false face_triangle8_0 (by decide)
    · exact iff_of_true face_triangle8_1 (by decide)
    · exact iff_of_false face_triangle8_2 (by decide)
  | cube0 =>
    have hf : f < 6 := hf
    interval_cases f
    · exact iff_of_true face_cube0_0 (by decide)
    · exact iff_of_true face_cube0_1 (by decide)
    · exact iff_of_true face_cube0_2 (by decide)
    · exact iff_of_true face_cube0_3 (by decide)
    · exact iff_of_true face_cube0_4 (by decide)
    · exact iff_of_true face_cube0_5 (by decide)
  | cube1 =>
    have hf : f < 6 := hf
    interval_cases f
    · exact iff_of_true face_cube1_0 (by decide)
    · exact iff_of_true face_cube1_1 (by decide)
    · exact iff_of_true face_cube1_2 (by decide)
    · exact iff_of_true face_cube1_3 (by decide)
    · exact iff_of_true face_cube1_4 (by decide)
    · exact iff_of_true face_cube1_5 (by decide)
  | cube2 =>
    have hf : f < 6 := hf
    interval_cases f
    · exact iff_of_true face_cube2_0 (by decide)
    · exact iff_of_true face_cube2_1 (by decide)
    · exact iff_of_true face_cube2_2 (by decide)
    · exact iff_of_true face_cube2_3 (by decide)
    · exact iff_of_true face_cube2_4 (by decide)
    · exact iff_of_true face_cube2_5 (by decide)
  | cube3 =>
    have hf : f < 6 := hf
    interval_cases f
    · exact iff_of_true face_cube3_0 (by decide)
    · exact iff_of_true face_cube3_1 (by decide)
    · exact iff_of_true face_cube3_2 (by decide)
    · exact iff_of_true face_cube3_3 (by decide)
    · exact iff_of_true face_cube3_4 (by decide)
    · exact iff_of_true face_cube3_5 (by decide)
  | cube4 =>
    have hf : f < 6 := hf
    interval_cases f
    · exact iff_of_true face_cube4_0 (by decide)
    · exact iff_of_true face_cube4_1 (by decide)
    · exact iff_of_true face_cube4_2 (by decide)
    · exact iff_of_true face_cube4_3 (by decide)
    · exact iff_of_true face_cube4_4 (by decide)
    · exact iff_of_true face_cube4_5 (by decide)
  | cube5 =>
    have hf : f < 6 := hf
    interval_cases f
    · exact iff_of_false face_cube5_0 (by decide)
    · exact iff_of_false face_cube5_1 (by decide)
    · exact iff_of_false face_cube5_2 (by decide)
    · exact iff_of_false face_cube5_3 (by decide)
    · exact iff_of_false face_cube5_4 (by decide)
    · exact iff_of_false face_cube5_5 (by decide)
  | cube6 =>
    have hf : f < 6 := hf
    interval_cases f
    · exact iff_of_false face_cube6_0 (by decide)
    · exact iff_of_false face_cube6_1 (by decide)
    · exact iff_of_false face_cube6_2 (by decide)
    · exact iff_of_false face_cube6_3 (by decide)
    · exact iff_of_false face_cube6_4 (by decide)
    · exact iff_of_false face_cube6_5 (by decide)
  | cube7 =>
    have hf : f < 6 := hf
    interval_cases f
    · exact iff_of_false face_cube7_0 (by decide)
    · exact iff_of_true face_cube7_1 (by decide)
    · exact iff_of_false face_cube7_2 (by decide)
    · exact iff_of_false face_cube7_3 (by decide)
    · exact iff_of_true face_cube7_4 (by decide)
    · exact iff_of_false face_cube7_5 (by decide)
  | tetrahedron0 =>
    have hf : f < 4 := hf
    interval_cases f
    · exact iff_of_true face_tetrahedron0_0 (by decide)
    · exact iff_of_true face_tetrahedron0_1 (by decide)
    · exact iff_of_true face_tetrahedron0_2 (by decide)
    · exact iff_of_true face_tetrahedron0_3 (by decide)
  | pyramid0 =>
    have hf : f < 5 := hf
    interval_cases f
    · exact iff_of_true face_pyramid0_0 (by decide)
    · exact iff_of_true face_pyramid0_1 (by decide)
    · exact iff_of_true face_pyramid0_2 (by decide)
    · exact iff_of_true face_pyramid0_3 (by decide)
    · exact iff_of_true face_pyramid0_4 (by decide)
  | prism0 =>
    have hf : f < 5 := hf
    interval_cases f
    · exact iff_of_true face_prism0_0 (by decide)
    · exact iff_of_true face_prism0_1 (by decide)
    · exact iff_of_true face_prism0_2 (by decide)
    · exact iff_of_true face_prism0_3 (by decide)
    · exact iff_of_true face_prism0_4 (by decide)
  | prism1 =>
    have hf : f < 5 := hf
    interval_cases f
    · exact iff_of_true face_prism1_0 (by decide)
    · exact iff_of_true face_prism1_1 (by decide)
    · exact iff_of_true face_prism1_2 (by decide)
    · exact iff_of_true face_prism1_3 (by decide)
    · exact iff_of_true face_prism1_4 (by decide)
  | prism2 =>
    have hf : f < 5 := hf
    interval_cases f
    · exact iff_of_true face_prism2_0 (by decide)
    · exact iff_of_true face_prism2_1 (by decide)
    · exact iff_of_false face_prism2_2 (by decide)
    · exact iff_of_true face_prism2_3 (by decide)
    · exact iff_of_true face_prism2_4 (by decide)
  | prism3 =>
    have hf : f < 5 := hf
    interval_cases f
    · exact iff_of_true face_prism3_0 (by decide)
    · exact iff_of_false face_prism3_1 (by decide)
    · exact iff_of_true face_prism3_2 (by decide)
    · exact iff_of_true face_prism3_3 (by decide)
    · exact iff_of_false face_prism3_4 (by decide)
  | prism4 =>
    have hf : f < 5 := hf
    interval_cases f
    · exact iff_of_false face_prism4_0 (by decide)
    · exact iff_of_true face_prism4_1 (by decide)
    · exact iff_of_false face_prism4_2 (by decide)
    · exact iff_of_false face_prism4_3 (by decide)
    · exact iff_of_true face_prism4_4 (by decide)
  | prism5 =>
    have hf : f < 5 := hf
    interval_cases f
    · exact iff_of_true face_prism5_0 (by decide)
    · exact iff_of_true face_prism5_1 (by decide)
    · exact iff_of_false face_prism5_2 (by decide)
    · exact iff_of_false face_prism5_3 (by decide)
    · exact iff_of_false face_prism5_4 (by decide)
  | prism6 =>
    have hf : f < 5 := hf
    interval_cases f
    · exact iff_of_false face_prism6_0 (by decide)
    · exact iff_of_false face_prism6_1 (by decide)
    · exact iff_of_false face_prism6_2 (by decide)
    · exact iff_of_false face_prism6_3 (by decide)
    · exact iff_of_false face_prism6_4 (by decide)
  | prism7 =>
    have hf : f < 5 := hf
    interval_cases f
    · exact iff_of_false face_prism7_0 (by decide)
    · exact iff_of_false face_prism7_1 (by decide)
    · exact iff_of_false face_prism7_2 (by decide)
    · exact iff_of_false face_prism7_3 (by decide)
    · exact iff_of_false face_prism7_4 (by decide)
  | prism8 =>
    have hf : f < 5 := hf
    interval_cases f
    · exact iff_of_false face_prism8_0 (by decide)
    · exact iff_of_false face_prism8_1 (by decide)
    · exact iff_of_false face_prism8_2 (by decide)
    · exact iff_of_false face_prism8_3 (by decide)
    · exact iff_of_false face_prism8_4 (by decide)
  | prism9 =>
    have hf : f < 5 := hf
    interval_cases f
    · exact iff_of_false face_prism9_0 (by decide)
    · exact iff_of_false face_prism9_1 (by decide)
    · exact iff_of_false face_prism9_2 (by decide)
    · exact iff_of_false face_prism9_3 (by decide)
    · exact iff_of_false face_prism9_4 (by decide)

/-- C80: the nodes that `getCodim1LocalNodeIndices` lists for a face are those of the named faces of the sub-elements, except
for the faces of `badFaceNodes`. -/
theorem face_nodes_partial {d : Nat} (n : Name (d + 1)) (f : Nat) (hf : f < n.table.shape.faces.length) :
    FaceNodesFit n f ↔ f ∉ badFaceNodes n := by
  cases n with
  | line0 =>
    have hf : f < 2 := hf
    interval_cases f
    · exact iff_of_true nodes_line0_0 (by decide)
    · exact iff_of_true nodes_line0_1 (by decide)
  | line1 =>
    have hf : f < 2 := hf
    interval_cases f
    · exact iff_of_true nodes_line1_0 (by decide)
    · exact iff_of_true nodes_line1_1 (by decide)
  | square0 =>
    have hf : f < 4 := hf
    interval_cases f
    · exact iff_of_true nodes_square0_0 (by decide)
    · exact iff_of_true nodes_square0_1 (by decide)
    · exact iff_of_true nodes_square0_2 (by decide)
    · exact iff_of_true nodes_square0_3 (by decide)
  | square1 =>
    have hf : f < 4 := hf
    interval_cases f
    · exact iff_of_true nodes_square1_0 (by decide)
    · exact iff_of_true nodes_square1_1 (by decide)
    · exact iff_of_true nodes_square1_2 (by decide)
    · exact iff_of_true nodes_square1_3 (by decide)
  | square2 =>
    have hf : f < 4 := hf
    interval_cases f
    · exact iff_of_true nodes_square2_0 (by decide)
    · exact iff_of_true nodes_square2_1 (by decide)
    · exact iff_of_true nodes_square2_2 (by decide)
    · exact iff_of_true nodes_square2_3 (by decide)
  | square3 =>
    have hf : f < 4 := hf
    interval_cases f
    · exact iff_of_true nodes_square3_0 (by decide)
    · exact iff_of_true nodes_square3_1 (by decide)
    · exact iff_of_true nodes_square3_2 (by decide)
    · exact iff_of_true nodes_square3_3 (by decide)
  | triangle0 =>
    have hf : f < 3 := hf
    interval_cases f
    · exact iff_of_true nodes_triangle0_0 (by decide)
    · exact iff_of_true nodes_triangle0_1 (by decide)
    · exact iff_of_true nodes_triangle0_2 (by decide)
  | triangle1 =>
    have hf : f < 3 := hf
    interval_cases f
    · exact iff_of_true nodes_triangle1_0 (by decide)
    · exact iff_of_true nodes_triangle1_1 (by decide)
    · exact iff_of_true nodes_triangle1_2 (by decide)
  | triangle2 =>
    have hf : f < 3 := hf
    interval_cases f
    · exact iff_of_true nodes_triangle2_0 (by decide)
    · exact iff_of_true nodes_triangle2_1 (by decide)
    · exact iff_of_true nodes_triangle2_2 (by decide)
  | triangle3 =>
    have hf : f < 3 := hf
    interval_cases f
    · exact iff_of_true nodes_triangle3_0 (by decide)
    · exact iff_of_true nodes_triangle3_1 (by decide)
    · exact iff_of_true nodes_triangle3_2 (by decide)
  | triangle4 =>
    have hf : f < 3 := hf
    interval_cases f
    · exact iff_of_true nodes_triangle4_0 (by decide)
    · exact iff_of_true nodes_triangle4_1 (by decide)
    · exact iff_of_true nodes_triangle4_2 (by decide)
  | triangle5 =>
    have hf : f < 3 := hf
    interval_cases f
    · exact iff_of_true nodes_triangle5_0 (by decide)
    · exact iff_of_false nodes_triangle5_1 (by decide)
    · exact iff_of_true nodes_triangle5_2 (by decide)
  | triangle6 =>
    have hf : f < 3 := hf
    interval_cases f
    · exact iff_of_true nodes_triangle6_0 (by decide)
    · exact iff_of_true nodes_triangle6_1 (by decide)
    · exact iff_of_false nodes_triangle6_2 (by decide)
  | triangle7 =>
    have hf : f < 3 := hf
    interval_cases f
    · exact iff_of_true nodes_triangle7_0 (by decide)
    · exact iff_of_true nodes_triangle7_1 (by decide)
    · exact iff_of_true nodes_triangle7_2 (by decide)
  | triangle8 =>
    have hf : f < 3 := hf
    interval_cases f
    · exact iff_of_false nodes_triangle8_0 (by decide)
    · exact iff_of_true nodes_triangle8_1 (by decide)
    · exact iff_of_false nodes_triangle8_2 (by decide)
  | cube0 =>
    have hf : f < 6 := hf
    interval_cases f
    · exact iff_of_true nodes_cube0_0 (by decide)
    · exact iff_of_true nodes_cube0_1 (by decide)
    · exact iff_of_true nodes_cube0_2 (by decide)
    · exact iff_of_true nodes_cube0_3 (by decide)
    · exact iff_of_true nodes_cube0_4 (by decide)
    · exact iff_of_true nodes_cube0_5 (by decide)
  | cube1 =>
    have hf : f < 6 := hf
    interval_cases f
    · exact iff_of_true nodes_cube1_0 (by decide)
    · exact iff_of_true nodes_cube1_1 (by decide)
    · exact iff_of_true nodes_cube1_2 (by decide)
    · exact iff_of_true nodes_cube1_3 (by decide)
    · exact iff_of_true nodes_cube1_4 (by decide)
    · exact iff_of_true nodes_cube1_5 (by decide)
  | cube2 =>
    have hf : f < 6 := hf
    interval_cases f
    · exact iff_of_true nodes_cube2_0 (by decide)
    · exact iff_of_true nodes_cube2_1 (by decide)
    · exact iff_of_true nodes_cube2_2 (by decide)
    · exact iff_of_true nodes_cube2_3 (by decide)
    · exact iff_of_true nodes_cube2_4 (by decide)
    · exact iff_of_true nodes_cube2_5 (by decide)
  | cube3 =>
    have hf : f < 6 := hf
    interval_cases f
    · exact iff_of_true nodes_cube3_0 (by decide)
    · exact iff_of_true nodes_cube3_1 (by decide)
    · exact iff_of_true nodes_cube3_2 (by decide)
    · exact iff_of_true nodes_cube3_3 (by decide)
    · exact iff_of_true nodes_cube3_4 (by decide)
    · exact iff_of_true nodes_cube3_5 (by decide)
  | cube4 =>
    have hf : f < 6 := hf
    interval_cases f
    · exact iff_of_true nodes_cube4_0 (by decide)
    · exact iff_of_true nodes_cube4_1 (by decide)
    · exact iff_of_true nodes_cube4_2 (by decide)
    · exact iff_of_true nodes_cube4_3 (by decide)
    · exact iff_of_true nodes_cube4_4 (by decide)
    · exact iff_of_true nodes_cube4_5 (by decide)
  | cube5 =>
    have hf : f < 6 := hf
    interval_cases f
    · exact iff_of_false nodes_cube5_0 (by decide)
    · exact iff_of_false nodes_cube5_1 (by decide)
    · exact iff_of_false nodes_cube5_2 (by decide)
    · exact iff_of_false nodes_cube5_3 (by decide)
    · exact iff_of_false nodes_cube5_4 (by decide)
    · exact iff_of_false nodes_cube5_5 (by decide)
  | cube6 =>
    have hf : f < 6 := hf
    interval_cases f
    · exact iff_of_false nodes_cube6_0 (by decide)
    · exact iff_of_false nodes_cube6_1 (by decide)
    · exact iff_of_false nodes_cube6_2 (by decide)
    · exact iff_of_false nodes_cube6_3 (by decide)
    · exact iff_of_false nodes_cube6_4 (by decide)
    · exact iff_of_false nodes_cube6_5 (by decide)
  | cube7 =>
    have hf : f < 6 := hf
    interval_cases f
    · exact iff_of_false nodes_cube7_0 (by decide)
    · exact iff_of_true nodes_cube7_1 (by decide)
    · exact iff_of_false nodes_cube7_2 (by decide)
    · exact iff_of_false nodes_cube7_3 (by decide)
    · exact iff_of_false nodes_cube7_4 (by decide)
    · exact iff_of_false nodes_cube7_5 (by decide)
  | tetrahedron0 =>
    have hf : f < 4 := hf
    interval_cases f
    · exact iff_of_true nodes_tetrahedron0_0 (by decide)
    · exact iff_of_true nodes_tetrahedron0_1 (by decide)
    · exact iff_of_true nodes_tetrahedron0_2 (by decide)
    · exact iff_of_true nodes_tetrahedron0_3 (by decide)
  | pyramid0 =>
    have hf : f < 5 := hf
    interval_cases f
    · exact iff_of_true nodes_pyramid0_0 (by decide)
    · exact iff_of_true nodes_pyramid0_1 (by decide)
    · exact iff_of_true nodes_pyramid0_2 (by decide)
    · exact iff_of_true nodes_pyramid0_3 (by decide)
    · exact iff_of_true nodes_pyramid0_4 (by decide)
  | prism0 =>
    have hf : f < 5 := hf
    interval_cases f
    · exact iff_of_true nodes_prism0_0 (by decide)
    · exact iff_of_true nodes_prism0_1 (by decide)
    · exact iff_of_true nodes_prism0_2 (by decide)
    · exact iff_of_true nodes_prism0_3 (by decide)
    · exact iff_of_true nodes_prism0_4 (by decide)
  | prism1 =>
    have hf : f < 5 := hf
    interval_cases f
    · exact iff_of_true nodes_prism1_0 (by decide)
    · exact iff_of_true nodes_prism1_1 (by decide)
    · exact iff_of_true nodes_prism1_2 (by decide)
    · exact iff_of_true nodes_prism1_3 (by decide)
    · exact iff_of_true nodes_prism1_4 (by decide)
  | prism2 =>
    have hf : f < 5 := hf
    interval_cases f
    · exact iff_of_true nodes_prism2_0 (by decide)
    · exact iff_of_true nodes_prism2_1 (by decide)
    · exact iff_of_false nodes_prism2_2 (by decide)
    · exact iff_of_true nodes_prism2_3 (by decide)
    · exact iff_of_true nodes_prism2_4 (by decide)
  | prism3 =>
    have hf : f < 5 := hf
    interval_cases f
    · exact iff_of_true nodes_prism3_0 (by decide)
    · exact iff_of_false nodes_prism3_1 (by decide)
    · exact iff_of_true nodes_prism3_2 (by decide)
    · exact iff_of_true nodes_prism3_3 (by decide)
    · exact iff_of_false nodes_prism3_4 (by decide)
  | prism4 =>
    have hf : f < 5 := hf
    interval_cases f
    · exact iff_of_false nodes_prism4_0 (by decide)
    · exact iff_of_true nodes_prism4_1 (by decide)
    · exact iff_of_false nodes_prism4_2 (by decide)
    · exact iff_of_false nodes_prism4_3 (by decide)
    · exact iff_of_true nodes_prism4_4 (by decide)
  | prism5 =>
    have hf : f < 5 := hf
    interval_cases f
    · exact iff_of_true nodes_prism5_0 (by decide)
    · exact iff_of_true nodes_prism5_1 (by decide)
    · exact iff_of_true nodes_prism5_2 (by decide)
    · exact iff_of_true nodes_prism5_3 (by decide)
    · exact iff_of_true nodes_prism5_4 (by decide)
  | prism6 =>
    have hf : f < 5 := hf
    interval_cases f
    · exact iff_of_false nodes_prism6_0 (by decide)
    · exact iff_of_false nodes_prism6_1 (by decide)
    · exact iff_of_false nodes_prism6_2 (by decide)
    · exact iff_of_false nodes_prism6_3 (by decide)
    · exact iff_of_false nodes_prism6_4 (by decide)
  | prism7 =>
    have hf : f < 5 := hf
    interval_cases f
    · exact iff_of_false nodes_prism7_0 (by decide)
    · exact iff_of_false nodes_prism7_1 (by decide)
    · exact iff_of_false nodes_prism7_2 (by decide)
    · exact iff_of_false nodes_prism7_3 (by decide)
    · exact iff_of_false nodes_prism7_4 (by decide)
  | prism8 =>
    have hf : f < 5 := hf
    interval_cases f
    · exact iff_of_false nodes_prism8_0 (by decide)
    · exact iff_of_false nodes_prism8_1 (by decide)
    · exact iff_of_false nodes_prism8_2 (by decide)
    · exact iff_of_false nodes_prism8_3 (by decide)
    · exact iff_of_false nodes_prism8_4 (by decide)
  | prism9 =>
    have hf : f < 5 := hf
    interval_cases f
    · exact iff_of_false nodes_prism9_0 (by decide)
    · exact iff_of_false nodes_prism9_1 (by decide)
    · exact iff_of_false nodes_prism9_2 (by decide)
    · exact iff_of_false nodes_prism9_3 (by decide)
    · exact iff_of_false nodes_prism9_4 (by decide)

/-! ## Cases -/

/-- `refinement_matrices` for the third part of the fifth division of the triangle. -/
example : MatricesFit .triangle5 2 := refinement_matrices .triangle5 2 (by decide)

/-- `tables_fit` for the cube in four: there are 10 new nodes. -/
example : (Name.table .cube4).newNodes.length = (Name.table .cube4).numNew := (tables_fit .cube4).1

/-- `children_tile_partial` for the square in four, and for a division of the prism that does not tile. -/
example : Tiles .square3 := (children_tile_partial .square3).mpr rfl
example : ¬Tiles .prism5 := fun h => Bool.noConfusion ((children_tile_partial .prism5).mp h)

/-- `children_follow_partial` for the square in four. -/
example : ChildrenFollow .square3 := children_follow_partial .square3 rfl

/-- `transform_places_children_partial` for the square in four, and for a division of the triangle that is wrong. -/
example : TransformFits .square3 := (transform_places_children_partial .square3).mpr rfl
example : ¬TransformFits .triangle1 := fun h => Bool.noConfusion ((transform_places_children_partial .triangle1).mp h)

/-- `face_parts_partial` and `face_nodes_partial` for the right side of the square in four, and for a wrong face. -/
example : FaceFits .square3 2 := (face_parts_partial .square3 2 (by decide)).mpr (by decide)
example : FaceNodesFit .square3 2 := (face_nodes_partial .square3 2 (by decide)).mpr (by decide)
example : ¬FaceFits .triangle5 1 := fun h => (face_parts_partial .triangle5 1 (by decide)).mp h (by decide)
example : ¬FaceNodesFit .triangle5 1 := fun h => (face_nodes_partial .triangle5 1 (by decide)).mp h (by decide)

end Verif.Refine
