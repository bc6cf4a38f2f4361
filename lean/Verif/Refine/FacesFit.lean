import Verif.Refine.FaceMaps

/-! # The faces of the sub-elements: what fits -/
set_option linter.all false
namespace Verif.Refine
open Verif.RefGeometry (Pt Geom Face)

theorem face_line0_0 : FaceFits .line0 0 := by
  refine ⟨_, .point0, rfl, rfl, rfl, fun j hj => ?_⟩
  have hj : j < 1 := hj
  interval_cases j
  · refine ⟨_, _, _, _, _, _, _, rfl, rfl, rfl, rfl, rfl, ref_line0_0, ref_point0_0, fun q hq => ?_⟩
    ext i; fin_cases i <;> simp <;> norm_num <;> ring

theorem nodes_line0_0 : FaceNodesFit .line0 0 := by
  refine ⟨_, .point0, _, rfl, rfl, rfl, rfl, rfl, fun j hj => ?_⟩
  have hj : j < 1 := hj
  interval_cases j
  all_goals exact ⟨_, _, _, _, _, _, rfl, rfl, rfl, rfl, rfl, rfl, rfl⟩

theorem face_line0_1 : FaceFits .line0 1 := by
  refine ⟨_, .point0, rfl, rfl, rfl, fun j hj => ?_⟩
  have hj : j < 1 := hj
  interval_cases j
  · refine ⟨_, _, _, _, _, _, _, rfl, rfl, rfl, rfl, rfl, ref_line0_0, ref_point0_0, fun q hq => ?_⟩
    ext i; fin_cases i <;> simp <;> norm_num <;> ring

theorem nodes_line0_1 : FaceNodesFit .line0 1 := by
  refine ⟨_, .point0, _, rfl, rfl, rfl, rfl, rfl, fun j hj => ?_⟩
  have hj : j < 1 := hj
  interval_cases j
  all_goals exact ⟨_, _, _, _, _, _, rfl, rfl, rfl, rfl, rfl, rfl, rfl⟩

theorem face_line1_0 : FaceFits .line1 0 := by
  refine ⟨_, .point0, rfl, rfl, rfl, fun j hj => ?_⟩
  have hj : j < 1 := hj
  interval_cases j
  · refine ⟨_, _, _, _, _, _, _, rfl, rfl, rfl, rfl, rfl, ref_line1_0, ref_point0_0, fun q hq => ?_⟩
    ext i; fin_cases i <;> simp <;> norm_num <;> ring

theorem nodes_line1_0 : FaceNodesFit .line1 0 := by
  refine ⟨_, .point0, _, rfl, rfl, rfl, rfl, rfl, fun j hj => ?_⟩
  have hj : j < 1 := hj
  interval_cases j
  all_goals exact ⟨_, _, _, _, _, _, rfl, rfl, rfl, rfl, rfl, rfl, rfl⟩

theorem face_line1_1 : FaceFits .line1 1 := by
  refine ⟨_, .point0, rfl, rfl, rfl, fun j hj => ?_⟩
  have hj : j < 1 := hj
  interval_cases j
  · refine ⟨_, _, _, _, _, _, _, rfl, rfl, rfl, rfl, rfl, ref_line1_1, ref_point0_0, fun q hq => ?_⟩
    ext i; fin_cases i <;> simp <;> norm_num <;> ring

theorem nodes_line1_1 : FaceNodesFit .line1 1 := by
  refine ⟨_, .point0, _, rfl, rfl, rfl, rfl, rfl, fun j hj => ?_⟩
  have hj : j < 1 := hj
  interval_cases j
  all_goals exact ⟨_, _, _, _, _, _, rfl, rfl, rfl, rfl, rfl, rfl, rfl⟩

theorem face_square0_0 : FaceFits .square0 0 := by
  refine ⟨_, .line0, rfl, rfl, rfl, fun j hj => ?_⟩
  have hj : j < 1 := hj
  interval_cases j
  · refine ⟨_, _, _, _, _, _, _, rfl, rfl, rfl, rfl, rfl, ref_square0_0, ref_line0_0, fun q hq => ?_⟩
    ext i; fin_cases i <;> simp <;> norm_num <;> ring

theorem nodes_square0_0 : FaceNodesFit .square0 0 := by
  refine ⟨_, .line0, _, rfl, rfl, rfl, rfl, rfl, fun j hj => ?_⟩
  have hj : j < 1 := hj
  interval_cases j
  all_goals exact ⟨_, _, _, _, _, _, rfl, rfl, rfl, rfl, rfl, rfl, rfl⟩

theorem face_square0_1 : FaceFits .square0 1 := by
  refine ⟨_, .line0, rfl, rfl, rfl, fun j hj => ?_⟩
  have hj : j < 1 := hj
  interval_cases j
  · refine ⟨_, _, _, _, _, _, _, rfl, rfl, rfl, rfl, rfl, ref_square0_0, ref_line0_0, fun q hq => ?_⟩
    ext i; fin_cases i <;> simp <;> norm_num <;> ring

theorem nodes_square0_1 : FaceNodesFit .square0 1 := by
  refine ⟨_, .line0, _, rfl, rfl, rfl, rfl, rfl, fun j hj => ?_⟩
  have hj : j < 1 := hj
  interval_cases j
  all_goals exact ⟨_, _, _, _, _, _, rfl, rfl, rfl, rfl, rfl, rfl, rfl⟩

theorem face_square0_2 : FaceFits .square0 2 := by
  refine ⟨_, .line0, rfl, rfl, rfl, fun j hj => ?_⟩
  have hj : j < 1 := hj
  interval_cases j
  · refine ⟨_, _, _, _, _, _, _, rfl, rfl, rfl, rfl, rfl, ref_square0_0, ref_line0_0, fun q hq => ?_⟩
    ext i; fin_cases i <;> simp <;> norm_num <;> ring

theorem nodes_square0_2 : FaceNodesFit .square0 2 := by
  refine ⟨_, .line0, _, rfl, rfl, rfl, rfl, rfl, fun j hj => ?_⟩
  have hj : j < 1 := hj
  interval_cases j
  all_goals exact ⟨_, _, _, _, _, _, rfl, rfl, rfl, rfl, rfl, rfl, rfl⟩

theorem face_square0_3 : FaceFits .square0 3 := by
  refine ⟨_, .line0, rfl, rfl, rfl, fun j hj => ?_⟩
  have hj : j < 1 := hj
  interval_cases j
  · refine ⟨_, _, _, _, _, _, _, rfl, rfl, rfl, rfl, rfl, ref_square0_0, ref_line0_0, fun q hq => ?_⟩
    ext i; fin_cases i <;> simp <;> norm_num <;> ring

theorem nodes_square0_3 : FaceNodesFit .square0 3 := by
  refine ⟨_, .line0, _, rfl, rfl, rfl, rfl, rfl, fun j hj => ?_⟩
  have hj : j < 1 := hj
  interval_cases j
  all_goals exact ⟨_, _, _, _, _, _, rfl, rfl, rfl, rfl, rfl, rfl, rfl⟩

theorem face_square1_0 : FaceFits .square1 0 := by
  refine ⟨_, .line1, rfl, rfl, rfl, fun j hj => ?_⟩
  have hj : j < 2 := hj
  interval_cases j
  · refine ⟨_, _, _, _, _, _, _, rfl, rfl, rfl, rfl, rfl, ref_square1_0, ref_line1_0, fun q hq => ?_⟩
    ext i; fin_cases i <;> simp <;> norm_num <;> ring
  · refine ⟨_, _, _, _, _, _, _, rfl, rfl, rfl, rfl, rfl, ref_square1_1, ref_line1_1, fun q hq => ?_⟩
    ext i; fin_cases i <;> simp <;> norm_num <;> ring

theorem nodes_square1_0 : FaceNodesFit .square1 0 := by
  refine ⟨_, .line1, _, rfl, rfl, rfl, rfl, rfl, fun j hj => ?_⟩
  have hj : j < 2 := hj
  interval_cases j
  all_goals exact ⟨_, _, _, _, _, _, rfl, rfl, rfl, rfl, rfl, rfl, rfl⟩

theorem face_square1_1 : FaceFits .square1 1 := by
  refine ⟨_, .line0, rfl, rfl, rfl, fun j hj => ?_⟩
  have hj : j < 1 := hj
  interval_cases j
  · refine ⟨_, _, _, _, _, _, _, rfl, rfl, rfl, rfl, rfl, ref_square1_0, ref_line0_0, fun q hq => ?_⟩
    ext i; fin_cases i <;> simp <;> norm_num <;> ring

theorem nodes_square1_1 : FaceNodesFit .square1 1 := by
  refine ⟨_, .line0, _, rfl, rfl, rfl, rfl, rfl, fun j hj => ?_⟩
  have hj : j < 1 := hj
  interval_cases j
  all_goals exact ⟨_, _, _, _, _, _, rfl, rfl, rfl, rfl, rfl, rfl, rfl⟩

theorem face_square1_2 : FaceFits .square1 2 := by
  refine ⟨_, .line0, rfl, rfl, rfl, fun j hj => ?_⟩
  have hj : j < 1 := hj
  interval_cases j
  · refine ⟨_, _, _, _, _, _, _, rfl, rfl, rfl, rfl, rfl, ref_square1_1, ref_line0_0, fun q hq => ?_⟩
    ext i; fin_cases i <;> simp <;> norm_num <;> ring

theorem nodes_square1_2 : FaceNodesFit .square1 2 := by
  refine ⟨_, .line0, _, rfl, rfl, rfl, rfl, rfl, fun j hj => ?_⟩
  have hj : j < 1 := hj
  interval_cases j
  all_goals exact ⟨_, _, _, _, _, _, rfl, rfl, rfl, rfl, rfl, rfl, rfl⟩

theorem face_square1_3 : FaceFits .square1 3 := by
  refine ⟨_, .line1, rfl, rfl, rfl, fun j hj => ?_⟩
  have hj : j < 2 := hj
  interval_cases j
  · refine ⟨_, _, _, _, _, _, _, rfl, rfl, rfl, rfl, rfl, ref_square1_0, ref_line1_0, fun q hq => ?_⟩
    ext i; fin_cases i <;> simp <;> norm_num <;> ring
  · refine ⟨_, _, _, _, _, _, _, rfl, rfl, rfl, rfl, rfl, ref_square1_1, ref_line1_1, fun q hq => ?_⟩
    ext i; fin_cases i <;> simp <;> norm_num <;> ring

theorem nodes_square1_3 : FaceNodesFit .square1 3 := by
  refine ⟨_, .line1, _, rfl, rfl, rfl, rfl, rfl, fun j hj => ?_⟩
  have hj : j < 2 := hj
  interval_cases j
  all_goals exact ⟨_, _, _, _, _, _, rfl, rfl, rfl, rfl, rfl, rfl, rfl⟩

theorem face_square2_0 : FaceFits .square2 0 := by
  refine ⟨_, .line0, rfl, rfl, rfl, fun j hj => ?_⟩
  have hj : j < 1 := hj
  interval_cases j
  · refine ⟨_, _, _, _, _, _, _, rfl, rfl, rfl, rfl, rfl, ref_square2_0, ref_line0_0, fun q hq => ?_⟩
    ext i; fin_cases i <;> simp <;> norm_num <;> ring

theorem nodes_square2_0 : FaceNodesFit .square2 0 := by
  refine ⟨_, .line0, _, rfl, rfl, rfl, rfl, rfl, fun j hj => ?_⟩
  have hj : j < 1 := hj
  interval_cases j
  all_goals exact ⟨_, _, _, _, _, _, rfl, rfl, rfl, rfl, rfl, rfl, rfl⟩

theorem face_square2_1 : FaceFits .square2 1 := by
  refine ⟨_, .line1, rfl, rfl, rfl, fun j hj => ?_⟩
  have hj : j < 2 := hj
  interval_cases j
  · refine ⟨_, _, _, _, _, _, _, rfl, rfl, rfl, rfl, rfl, ref_square2_0, ref_line1_0, fun q hq => ?_⟩
    ext i; fin_cases i <;> simp <;> norm_num <;> ring
  · refine ⟨_, _, _, _, _, _, _, rfl, rfl, rfl, rfl, rfl, ref_square2_1, ref_line1_1, fun q hq => ?_⟩
    ext i; fin_cases i <;> simp <;> norm_num <;> ring

theorem nodes_square2_1 : FaceNodesFit .square2 1 := by
  refine ⟨_, .line1, _, rfl, rfl, rfl, rfl, rfl, fun j hj => ?_⟩
  have hj : j < 2 := hj
  interval_cases j
  all_goals exact ⟨_, _, _, _, _, _, rfl, rfl, rfl, rfl, rfl, rfl, rfl⟩

theorem face_square2_2 : FaceFits .square2 2 := by
  refine ⟨_, .line1, rfl, rfl, rfl, fun j hj => ?_⟩
  have hj : j < 2 := hj
  interval_cases j
  · refine ⟨_, _, _, _, _, _, _, rfl, rfl, rfl, rfl, rfl, ref_square2_0, ref_line1_0, fun q hq => ?_⟩
    ext i; fin_cases i <;> simp <;> norm_num <;> ring
  · refine ⟨_, _, _, _, _, _, _, rfl, rfl, rfl, rfl, rfl, ref_square2_1, ref_line1_1, fun q hq => ?_⟩
    ext i; fin_cases i <;> simp <;> norm_num <;> ring

theorem nodes_square2_2 : FaceNodesFit .square2 2 := by
  refine ⟨_, .line1, _, rfl, rfl, rfl, rfl, rfl, fun j hj => ?_⟩
  have hj : j < 2 := hj
  interval_cases j
  all_goals exact ⟨_, _, _, _, _, _, rfl, rfl, rfl, rfl, rfl, rfl, rfl⟩

theorem face_square2_3 : FaceFits .square2 3 := by
  refine ⟨_, .line0, rfl, rfl, rfl, fun j hj => ?_⟩
  have hj : j < 1 := hj
  interval_cases j
  · refine ⟨_, _, _, _, _, _, _, rfl, rfl, rfl, rfl, rfl, ref_square2_1, ref_line0_0, fun q hq => ?_⟩
    ext i; fin_cases i <;> simp <;> norm_num <;> ring

theorem nodes_square2_3 : FaceNodesFit .square2 3 := by
  refine ⟨_, .line0, _, rfl, rfl, rfl, rfl, rfl, fun j hj => ?_⟩
  have hj : j < 1 := hj
  interval_cases j
  all_goals exact ⟨_, _, _, _, _, _, rfl, rfl, rfl, rfl, rfl, rfl, rfl⟩

theorem face_square3_0 : FaceFits .square3 0 := by
  refine ⟨_, .line1, rfl, rfl, rfl, fun j hj => ?_⟩
  have hj : j < 2 := hj
  interval_cases j
  · refine ⟨_, _, _, _, _, _, _, rfl, rfl, rfl, rfl, rfl, ref_square3_0, ref_line1_0, fun q hq => ?_⟩
    ext i; fin_cases i <;> simp <;> norm_num <;> ring
  · refine ⟨_, _, _, _, _, _, _, rfl, rfl, rfl, rfl, rfl, ref_square3_1, ref_line1_1, fun q hq => ?_⟩
    ext i; fin_cases i <;> simp <;> norm_num <;> ring

theorem nodes_square3_0 : FaceNodesFit .square3 0 := by
  refine ⟨_, .line1, _, rfl, rfl, rfl, rfl, rfl, fun j hj => ?_⟩
  have hj : j < 2 := hj
  interval_cases j
  all_goals exact ⟨_, _, _, _, _, _, rfl, rfl, rfl, rfl, rfl, rfl, rfl⟩

theorem face_square3_1 : FaceFits .square3 1 := by
  refine ⟨_, .line1, rfl, rfl, rfl, fun j hj => ?_⟩
  have hj : j < 2 := hj
  interval_cases j
  · refine ⟨_, _, _, _, _, _, _, rfl, rfl, rfl, rfl, rfl, ref_square3_0, ref_line1_0, fun q hq => ?_⟩
    ext i; fin_cases i <;> simp <;> norm_num <;> ring
  · refine ⟨_, _, _, _, _, _, _, rfl, rfl, rfl, rfl, rfl, ref_square3_2, ref_line1_1, fun q hq => ?_⟩
    ext i; fin_cases i <;> simp <;> norm_num <;> ring

theorem nodes_square3_1 : FaceNodesFit .square3 1 := by
  refine ⟨_, .line1, _, rfl, rfl, rfl, rfl, rfl, fun j hj => ?_⟩
  have hj : j < 2 := hj
  interval_cases j
  all_goals exact ⟨_, _, _, _, _, _, rfl, rfl, rfl, rfl, rfl, rfl, rfl⟩

theorem face_square3_2 : FaceFits .square3 2 := by
  refine ⟨_, .line1, rfl, rfl, rfl, fun j hj => ?_⟩
  have hj : j < 2 := hj
  interval_cases j
  · refine ⟨_, _, _, _, _, _, _, rfl, rfl, rfl, rfl, rfl, ref_square3_1, ref_line1_0, fun q hq => ?_⟩
    ext i; fin_cases i <;> simp <;> norm_num <;> ring
  · refine ⟨_, _, _, _, _, _, _, rfl, rfl, rfl, rfl, rfl, ref_square3_3, ref_line1_1, fun q hq => ?_⟩
    ext i; fin_cases i <;> simp <;> norm_num <;> ring

theorem nodes_square3_2 : FaceNodesFit .square3 2 := by
  refine ⟨_, .line1, _, rfl, rfl, rfl, rfl, rfl, fun j hj => ?_⟩
  have hj : j < 2 := hj
  interval_cases j
  all_goals exact ⟨_, _, _, _, _, _, rfl, rfl, rfl, rfl, rfl, rfl, rfl⟩

theorem face_square3_3 : FaceFits .square3 3 := by
  refine ⟨_, .line1, rfl, rfl, rfl, fun j hj => ?_⟩
  have hj : j < 2 := hj
  interval_cases j
  · refine ⟨_, _, _, _, _, _, _, rfl, rfl, rfl, rfl, rfl, ref_square3_2, ref_line1_0, fun q hq => ?_⟩
    ext i; fin_cases i <;> simp <;> norm_num <;> ring
  · refine ⟨_, _, _, _, _, _, _, rfl, rfl, rfl, rfl, rfl, ref_square3_3, ref_line1_1, fun q hq => ?_⟩
    ext i; fin_cases i <;> simp <;> norm_num <;> ring

theorem nodes_square3_3 : FaceNodesFit .square3 3 := by
  refine ⟨_, .line1, _, rfl, rfl, rfl, rfl, rfl, fun j hj => ?_⟩
  have hj : j < 2 := hj
  interval_cases j
  all_goals exact ⟨_, _, _, _, _, _, rfl, rfl, rfl, rfl, rfl, rfl, rfl⟩

theorem face_triangle0_0 : FaceFits .triangle0 0 := by
  refine ⟨_, .line0, rfl, rfl, rfl, fun j hj => ?_⟩
  have hj : j < 1 := hj
  interval_cases j
  · refine ⟨_, _, _, _, _, _, _, rfl, rfl, rfl, rfl, rfl, ref_triangle0_0, ref_line0_0, fun q hq => ?_⟩
    ext i; fin_cases i <;> simp <;> norm_num <;> ring

theorem nodes_triangle0_0 : FaceNodesFit .triangle0 0 := by
  refine ⟨_, .line0, _, rfl, rfl, rfl, rfl, rfl, fun j hj => ?_⟩
  have hj : j < 1 := hj
  interval_cases j
  all_goals exact ⟨_, _, _, _, _, _, rfl, rfl, rfl, rfl, rfl, rfl, rfl⟩

theorem face_triangle0_1 : FaceFits .triangle0 1 := by
  refine ⟨_, .line0, rfl, rfl, rfl, fun j hj => ?_⟩
  have hj : j < 1 := hj
  interval_cases j
  · refine ⟨_, _, _, _, _, _, _, rfl, rfl, rfl, rfl, rfl, ref_triangle0_0, ref_line0_0, fun q hq => ?_⟩
    ext i; fin_cases i <;> simp <;> norm_num <;> ring

theorem nodes_triangle0_1 : FaceNodesFit .triangle0 1 := by
  refine ⟨_, .line0, _, rfl, rfl, rfl, rfl, rfl, fun j hj => ?_⟩
  have hj : j < 1 := hj
  interval_cases j
  all_goals exact ⟨_, _, _, _, _, _, rfl, rfl, rfl, rfl, rfl, rfl, rfl⟩

theorem face_triangle0_2 : FaceFits .triangle0 2 := by
  refine ⟨_, .line0, rfl, rfl, rfl, fun j hj => ?_⟩
  have hj : j < 1 := hj
  interval_cases j
  · refine ⟨_, _, _, _, _, _, _, rfl, rfl, rfl, rfl, rfl, ref_triangle0_0, ref_line0_0, fun q hq => ?_⟩
    ext i; fin_cases i <;> simp <;> norm_num <;> ring

theorem nodes_triangle0_2 : FaceNodesFit .triangle0 2 := by
  refine ⟨_, .line0, _, rfl, rfl, rfl, rfl, rfl, fun j hj => ?_⟩
  have hj : j < 1 := hj
  interval_cases j
  all_goals exact ⟨_, _, _, _, _, _, rfl, rfl, rfl, rfl, rfl, rfl, rfl⟩

theorem face_triangle1_0 : FaceFits .triangle1 0 := by
  refine ⟨_, .line1, rfl, rfl, rfl, fun j hj => ?_⟩
  have hj : j < 2 := hj
  interval_cases j
  · refine ⟨_, _, _, _, _, _, _, rfl, rfl, rfl, rfl, rfl, ref_triangle1_0, ref_line1_0, fun q hq => ?_⟩
    ext i; fin_cases i <;> simp <;> norm_num <;> ring
  · refine ⟨_, _, _, _, _, _, _, rfl, rfl, rfl, rfl, rfl, ref_triangle1_1, ref_line1_1, fun q hq => ?_⟩
    ext i; fin_cases i <;> simp <;> norm_num <;> ring

theorem nodes_triangle1_0 : FaceNodesFit .triangle1 0 := by
  refine ⟨_, .line1, _, rfl, rfl, rfl, rfl, rfl, fun j hj => ?_⟩
  have hj : j < 2 := hj
  interval_cases j
  all_goals exact ⟨_, _, _, _, _, _, rfl, rfl, rfl, rfl, rfl, rfl, rfl⟩

theorem face_triangle1_1 : FaceFits .triangle1 1 := by
  refine ⟨_, .line0, rfl, rfl, rfl, fun j hj => ?_⟩
  have hj : j < 1 := hj
  interval_cases j
  · refine ⟨_, _, _, _, _, _, _, rfl, rfl, rfl, rfl, rfl, ref_triangle1_0, ref_line0_0, fun q hq => ?_⟩
    ext i; fin_cases i <;> simp <;> norm_num <;> ring

theorem nodes_triangle1_1 : FaceNodesFit .triangle1 1 := by
  refine ⟨_, .line0, _, rfl, rfl, rfl, rfl, rfl, fun j hj => ?_⟩
  have hj : j < 1 := hj
  interval_cases j
  all_goals exact ⟨_, _, _, _, _, _, rfl, rfl, rfl, rfl, rfl, rfl, rfl⟩

theorem face_triangle1_2 : FaceFits .triangle1 2 := by
  refine ⟨_, .line0, rfl, rfl, rfl, fun j hj => ?_⟩
  have hj : j < 1 := hj
  interval_cases j
  · refine ⟨_, _, _, _, _, _, _, rfl, rfl, rfl, rfl, rfl, ref_triangle1_1, ref_line0_0, fun q hq => ?_⟩
    ext i; fin_cases i <;> simp <;> norm_num <;> ring

theorem nodes_triangle1_2 : FaceNodesFit .triangle1 2 := by
  refine ⟨_, .line0, _, rfl, rfl, rfl, rfl, rfl, fun j hj => ?_⟩
  have hj : j < 1 := hj
  interval_cases j
  all_goals exact ⟨_, _, _, _, _, _, rfl, rfl, rfl, rfl, rfl, rfl, rfl⟩

theorem face_triangle2_0 : FaceFits .triangle2 0 := by
  refine ⟨_, .line0, rfl, rfl, rfl, fun j hj => ?_⟩
  have hj : j < 1 := hj
  interval_cases j
  · refine ⟨_, _, _, _, _, _, _, rfl, rfl, rfl, rfl, rfl, ref_triangle2_0, ref_line0_0, fun q hq => ?_⟩
    ext i; fin_cases i <;> simp <;> norm_num <;> ring

theorem nodes_triangle2_0 : FaceNodesFit .triangle2 0 := by
  refine ⟨_, .line0, _, rfl, rfl, rfl, rfl, rfl, fun j hj => ?_⟩
  have hj : j < 1 := hj
  interval_cases j
  all_goals exact ⟨_, _, _, _, _, _, rfl, rfl, rfl, rfl, rfl, rfl, rfl⟩

theorem face_triangle2_1 : FaceFits .triangle2 1 := by
  refine ⟨_, .line1, rfl, rfl, rfl, fun j hj => ?_⟩
  have hj : j < 2 := hj
  interval_cases j
  · refine ⟨_, _, _, _, _, _, _, rfl, rfl, rfl, rfl, rfl, ref_triangle2_0, ref_line1_0, fun q hq => ?_⟩
    ext i; fin_cases i <;> simp <;> norm_num <;> ring
  · refine ⟨_, _, _, _, _, _, _, rfl, rfl, rfl, rfl, rfl, ref_triangle2_1, ref_line1_1, fun q hq => ?_⟩
    ext i; fin_cases i <;> simp <;> norm_num <;> ring

theorem nodes_triangle2_1 : FaceNodesFit .triangle2 1 := by
  refine ⟨_, .line1, _, rfl, rfl, rfl, rfl, rfl, fun j hj => ?_⟩
  have hj : j < 2 := hj
  interval_cases j
  all_goals exact ⟨_, _, _, _, _, _, rfl, rfl, rfl, rfl, rfl, rfl, rfl⟩

theorem face_triangle2_2 : FaceFits .triangle2 2 := by
  refine ⟨_, .line0, rfl, rfl, rfl, fun j hj => ?_⟩
  have hj : j < 1 := hj
  interval_cases j
  · refine ⟨_, _, _, _, _, _, _, rfl, rfl, rfl, rfl, rfl, ref_triangle2_1, ref_line0_0, fun q hq => ?_⟩
    ext i; fin_cases i <;> simp <;> norm_num <;> ring

theorem nodes_triangle2_2 : FaceNodesFit .triangle2 2 := by
  refine ⟨_, .line0, _, rfl, rfl, rfl, rfl, rfl, fun j hj => ?_⟩
  have hj : j < 1 := hj
  interval_cases j
  all_goals exact ⟨_, _, _, _, _, _, rfl, rfl, rfl, rfl, rfl, rfl, rfl⟩

theorem face_triangle3_0 : FaceFits .triangle3 0 := by
  refine ⟨_, .line0, rfl, rfl, rfl, fun j hj => ?_⟩
  have hj : j < 1 := hj
  interval_cases j
  · refine ⟨_, _, _, _, _, _, _, rfl, rfl, rfl, rfl, rfl, ref_triangle3_0, ref_line0_0, fun q hq => ?_⟩
    ext i; fin_cases i <;> simp <;> norm_num <;> ring

theorem nodes_triangle3_0 : FaceNodesFit .triangle3 0 := by
  refine ⟨_, .line0, _, rfl, rfl, rfl, rfl, rfl, fun j hj => ?_⟩
  have hj : j < 1 := hj
  interval_cases j
  all_goals exact ⟨_, _, _, _, _, _, rfl, rfl, rfl, rfl, rfl, rfl, rfl⟩

theorem face_triangle3_1 : FaceFits .triangle3 1 := by
  refine ⟨_, .line0, rfl, rfl, rfl, fun j hj => ?_⟩
  have hj : j < 1 := hj
  interval_cases j
  · refine ⟨_, _, _, _, _, _, _, rfl, rfl, rfl, rfl, rfl, ref_triangle3_1, ref_line0_0, fun q hq => ?_⟩
    ext i; fin_cases i <;> simp <;> norm_num <;> ring

theorem nodes_triangle3_1 : FaceNodesFit .triangle3 1 := by
  refine ⟨_, .line0, _, rfl, rfl, rfl, rfl, rfl, fun j hj => ?_⟩
  have hj : j < 1 := hj
  interval_cases j
  all_goals exact ⟨_, _, _, _, _, _, rfl, rfl, rfl, rfl, rfl, rfl, rfl⟩

theorem face_triangle3_2 : FaceFits .triangle3 2 := by
  refine ⟨_, .line1, rfl, rfl, rfl, fun j hj => ?_⟩
  have hj : j < 2 := hj
  interval_cases j
  · refine ⟨_, _, _, _, _, _, _, rfl, rfl, rfl, rfl, rfl, ref_triangle3_0, ref_line1_0, fun q hq => ?_⟩
    ext i; fin_cases i <;> simp <;> norm_num <;> ring
  · refine ⟨_, _, _, _, _, _, _, rfl, rfl, rfl, rfl, rfl, ref_triangle3_1, ref_line1_1, fun q hq => ?_⟩
    ext i; fin_cases i <;> simp <;> norm_num <;> ring

theorem nodes_triangle3_2 : FaceNodesFit .triangle3 2 := by
  refine ⟨_, .line1, _, rfl, rfl, rfl, rfl, rfl, fun j hj => ?_⟩
  have hj : j < 2 := hj
  interval_cases j
  all_goals exact ⟨_, _, _, _, _, _, rfl, rfl, rfl, rfl, rfl, rfl, rfl⟩

theorem face_triangle4_0 : FaceFits .triangle4 0 := by
  refine ⟨_, .line1, rfl, rfl, rfl, fun j hj => ?_⟩
  have hj : j < 2 := hj
  interval_cases j
  · refine ⟨_, _, _, _, _, _, _, rfl, rfl, rfl, rfl, rfl, ref_triangle4_0, ref_line1_0, fun q hq => ?_⟩
    ext i; fin_cases i <;> simp <;> norm_num <;> ring
  · refine ⟨_, _, _, _, _, _, _, rfl, rfl, rfl, rfl, rfl, ref_triangle4_1, ref_line1_1, fun q hq => ?_⟩
    ext i; fin_cases i <;> simp <;> norm_num <;> ring

theorem nodes_triangle4_0 : FaceNodesFit .triangle4 0 := by
  refine ⟨_, .line1, _, rfl, rfl, rfl, rfl, rfl, fun j hj => ?_⟩
  have hj : j < 2 := hj
  interval_cases j
  all_goals exact ⟨_, _, _, _, _, _, rfl, rfl, rfl, rfl, rfl, rfl, rfl⟩

theorem face_triangle4_1 : FaceFits .triangle4 1 := by
  refine ⟨_, .line1, rfl, rfl, rfl, fun j hj => ?_⟩
  have hj : j < 2 := hj
  interval_cases j
  · refine ⟨_, _, _, _, _, _, _, rfl, rfl, rfl, rfl, rfl, ref_triangle4_0, ref_line1_0, fun q hq => ?_⟩
    ext i; fin_cases i <;> simp <;> norm_num <;> ring
  · refine ⟨_, _, _, _, _, _, _, rfl, rfl, rfl, rfl, rfl, ref_triangle4_2, ref_line1_1, fun q hq => ?_⟩
    ext i; fin_cases i <;> simp <;> norm_num <;> ring

theorem nodes_triangle4_1 : FaceNodesFit .triangle4 1 := by
  refine ⟨_, .line1, _, rfl, rfl, rfl, rfl, rfl, fun j hj => ?_⟩
  have hj : j < 2 := hj
  interval_cases j
  all_goals exact ⟨_, _, _, _, _, _, rfl, rfl, rfl, rfl, rfl, rfl, rfl⟩

theorem face_triangle4_2 : FaceFits .triangle4 2 := by
  refine ⟨_, .line1, rfl, rfl, rfl, fun j hj => ?_⟩
  have hj : j < 2 := hj
  interval_cases j
  · refine ⟨_, _, _, _, _, _, _, rfl, rfl, rfl, rfl, rfl, ref_triangle4_1, ref_line1_0, fun q hq => ?_⟩
    ext i; fin_cases i <;> simp <;> norm_num <;> ring
  · refine ⟨_, _, _, _, _, _, _, rfl, rfl, rfl, rfl, rfl, ref_triangle4_2, ref_line1_1, fun q hq => ?_⟩
    ext i; fin_cases i <;> simp <;> norm_num <;> ring

theorem nodes_triangle4_2 : FaceNodesFit .triangle4 2 := by
  refine ⟨_, .line1, _, rfl, rfl, rfl, rfl, rfl, fun j hj => ?_⟩
  have hj : j < 2 := hj
  interval_cases j
  all_goals exact ⟨_, _, _, _, _, _, rfl, rfl, rfl, rfl, rfl, rfl, rfl⟩

theorem face_triangle5_0 : FaceFits .triangle5 0 := by
  refine ⟨_, .line1, rfl, rfl, rfl, fun j hj => ?_⟩
  have hj : j < 2 := hj
  interval_cases j
  · refine ⟨_, _, _, _, _, _, _, rfl, rfl, rfl, rfl, rfl, ref_triangle5_0, ref_line1_0, fun q hq => ?_⟩
    ext i; fin_cases i <;> simp <;> norm_num <;> ring
  · refine ⟨_, _, _, _, _, _, _, rfl, rfl, rfl, rfl, rfl, ref_triangle5_1, ref_line1_1, fun q hq => ?_⟩
    ext i; fin_cases i <;> simp <;> norm_num <;> ring

theorem nodes_triangle5_0 : FaceNodesFit .triangle5 0 := by
  refine ⟨_, .line1, _, rfl, rfl, rfl, rfl, rfl, fun j hj => ?_⟩
  have hj : j < 2 := hj
  interval_cases j
  all_goals exact ⟨_, _, _, _, _, _, rfl, rfl, rfl, rfl, rfl, rfl, rfl⟩

theorem face_triangle5_2 : FaceFits .triangle5 2 := by
  refine ⟨_, .line1, rfl, rfl, rfl, fun j hj => ?_⟩
  have hj : j < 2 := hj
  interval_cases j
  · refine ⟨_, _, _, _, _, _, _, rfl, rfl, rfl, rfl, rfl, ref_triangle5_1, ref_line1_0, fun q hq => ?_⟩
    ext i; fin_cases i <;> simp <;> norm_num <;> ring
  · refine ⟨_, _, _, _, _, _, _, rfl, rfl, rfl, rfl, rfl, ref_triangle5_2, ref_line1_1, fun q hq => ?_⟩
    ext i; fin_cases i <;> simp <;> norm_num <;> ring

theorem nodes_triangle5_2 : FaceNodesFit .triangle5 2 := by
  refine ⟨_, .line1, _, rfl, rfl, rfl, rfl, rfl, fun j hj => ?_⟩
  have hj : j < 2 := hj
  interval_cases j
  all_goals exact ⟨_, _, _, _, _, _, rfl, rfl, rfl, rfl, rfl, rfl, rfl⟩

theorem face_triangle6_0 : FaceFits .triangle6 0 := by
  refine ⟨_, .line1, rfl, rfl, rfl, fun j hj => ?_⟩
  have hj : j < 2 := hj
  interval_cases j
  · refine ⟨_, _, _, _, _, _, _, rfl, rfl, rfl, rfl, rfl, ref_triangle6_0, ref_line1_0, fun q hq => ?_⟩
    ext i; fin_cases i <;> simp <;> norm_num <;> ring
  · refine ⟨_, _, _, _, _, _, _, rfl, rfl, rfl, rfl, rfl, ref_triangle6_1, ref_line1_1, fun q hq => ?_⟩
    ext i; fin_cases i <;> simp <;> norm_num <;> ring

theorem nodes_triangle6_0 : FaceNodesFit .triangle6 0 := by
  refine ⟨_, .line1, _, rfl, rfl, rfl, rfl, rfl, fun j hj => ?_⟩
  have hj : j < 2 := hj
  interval_cases j
  all_goals exact ⟨_, _, _, _, _, _, rfl, rfl, rfl, rfl, rfl, rfl, rfl⟩

theorem face_triangle6_1 : FaceFits .triangle6 1 := by
  refine ⟨_, .line0, rfl, rfl, rfl, fun j hj => ?_⟩
  have hj : j < 1 := hj
  interval_cases j
  · refine ⟨_, _, _, _, _, _, _, rfl, rfl, rfl, rfl, rfl, ref_triangle6_0, ref_line0_0, fun q hq => ?_⟩
    ext i; fin_cases i <;> simp <;> norm_num <;> ring

theorem nodes_triangle6_1 : FaceNodesFit .triangle6 1 := by
  refine ⟨_, .line0, _, rfl, rfl, rfl, rfl, rfl, fun j hj => ?_⟩
  have hj : j < 1 := hj
  interval_cases j
  all_goals exact ⟨_, _, _, _, _, _, rfl, rfl, rfl, rfl, rfl, rfl, rfl⟩

theorem face_triangle7_0 : FaceFits .triangle7 0 := by
  refine ⟨_, .line0, rfl, rfl, rfl, fun j hj => ?_⟩
  have hj : j < 1 := hj
  interval_cases j
  · refine ⟨_, _, _, _, _, _, _, rfl, rfl, rfl, rfl, rfl, ref_triangle7_0, ref_line0_0, fun q hq => ?_⟩
    ext i; fin_cases i <;> simp <;> norm_num <;> ring

theorem nodes_triangle7_0 : FaceNodesFit .triangle7 0 := by
  refine ⟨_, .line0, _, rfl, rfl, rfl, rfl, rfl, fun j hj => ?_⟩
  have hj : j < 1 := hj
  interval_cases j
  all_goals exact ⟨_, _, _, _, _, _, rfl, rfl, rfl, rfl, rfl, rfl, rfl⟩

theorem face_triangle7_1 : FaceFits .triangle7 1 := by
  refine ⟨_, .line1, rfl, rfl, rfl, fun j hj => ?_⟩
  have hj : j < 2 := hj
  interval_cases j
  · refine ⟨_, _, _, _, _, _, _, rfl, rfl, rfl, rfl, rfl, ref_triangle7_0, ref_line1_0, fun q hq => ?_⟩
    ext i; fin_cases i <;> simp <;> norm_num <;> ring
  · refine ⟨_, _, _, _, _, _, _, rfl, rfl, rfl, rfl, rfl, ref_triangle7_1, ref_line1_1, fun q hq => ?_⟩
    ext i; fin_cases i <;> simp <;> norm_num <;> ring

theorem nodes_triangle7_1 : FaceNodesFit .triangle7 1 := by
  refine ⟨_, .line1, _, rfl, rfl, rfl, rfl, rfl, fun j hj => ?_⟩
  have hj : j < 2 := hj
  interval_cases j
  all_goals exact ⟨_, _, _, _, _, _, rfl, rfl, rfl, rfl, rfl, rfl, rfl⟩

theorem face_triangle7_2 : FaceFits .triangle7 2 := by
  refine ⟨_, .line1, rfl, rfl, rfl, fun j hj => ?_⟩
  have hj : j < 2 := hj
  interval_cases j
  · refine ⟨_, _, _, _, _, _, _, rfl, rfl, rfl, rfl, rfl, ref_triangle7_0, ref_line1_0, fun q hq => ?_⟩
    ext i; fin_cases i <;> simp <;> norm_num <;> ring
  · refine ⟨_, _, _, _, _, _, _, rfl, rfl, rfl, rfl, rfl, ref_triangle7_1, ref_line1_1, fun q hq => ?_⟩
    ext i; fin_cases i <;> simp <;> norm_num <;> ring

theorem nodes_triangle7_2 : FaceNodesFit .triangle7 2 := by
  refine ⟨_, .line1, _, rfl, rfl, rfl, rfl, rfl, fun j hj => ?_⟩
  have hj : j < 2 := hj
  interval_cases j
  all_goals exact ⟨_, _, _, _, _, _, rfl, rfl, rfl, rfl, rfl, rfl, rfl⟩

theorem face_triangle8_1 : FaceFits .triangle8 1 := by
  refine ⟨_, .line1, rfl, rfl, rfl, fun j hj => ?_⟩
  have hj : j < 2 := hj
  interval_cases j
  · refine ⟨_, _, _, _, _, _, _, rfl, rfl, rfl, rfl, rfl, ref_triangle8_0, ref_line1_0, fun q hq => ?_⟩
    ext i; fin_cases i <;> simp <;> norm_num <;> ring
  · refine ⟨_, _, _, _, _, _, _, rfl, rfl, rfl, rfl, rfl, ref_triangle8_1, ref_line1_1, fun q hq => ?_⟩
    ext i; fin_cases i <;> simp <;> norm_num <;> ring

theorem nodes_triangle8_1 : FaceNodesFit .triangle8 1 := by
  refine ⟨_, .line1, _, rfl, rfl, rfl, rfl, rfl, fun j hj => ?_⟩
  have hj : j < 2 := hj
  interval_cases j
  all_goals exact ⟨_, _, _, _, _, _, rfl, rfl, rfl, rfl, rfl, rfl, rfl⟩

theorem face_cube0_0 : FaceFits .cube0 0 := by
  refine ⟨_, .square0, rfl, rfl, rfl, fun j hj => ?_⟩
  have hj : j < 1 := hj
  interval_cases j
  · refine ⟨_, _, _, _, _, _, _, rfl, rfl, rfl, rfl, rfl, ref_cube0_0, ref_square0_0, fun q hq => ?_⟩
    ext i; fin_cases i <;> simp <;> norm_num <;> ring

theorem nodes_cube0_0 : FaceNodesFit .cube0 0 := by
  refine ⟨_, .square0, _, rfl, rfl, rfl, rfl, rfl, fun j hj => ?_⟩
  have hj : j < 1 := hj
  interval_cases j
  all_goals exact ⟨_, _, _, _, _, _, rfl, rfl, rfl, rfl, rfl, rfl, rfl⟩

theorem face_cube0_1 : FaceFits .cube0 1 := by
  refine ⟨_, .square0, rfl, rfl, rfl, fun j hj => ?_⟩
  have hj : j < 1 := hj
  interval_cases j
  · refine ⟨_, _, _, _, _, _, _, rfl, rfl, rfl, rfl, rfl, ref_cube0_0, ref_square0_0, fun q hq => ?_⟩
    ext i; fin_cases i <;> simp <;> norm_num <;> ring

theorem nodes_cube0_1 : FaceNodesFit .cube0 1 := by
  refine ⟨_, .square0, _, rfl, rfl, rfl, rfl, rfl, fun j hj => ?_⟩
  have hj : j < 1 := hj
  interval_cases j
  all_goals exact ⟨_, _, _, _, _, _, rfl, rfl, rfl, rfl, rfl, rfl, rfl⟩

theorem face_cube0_2 : FaceFits .cube0 2 := by
  refine ⟨_, .square0, rfl, rfl, rfl, fun j hj => ?_⟩
  have hj : j < 1 := hj
  interval_cases j
  · refine ⟨_, _, _, _, _, _, _, rfl, rfl, rfl, rfl, rfl, ref_cube0_0, ref_square0_0, fun q hq => ?_⟩
    ext i; fin_cases i <;> simp <;> norm_num <;> ring

theorem nodes_cube0_2 : FaceNodesFit .cube0 2 := by
  refine ⟨_, .square0, _, rfl, rfl, rfl, rfl, rfl, fun j hj => ?_⟩
  have hj : j < 1 := hj
  interval_cases j
  all_goals exact ⟨_, _, _, _, _, _, rfl, rfl, rfl, rfl, rfl, rfl, rfl⟩

theorem face_cube0_3 : FaceFits .cube0 3 := by
  refine ⟨_, .square0, rfl, rfl, rfl, fun j hj => ?_⟩
  have hj : j < 1 := hj
  interval_cases j
  · refine ⟨_, _, _, _, _, _, _, rfl, rfl, rfl, rfl, rfl, ref_cube0_0, ref_square0_0, fun q hq => ?_⟩
    ext i; fin_cases i <;> simp <;> norm_num <;> ring

theorem nodes_cube0_3 : FaceNodesFit .cube0 3 := by
  refine ⟨_, .square0, _, rfl, rfl, rfl, rfl, rfl, fun j hj => ?_⟩
  have hj : j < 1 := hj
  interval_cases j
  all_goals exact ⟨_, _, _, _, _, _, rfl, rfl, rfl, rfl, rfl, rfl, rfl⟩

theorem face_cube0_4 : FaceFits .cube0 4 := by
  refine ⟨_, .square0, rfl, rfl, rfl, fun j hj => ?_⟩
  have hj : j < 1 := hj
  interval_cases j
  · refine ⟨_, _, _, _, _, _, _, rfl, rfl, rfl, rfl, rfl, ref_cube0_0, ref_square0_0, fun q hq => ?_⟩
    ext i; fin_cases i <;> simp <;> norm_num <;> ring

theorem nodes_cube0_4 : FaceNodesFit .cube0 4 := by
  refine ⟨_, .square0, _, rfl, rfl, rfl, rfl, rfl, fun j hj => ?_⟩
  have hj : j < 1 := hj
  interval_cases j
  all_goals exact ⟨_, _, _, _, _, _, rfl, rfl, rfl, rfl, rfl, rfl, rfl⟩

theorem face_cube0_5 : FaceFits .cube0 5 := by
  refine ⟨_, .square0, rfl, rfl, rfl, fun j hj => ?_⟩
  have hj : j < 1 := hj
  interval_cases j
  · refine ⟨_, _, _, _, _, _, _, rfl, rfl, rfl, rfl, rfl, ref_cube0_0, ref_square0_0, fun q hq => ?_⟩
    ext i; fin_cases i <;> simp <;> norm_num <;> ring

theorem nodes_cube0_5 : FaceNodesFit .cube0 5 := by
  refine ⟨_, .square0, _, rfl, rfl, rfl, rfl, rfl, fun j hj => ?_⟩
  have hj : j < 1 := hj
  interval_cases j
  all_goals exact ⟨_, _, _, _, _, _, rfl, rfl, rfl, rfl, rfl, rfl, rfl⟩

theorem face_cube1_0 : FaceFits .cube1 0 := by
  refine ⟨_, .square1, rfl, rfl, rfl, fun j hj => ?_⟩
  have hj : j < 2 := hj
  interval_cases j
  · refine ⟨_, _, _, _, _, _, _, rfl, rfl, rfl, rfl, rfl, ref_cube1_0, ref_square1_0, fun q hq => ?_⟩
    ext i; fin_cases i <;> simp <;> norm_num <;> ring
  · refine ⟨_, _, _, _, _, _, _, rfl, rfl, rfl, rfl, rfl, ref_cube1_1, ref_square1_1, fun q hq => ?_⟩
    ext i; fin_cases i <;> simp <;> norm_num <;> ring

theorem nodes_cube1_0 : FaceNodesFit .cube1 0 := by
  refine ⟨_, .square1, _, rfl, rfl, rfl, rfl, rfl, fun j hj => ?_⟩
  have hj : j < 2 := hj
  interval_cases j
  all_goals exact ⟨_, _, _, _, _, _, rfl, rfl, rfl, rfl, rfl, rfl, rfl⟩

theorem face_cube1_1 : FaceFits .cube1 1 := by
  refine ⟨_, .square1, rfl, rfl, rfl, fun j hj => ?_⟩
  have hj : j < 2 := hj
  interval_cases j
  · refine ⟨_, _, _, _, _, _, _, rfl, rfl, rfl, rfl, rfl, ref_cube1_0, ref_square1_0, fun q hq => ?_⟩
    ext i; fin_cases i <;> simp <;> norm_num <;> ring
  · refine ⟨_, _, _, _, _, _, _, rfl, rfl, rfl, rfl, rfl, ref_cube1_1, ref_square1_1, fun q hq => ?_⟩
    ext i; fin_cases i <;> simp <;> norm_num <;> ring

theorem nodes_cube1_1 : FaceNodesFit .cube1 1 := by
  refine ⟨_, .square1, _, rfl, rfl, rfl, rfl, rfl, fun j hj => ?_⟩
  have hj : j < 2 := hj
  interval_cases j
  all_goals exact ⟨_, _, _, _, _, _, rfl, rfl, rfl, rfl, rfl, rfl, rfl⟩

theorem face_cube1_2 : FaceFits .cube1 2 := by
  refine ⟨_, .square0, rfl, rfl, rfl, fun j hj => ?_⟩
  have hj : j < 1 := hj
  interval_cases j
  · refine ⟨_, _, _, _, _, _, _, rfl, rfl, rfl, rfl, rfl, ref_cube1_0, ref_square0_0, fun q hq => ?_⟩
    ext i; fin_cases i <;> simp <;> norm_num <;> ring

theorem nodes_cube1_2 : FaceNodesFit .cube1 2 := by
  refine ⟨_, .square0, _, rfl, rfl, rfl, rfl, rfl, fun j hj => ?_⟩
  have hj : j < 1 := hj
  interval_cases j
  all_goals exact ⟨_, _, _, _, _, _, rfl, rfl, rfl, rfl, rfl, rfl, rfl⟩

theorem face_cube1_3 : FaceFits .cube1 3 := by
  refine ⟨_, .square0, rfl, rfl, rfl, fun j hj => ?_⟩
  have hj : j < 1 := hj
  interval_cases j
  · refine ⟨_, _, _, _, _, _, _, rfl, rfl, rfl, rfl, rfl, ref_cube1_1, ref_square0_0, fun q hq => ?_⟩
    ext i; fin_cases i <;> simp <;> norm_num <;> ring

theorem nodes_cube1_3 : FaceNodesFit .cube1 3 := by
  refine ⟨_, .square0, _, rfl, rfl, rfl, rfl, rfl, fun j hj => ?_⟩
  have hj : j < 1 := hj
  interval_cases j
  all_goals exact ⟨_, _, _, _, _, _, rfl, rfl, rfl, rfl, rfl, rfl, rfl⟩

theorem face_cube1_4 : FaceFits .cube1 4 := by
  refine ⟨_, .square1, rfl, rfl, rfl, fun j hj => ?_⟩
  have hj : j < 2 := hj
  interval_cases j
  · refine ⟨_, _, _, _, _, _, _, rfl, rfl, rfl, rfl, rfl, ref_cube1_0, ref_square1_0, fun q hq => ?_⟩
    ext i; fin_cases i <;> simp <;> norm_num <;> ring
  · refine ⟨_, _, _, _, _, _, _, rfl, rfl, rfl, rfl, rfl, ref_cube1_1, ref_square1_1, fun q hq => ?_⟩
    ext i; fin_cases i <;> simp <;> norm_num <;> ring

theorem nodes_cube1_4 : FaceNodesFit .cube1 4 := by
  refine ⟨_, .square1, _, rfl, rfl, rfl, rfl, rfl, fun j hj => ?_⟩
  have hj : j < 2 := hj
  interval_cases j
  all_goals exact ⟨_, _, _, _, _, _, rfl, rfl, rfl, rfl, rfl, rfl, rfl⟩

theorem face_cube1_5 : FaceFits .cube1 5 := by
  refine ⟨_, .square1, rfl, rfl, rfl, fun j hj => ?_⟩
  have hj : j < 2 := hj
  interval_cases j
  · refine ⟨_, _, _, _, _, _, _, rfl, rfl, rfl, rfl, rfl, ref_cube1_0, ref_square1_0, fun q hq => ?_⟩
    ext i; fin_cases i <;> simp <;> norm_num <;> ring
  · refine ⟨_, _, _, _, _, _, _, rfl, rfl, rfl, rfl, rfl, ref_cube1_1, ref_square1_1, fun q hq => ?_⟩
    ext i; fin_cases i <;> simp <;> norm_num <;> ring

theorem nodes_cube1_5 : FaceNodesFit .cube1 5 := by
  refine ⟨_, .square1, _, rfl, rfl, rfl, rfl, rfl, fun j hj => ?_⟩
  have hj : j < 2 := hj
  interval_cases j
  all_goals exact ⟨_, _, _, _, _, _, rfl, rfl, rfl, rfl, rfl, rfl, rfl⟩

theorem face_cube2_0 : FaceFits .cube2 0 := by
  refine ⟨_, .square2, rfl, rfl, rfl, fun j hj => ?_⟩
  have hj : j < 2 := hj
  interval_cases j
  · refine ⟨_, _, _, _, _, _, _, rfl, rfl, rfl, rfl, rfl, ref_cube2_0, ref_square2_0, fun q hq => ?_⟩
    ext i; fin_cases i <;> simp <;> norm_num <;> ring
  · refine ⟨_, _, _, _, _, _, _, rfl, rfl, rfl, rfl, rfl, ref_cube2_1, ref_square2_1, fun q hq => ?_⟩
    ext i; fin_cases i <;> simp <;> norm_num <;> ring

theorem nodes_cube2_0 : FaceNodesFit .cube2 0 := by
  refine ⟨_, .square2, _, rfl, rfl, rfl, rfl, rfl, fun j hj => ?_⟩
  have hj : j < 2 := hj
  interval_cases j
  all_goals exact ⟨_, _, _, _, _, _, rfl, rfl, rfl, rfl, rfl, rfl, rfl⟩

theorem face_cube2_1 : FaceFits .cube2 1 := by
  refine ⟨_, .square0, rfl, rfl, rfl, fun j hj => ?_⟩
  have hj : j < 1 := hj
  interval_cases j
  · refine ⟨_, _, _, _, _, _, _, rfl, rfl, rfl, rfl, rfl, ref_cube2_0, ref_square0_0, fun q hq => ?_⟩
    ext i; fin_cases i <;> simp <;> norm_num <;> ring

theorem nodes_cube2_1 : FaceNodesFit .cube2 1 := by
  refine ⟨_, .square0, _, rfl, rfl, rfl, rfl, rfl, fun j hj => ?_⟩
  have hj : j < 1 := hj
  interval_cases j
  all_goals exact ⟨_, _, _, _, _, _, rfl, rfl, rfl, rfl, rfl, rfl, rfl⟩

theorem face_cube2_2 : FaceFits .cube2 2 := by
  refine ⟨_, .square1, rfl, rfl, rfl, fun j hj => ?_⟩
  have hj : j < 2 := hj
  interval_cases j
  · refine ⟨_, _, _, _, _, _, _, rfl, rfl, rfl, rfl, rfl, ref_cube2_0, ref_square1_0, fun q hq => ?_⟩
    ext i; fin_cases i <;> simp <;> norm_num <;> ring
  · refine ⟨_, _, _, _, _, _, _, rfl, rfl, rfl, rfl, rfl, ref_cube2_1, ref_square1_1, fun q hq => ?_⟩
    ext i; fin_cases i <;> simp <;> norm_num <;> ring

theorem nodes_cube2_2 : FaceNodesFit .cube2 2 := by
  refine ⟨_, .square1, _, rfl, rfl, rfl, rfl, rfl, fun j hj => ?_⟩
  have hj : j < 2 := hj
  interval_cases j
  all_goals exact ⟨_, _, _, _, _, _, rfl, rfl, rfl, rfl, rfl, rfl, rfl⟩

theorem face_cube2_3 : FaceFits .cube2 3 := by
  refine ⟨_, .square1, rfl, rfl, rfl, fun j hj => ?_⟩
  have hj : j < 2 := hj
  interval_cases j
  · refine ⟨_, _, _, _, _, _, _, rfl, rfl, rfl, rfl, rfl, ref_cube2_0, ref_square1_0, fun q hq => ?_⟩
    ext i; fin_cases i <;> simp <;> norm_num <;> ring
  · refine ⟨_, _, _, _, _, _, _, rfl, rfl, rfl, rfl, rfl, ref_cube2_1, ref_square1_1, fun q hq => ?_⟩
    ext i; fin_cases i <;> simp <;> norm_num <;> ring

theorem nodes_cube2_3 : FaceNodesFit .cube2 3 := by
  refine ⟨_, .square1, _, rfl, rfl, rfl, rfl, rfl, fun j hj => ?_⟩
  have hj : j < 2 := hj
  interval_cases j
  all_goals exact ⟨_, _, _, _, _, _, rfl, rfl, rfl, rfl, rfl, rfl, rfl⟩

theorem face_cube2_4 : FaceFits .cube2 4 := by
  refine ⟨_, .square0, rfl, rfl, rfl, fun j hj => ?_⟩
  have hj : j < 1 := hj
  interval_cases j
  · refine ⟨_, _, _, _, _, _, _, rfl, rfl, rfl, rfl, rfl, ref_cube2_1, ref_square0_0, fun q hq => ?_⟩
    ext i; fin_cases i <;> simp <;> norm_num <;> ring

theorem nodes_cube2_4 : FaceNodesFit .cube2 4 := by
  refine ⟨_, .square0, _, rfl, rfl, rfl, rfl, rfl, fun j hj => ?_⟩
  have hj : j < 1 := hj
  interval_cases j
  all_goals exact ⟨_, _, _, _, _, _, rfl, rfl, rfl, rfl, rfl, rfl, rfl⟩

theorem face_cube2_5 : FaceFits .cube2 5 := by
  refine ⟨_, .square2, rfl, rfl, rfl, fun j hj => ?_⟩
  have hj : j < 2 := hj
  interval_cases j
  · refine ⟨_, _, _, _, _, _, _, rfl, rfl, rfl, rfl, rfl, ref_cube2_0, ref_square2_0, fun q hq => ?_⟩
    ext i; fin_cases i <;> simp <;> norm_num <;> ring
  · refine ⟨_, _, _, _, _, _, _, rfl, rfl, rfl, rfl, rfl, ref_cube2_1, ref_square2_1, fun q hq => ?_⟩
    ext i; fin_cases i <;> simp <;> norm_num <;> ring

theorem nodes_cube2_5 : FaceNodesFit .cube2 5 := by
  refine ⟨_, .square2, _, rfl, rfl, rfl, rfl, rfl, fun j hj => ?_⟩
  have hj : j < 2 := hj
  interval_cases j
  all_goals exact ⟨_, _, _, _, _, _, rfl, rfl, rfl, rfl, rfl, rfl, rfl⟩

theorem face_cube3_0 : FaceFits .cube3 0 := by
  refine ⟨_, .square0, rfl, rfl, rfl, fun j hj => ?_⟩
  have hj : j < 1 := hj
  interval_cases j
  · refine ⟨_, _, _, _, _, _, _, rfl, rfl, rfl, rfl, rfl, ref_cube3_0, ref_square0_0, fun q hq => ?_⟩
    ext i; fin_cases i <;> simp <;> norm_num <;> ring

theorem nodes_cube3_0 : FaceNodesFit .cube3 0 := by
  refine ⟨_, .square0, _, rfl, rfl, rfl, rfl, rfl, fun j hj => ?_⟩
  have hj : j < 1 := hj
  interval_cases j
  all_goals exact ⟨_, _, _, _, _, _, rfl, rfl, rfl, rfl, rfl, rfl, rfl⟩

theorem face_cube3_1 : FaceFits .cube3 1 := by
  refine ⟨_, .square2, rfl, rfl, rfl, fun j hj => ?_⟩
  have hj : j < 2 := hj
  interval_cases j
  · refine ⟨_, _, _, _, _, _, _, rfl, rfl, rfl, rfl, rfl, ref_cube3_0, ref_square2_0, fun q hq => ?_⟩
    ext i; fin_cases i <;> simp <;> norm_num <;> ring
  · refine ⟨_, _, _, _, _, _, _, rfl, rfl, rfl, rfl, rfl, ref_cube3_1, ref_square2_1, fun q hq => ?_⟩
    ext i; fin_cases i <;> simp <;> norm_num <;> ring

theorem nodes_cube3_1 : FaceNodesFit .cube3 1 := by
  refine ⟨_, .square2, _, rfl, rfl, rfl, rfl, rfl, fun j hj => ?_⟩
  have hj : j < 2 := hj
  interval_cases j
  all_goals exact ⟨_, _, _, _, _, _, rfl, rfl, rfl, rfl, rfl, rfl, rfl⟩

theorem face_cube3_2 : FaceFits .cube3 2 := by
  refine ⟨_, .square2, rfl, rfl, rfl, fun j hj => ?_⟩
  have hj : j < 2 := hj
  interval_cases j
  · refine ⟨_, _, _, _, _, _, _, rfl, rfl, rfl, rfl, rfl, ref_cube3_0, ref_square2_0, fun q hq => ?_⟩
    ext i; fin_cases i <;> simp <;> norm_num <;> ring
  · refine ⟨_, _, _, _, _, _, _, rfl, rfl, rfl, rfl, rfl, ref_cube3_1, ref_square2_1, fun q hq => ?_⟩
    ext i; fin_cases i <;> simp <;> norm_num <;> ring

theorem nodes_cube3_2 : FaceNodesFit .cube3 2 := by
  refine ⟨_, .square2, _, rfl, rfl, rfl, rfl, rfl, fun j hj => ?_⟩
  have hj : j < 2 := hj
  interval_cases j
  all_goals exact ⟨_, _, _, _, _, _, rfl, rfl, rfl, rfl, rfl, rfl, rfl⟩

theorem face_cube3_3 : FaceFits .cube3 3 := by
  refine ⟨_, .square2, rfl, rfl, rfl, fun j hj => ?_⟩
  have hj : j < 2 := hj
  interval_cases j
  · refine ⟨_, _, _, _, _, _, _, rfl, rfl, rfl, rfl, rfl, ref_cube3_0, ref_square2_0, fun q hq => ?_⟩
    ext i; fin_cases i <;> simp <;> norm_num <;> ring
  · refine ⟨_, _, _, _, _, _, _, rfl, rfl, rfl, rfl, rfl, ref_cube3_1, ref_square2_1, fun q hq => ?_⟩
    ext i; fin_cases i <;> simp <;> norm_num <;> ring

theorem nodes_cube3_3 : FaceNodesFit .cube3 3 := by
  refine ⟨_, .square2, _, rfl, rfl, rfl, rfl, rfl, fun j hj => ?_⟩
  have hj : j < 2 := hj
  interval_cases j
  all_goals exact ⟨_, _, _, _, _, _, rfl, rfl, rfl, rfl, rfl, rfl, rfl⟩

theorem face_cube3_4 : FaceFits .cube3 4 := by
  refine ⟨_, .square2, rfl, rfl, rfl, fun j hj => ?_⟩
  have hj : j < 2 := hj
  interval_cases j
  · refine ⟨_, _, _, _, _, _, _, rfl, rfl, rfl, rfl, rfl, ref_cube3_0, ref_square2_0, fun q hq => ?_⟩
    ext i; fin_cases i <;> simp <;> norm_num <;> ring
  · refine ⟨_, _, _, _, _, _, _, rfl, rfl, rfl, rfl, rfl, ref_cube3_1, ref_square2_1, fun q hq => ?_⟩
    ext i; fin_cases i <;> simp <;> norm_num <;> ring

theorem nodes_cube3_4 : FaceNodesFit .cube3 4 := by
  refine ⟨_, .square2, _, rfl, rfl, rfl, rfl, rfl, fun j hj => ?_⟩
  have hj : j < 2 := hj
  interval_cases j
  all_goals exact ⟨_, _, _, _, _, _, rfl, rfl, rfl, rfl, rfl, rfl, rfl⟩

theorem face_cube3_5 : FaceFits .cube3 5 := by
  refine ⟨_, .square0, rfl, rfl, rfl, fun j hj => ?_⟩
  have hj : j < 1 := hj
  interval_cases j
  · refine ⟨_, _, _, _, _, _, _, rfl, rfl, rfl, rfl, rfl, ref_cube3_1, ref_square0_0, fun q hq => ?_⟩
    ext i; fin_cases i <;> simp <;> norm_num <;> ring

theorem nodes_cube3_5 : FaceNodesFit .cube3 5 := by
  refine ⟨_, .square0, _, rfl, rfl, rfl, rfl, rfl, fun j hj => ?_⟩
  have hj : j < 1 := hj
  interval_cases j
  all_goals exact ⟨_, _, _, _, _, _, rfl, rfl, rfl, rfl, rfl, rfl, rfl⟩

theorem face_cube4_0 : FaceFits .cube4 0 := by
  refine ⟨_, .square3, rfl, rfl, rfl, fun j hj => ?_⟩
  have hj : j < 4 := hj
  interval_cases j
  · refine ⟨_, _, _, _, _, _, _, rfl, rfl, rfl, rfl, rfl, ref_cube4_0, ref_square3_0, fun q hq => ?_⟩
    ext i; fin_cases i <;> simp <;> norm_num <;> ring
  · refine ⟨_, _, _, _, _, _, _, rfl, rfl, rfl, rfl, rfl, ref_cube4_1, ref_square3_1, fun q hq => ?_⟩
    ext i; fin_cases i <;> simp <;> norm_num <;> ring
  · refine ⟨_, _, _, _, _, _, _, rfl, rfl, rfl, rfl, rfl, ref_cube4_2, ref_square3_2, fun q hq => ?_⟩
    ext i; fin_cases i <;> simp <;> norm_num <;> ring
  · refine ⟨_, _, _, _, _, _, _, rfl, rfl, rfl, rfl, rfl, ref_cube4_3, ref_square3_3, fun q hq => ?_⟩
    ext i; fin_cases i <;> simp <;> norm_num <;> ring

theorem nodes_cube4_0 : FaceNodesFit .cube4 0 := by
  refine ⟨_, .square3, _, rfl, rfl, rfl, rfl, rfl, fun j hj => ?_⟩
  have hj : j < 4 := hj
  interval_cases j
  all_goals exact ⟨_, _, _, _, _, _, rfl, rfl, rfl, rfl, rfl, rfl, rfl⟩

theorem face_cube4_1 : FaceFits .cube4 1 := by
  refine ⟨_, .square1, rfl, rfl, rfl, fun j hj => ?_⟩
  have hj : j < 2 := hj
  interval_cases j
  · refine ⟨_, _, _, _, _, _, _, rfl, rfl, rfl, rfl, rfl, ref_cube4_0, ref_square1_0, fun q hq => ?_⟩
    ext i; fin_cases i <;> simp <;> norm_num <;> ring
  · refine ⟨_, _, _, _, _, _, _, rfl, rfl, rfl, rfl, rfl, ref_cube4_1, ref_square1_1, fun q hq => ?_⟩
    ext i; fin_cases i <;> simp <;> norm_num <;> ring

theorem nodes_cube4_1 : FaceNodesFit .cube4 1 := by
  refine ⟨_, .square1, _, rfl, rfl, rfl, rfl, rfl, fun j hj => ?_⟩
  have hj : j < 2 := hj
  interval_cases j
  all_goals exact ⟨_, _, _, _, _, _, rfl, rfl, rfl, rfl, rfl, rfl, rfl⟩

theorem face_cube4_2 : FaceFits .cube4 2 := by
  refine ⟨_, .square1, rfl, rfl, rfl, fun j hj => ?_⟩
  have hj : j < 2 := hj
  interval_cases j
  · refine ⟨_, _, _, _, _, _, _, rfl, rfl, rfl, rfl, rfl, ref_cube4_0, ref_square1_0, fun q hq => ?_⟩
    ext i; fin_cases i <;> simp <;> norm_num <;> ring
  · refine ⟨_, _, _, _, _, _, _, rfl, rfl, rfl, rfl, rfl, ref_cube4_2, ref_square1_1, fun q hq => ?_⟩
    ext i; fin_cases i <;> simp <;> norm_num <;> ring

theorem nodes_cube4_2 : FaceNodesFit .cube4 2 := by
  refine ⟨_, .square1, _, rfl, rfl, rfl, rfl, rfl, fun j hj => ?_⟩
  have hj : j < 2 := hj
  interval_cases j
  all_goals exact ⟨_, _, _, _, _, _, rfl, rfl, rfl, rfl, rfl, rfl, rfl⟩

theorem face_cube4_3 : FaceFits .cube4 3 := by
  refine ⟨_, .square1, rfl, rfl, rfl, fun j hj => ?_⟩
  have hj : j < 2 := hj
  interval_cases j
  · refine ⟨_, _, _, _, _, _, _, rfl, rfl, rfl, rfl, rfl, ref_cube4_1, ref_square1_0, fun q hq => ?_⟩
    ext i; fin_cases i <;> simp <;> norm_num <;> ring
  · refine ⟨_, _, _, _, _, _, _, rfl, rfl, rfl, rfl, rfl, ref_cube4_3, ref_square1_1, fun q hq => ?_⟩
    ext i; fin_cases i <;> simp <;> norm_num <;> ring

theorem nodes_cube4_3 : FaceNodesFit .cube4 3 := by
  refine ⟨_, .square1, _, rfl, rfl, rfl, rfl, rfl, fun j hj => ?_⟩
  have hj : j < 2 := hj
  interval_cases j
  all_goals exact ⟨_, _, _, _, _, _, rfl, rfl, rfl, rfl, rfl, rfl, rfl⟩

theorem face_cube4_4 : FaceFits .cube4 4 := by
  refine ⟨_, .square1, rfl, rfl, rfl, fun j hj => ?_⟩
  have hj : j < 2 := hj
  interval_cases j
  · refine ⟨_, _, _, _, _, _, _, rfl, rfl, rfl, rfl, rfl, ref_cube4_2, ref_square1_0, fun q hq => ?_⟩
    ext i; fin_cases i <;> simp <;> norm_num <;> ring
  · refine ⟨_, _, _, _, _, _, _, rfl, rfl, rfl, rfl, rfl, ref_cube4_3, ref_square1_1, fun q hq => ?_⟩
    ext i; fin_cases i <;> simp <;> norm_num <;> ring

theorem nodes_cube4_4 : FaceNodesFit .cube4 4 := by
  refine ⟨_, .square1, _, rfl, rfl, rfl, rfl, rfl, fun j hj => ?_⟩
  have hj : j < 2 := hj
  interval_cases j
  all_goals exact ⟨_, _, _, _, _, _, rfl, rfl, rfl, rfl, rfl, rfl, rfl⟩

theorem face_cube4_5 : FaceFits .cube4 5 := by
  refine ⟨_, .square3, rfl, rfl, rfl, fun j hj => ?_⟩
  have hj : j < 4 := hj
  interval_cases j
  · refine ⟨_, _, _, _, _, _, _, rfl, rfl, rfl, rfl, rfl, ref_cube4_0, ref_square3_0, fun q hq => ?_⟩
    ext i; fin_cases i <;> simp <;> norm_num <;> ring
  · refine ⟨_, _, _, _, _, _, _, rfl, rfl, rfl, rfl, rfl, ref_cube4_1, ref_square3_1, fun q hq => ?_⟩
    ext i; fin_cases i <;> simp <;> norm_num <;> ring
  · refine ⟨_, _, _, _, _, _, _, rfl, rfl, rfl, rfl, rfl, ref_cube4_2, ref_square3_2, fun q hq => ?_⟩
    ext i; fin_cases i <;> simp <;> norm_num <;> ring
  · refine ⟨_, _, _, _, _, _, _, rfl, rfl, rfl, rfl, rfl, ref_cube4_3, ref_square3_3, fun q hq => ?_⟩
    ext i; fin_cases i <;> simp <;> norm_num <;> ring

theorem nodes_cube4_5 : FaceNodesFit .cube4 5 := by
  refine ⟨_, .square3, _, rfl, rfl, rfl, rfl, rfl, fun j hj => ?_⟩
  have hj : j < 4 := hj
  interval_cases j
  all_goals exact ⟨_, _, _, _, _, _, rfl, rfl, rfl, rfl, rfl, rfl, rfl⟩

theorem face_cube7_1 : FaceFits .cube7 1 := by
  refine ⟨_, .square3, rfl, rfl, rfl, fun j hj => ?_⟩
  have hj : j < 4 := hj
  interval_cases j
  · refine ⟨_, _, _, _, _, _, _, rfl, rfl, rfl, rfl, rfl, ref_cube7_0, ref_square3_0, fun q hq => ?_⟩
    simp only [place_cube, place_prism]
    ext i; fin_cases i <;> simp <;> norm_num <;> ring
  · refine ⟨_, _, _, _, _, _, _, rfl, rfl, rfl, rfl, rfl, ref_cube7_1, ref_square3_1, fun q hq => ?_⟩
    simp only [place_cube, place_prism]
    ext i; fin_cases i <;> simp <;> norm_num <;> ring
  · refine ⟨_, _, _, _, _, _, _, rfl, rfl, rfl, rfl, rfl, ref_cube7_4, ref_square3_2, fun q hq => ?_⟩
    simp only [place_cube, place_prism]
    ext i; fin_cases i <;> simp <;> norm_num <;> ring
  · refine ⟨_, _, _, _, _, _, _, rfl, rfl, rfl, rfl, rfl, ref_cube7_5, ref_square3_3, fun q hq => ?_⟩
    simp only [place_cube, place_prism]
    ext i; fin_cases i <;> simp <;> norm_num <;> ring

theorem nodes_cube7_1 : FaceNodesFit .cube7 1 := by
  refine ⟨_, .square3, _, rfl, rfl, rfl, rfl, rfl, fun j hj => ?_⟩
  have hj : j < 4 := hj
  interval_cases j
  all_goals exact ⟨_, _, _, _, _, _, rfl, rfl, rfl, rfl, rfl, rfl, rfl⟩

theorem face_cube7_4 : FaceFits .cube7 4 := by
  refine ⟨_, .square3, rfl, rfl, rfl, fun j hj => ?_⟩
  have hj : j < 4 := hj
  interval_cases j
  · refine ⟨_, _, _, _, _, _, _, rfl, rfl, rfl, rfl, rfl, ref_cube7_2, ref_square3_0, fun q hq => ?_⟩
    simp only [place_cube, place_prism]
    ext i; fin_cases i <;> simp <;> norm_num <;> ring
  · refine ⟨_, _, _, _, _, _, _, rfl, rfl, rfl, rfl, rfl, ref_cube7_3, ref_square3_1, fun q hq => ?_⟩
    simp only [place_cube, place_prism]
    ext i; fin_cases i <;> simp <;> norm_num <;> ring
  · refine ⟨_, _, _, _, _, _, _, rfl, rfl, rfl, rfl, rfl, ref_cube7_6, ref_square3_2, fun q hq => ?_⟩
    simp only [place_cube, place_prism]
    ext i; fin_cases i <;> simp <;> norm_num <;> ring
  · refine ⟨_, _, _, _, _, _, _, rfl, rfl, rfl, rfl, rfl, ref_cube7_7, ref_square3_3, fun q hq => ?_⟩
    simp only [place_cube, place_prism]
    ext i; fin_cases i <;> simp <;> norm_num <;> ring

theorem face_tetrahedron0_0 : FaceFits .tetrahedron0 0 := by
  refine ⟨_, .triangle0, rfl, rfl, rfl, fun j hj => ?_⟩
  have hj : j < 1 := hj
  interval_cases j
  · refine ⟨_, _, _, _, _, _, _, rfl, rfl, rfl, rfl, rfl, ref_tetrahedron0_0, ref_triangle0_0, fun q hq => ?_⟩
    ext i; fin_cases i <;> simp <;> norm_num <;> ring

theorem nodes_tetrahedron0_0 : FaceNodesFit .tetrahedron0 0 := by
  refine ⟨_, .triangle0, _, rfl, rfl, rfl, rfl, rfl, fun j hj => ?_⟩
  have hj : j < 1 := hj
  interval_cases j
  all_goals exact ⟨_, _, _, _, _, _, rfl, rfl, rfl, rfl, rfl, rfl, rfl⟩

theorem face_tetrahedron0_1 : FaceFits .tetrahedron0 1 := by
  refine ⟨_, .triangle0, rfl, rfl, rfl, fun j hj => ?_⟩
  have hj : j < 1 := hj
  interval_cases j
  · refine ⟨_, _, _, _, _, _, _, rfl, rfl, rfl, rfl, rfl, ref_tetrahedron0_0, ref_triangle0_0, fun q hq => ?_⟩
    ext i; fin_cases i <;> simp <;> norm_num <;> ring

theorem nodes_tetrahedron0_1 : FaceNodesFit .tetrahedron0 1 := by
  refine ⟨_, .triangle0, _, rfl, rfl, rfl, rfl, rfl, fun j hj => ?_⟩
  have hj : j < 1 := hj
  interval_cases j
  all_goals exact ⟨_, _, _, _, _, _, rfl, rfl, rfl, rfl, rfl, rfl, rfl⟩

theorem face_tetrahedron0_2 : FaceFits .tetrahedron0 2 := by
  refine ⟨_, .triangle0, rfl, rfl, rfl, fun j hj => ?_⟩
  have hj : j < 1 := hj
  interval_cases j
  · refine ⟨_, _, _, _, _, _, _, rfl, rfl, rfl, rfl, rfl, ref_tetrahedron0_0, ref_triangle0_0, fun q hq => ?_⟩
    ext i; fin_cases i <;> simp <;> norm_num <;> ring

theorem nodes_tetrahedron0_2 : FaceNodesFit .tetrahedron0 2 := by
  refine ⟨_, .triangle0, _, rfl, rfl, rfl, rfl, rfl, fun j hj => ?_⟩
  have hj : j < 1 := hj
  interval_cases j
  all_goals exact ⟨_, _, _, _, _, _, rfl, rfl, rfl, rfl, rfl, rfl, rfl⟩

theorem face_tetrahedron0_3 : FaceFits .tetrahedron0 3 := by
  refine ⟨_, .triangle0, rfl, rfl, rfl, fun j hj => ?_⟩
  have hj : j < 1 := hj
  interval_cases j
  · refine ⟨_, _, _, _, _, _, _, rfl, rfl, rfl, rfl, rfl, ref_tetrahedron0_0, ref_triangle0_0, fun q hq => ?_⟩
    ext i; fin_cases i <;> simp <;> norm_num <;> ring

theorem nodes_tetrahedron0_3 : FaceNodesFit .tetrahedron0 3 := by
  refine ⟨_, .triangle0, _, rfl, rfl, rfl, rfl, rfl, fun j hj => ?_⟩
  have hj : j < 1 := hj
  interval_cases j
  all_goals exact ⟨_, _, _, _, _, _, rfl, rfl, rfl, rfl, rfl, rfl, rfl⟩

theorem face_pyramid0_0 : FaceFits .pyramid0 0 := by
  refine ⟨_, .square0, rfl, rfl, rfl, fun j hj => ?_⟩
  have hj : j < 1 := hj
  interval_cases j
  · refine ⟨_, _, _, _, _, _, _, rfl, rfl, rfl, rfl, rfl, ref_pyramid0_0, ref_square0_0, fun q hq => ?_⟩
    ext i; fin_cases i <;> simp <;> norm_num <;> ring

theorem nodes_pyramid0_0 : FaceNodesFit .pyramid0 0 := by
  refine ⟨_, .square0, _, rfl, rfl, rfl, rfl, rfl, fun j hj => ?_⟩
  have hj : j < 1 := hj
  interval_cases j
  all_goals exact ⟨_, _, _, _, _, _, rfl, rfl, rfl, rfl, rfl, rfl, rfl⟩

theorem face_pyramid0_1 : FaceFits .pyramid0 1 := by
  refine ⟨_, .triangle0, rfl, rfl, rfl, fun j hj => ?_⟩
  have hj : j < 1 := hj
  interval_cases j
  · refine ⟨_, _, _, _, _, _, _, rfl, rfl, rfl, rfl, rfl, ref_pyramid0_0, ref_triangle0_0, fun q hq => ?_⟩
    ext i; fin_cases i <;> simp <;> norm_num <;> ring

theorem nodes_pyramid0_1 : FaceNodesFit .pyramid0 1 := by
  refine ⟨_, .triangle0, _, rfl, rfl, rfl, rfl, rfl, fun j hj => ?_⟩
  have hj : j < 1 := hj
  interval_cases j
  all_goals exact ⟨_, _, _, _, _, _, rfl, rfl, rfl, rfl, rfl, rfl, rfl⟩

theorem face_pyramid0_2 : FaceFits .pyramid0 2 := by
  refine ⟨_, .triangle0, rfl, rfl, rfl, fun j hj => ?_⟩
  have hj : j < 1 := hj
  interval_cases j
  · refine ⟨_, _, _, _, _, _, _, rfl, rfl, rfl, rfl, rfl, ref_pyramid0_0, ref_triangle0_0, fun q hq => ?_⟩
    ext i; fin_cases i <;> simp <;> norm_num <;> ring

theorem nodes_pyramid0_2 : FaceNodesFit .pyramid0 2 := by
  refine ⟨_, .triangle0, _, rfl, rfl, rfl, rfl, rfl, fun j hj => ?_⟩
  have hj : j < 1 := hj
  interval_cases j
  all_goals exact ⟨_, _, _, _, _, _, rfl, rfl, rfl, rfl, rfl, rfl, rfl⟩

theorem face_pyramid0_3 : FaceFits .pyramid0 3 := by
  refine ⟨_, .triangle0, rfl, rfl, rfl, fun j hj => ?_⟩
  have hj : j < 1 := hj
  interval_cases j
  · refine ⟨_, _, _, _, _, _, _, rfl, rfl, rfl, rfl, rfl, ref_pyramid0_0, ref_triangle0_0, fun q hq => ?_⟩
    ext i; fin_cases i <;> simp <;> norm_num <;> ring

theorem nodes_pyramid0_3 : FaceNodesFit .pyramid0 3 := by
  refine ⟨_, .triangle0, _, rfl, rfl, rfl, rfl, rfl, fun j hj => ?_⟩
  have hj : j < 1 := hj
  interval_cases j
  all_goals exact ⟨_, _, _, _, _, _, rfl, rfl, rfl, rfl, rfl, rfl, rfl⟩

theorem face_pyramid0_4 : FaceFits .pyramid0 4 := by
  refine ⟨_, .triangle0, rfl, rfl, rfl, fun j hj => ?_⟩
  have hj : j < 1 := hj
  interval_cases j
  · refine ⟨_, _, _, _, _, _, _, rfl, rfl, rfl, rfl, rfl, ref_pyramid0_0, ref_triangle0_0, fun q hq => ?_⟩
    ext i; fin_cases i <;> simp <;> norm_num <;> ring

theorem nodes_pyramid0_4 : FaceNodesFit .pyramid0 4 := by
  refine ⟨_, .triangle0, _, rfl, rfl, rfl, rfl, rfl, fun j hj => ?_⟩
  have hj : j < 1 := hj
  interval_cases j
  all_goals exact ⟨_, _, _, _, _, _, rfl, rfl, rfl, rfl, rfl, rfl, rfl⟩

theorem face_prism0_0 : FaceFits .prism0 0 := by
  refine ⟨_, .triangle0, rfl, rfl, rfl, fun j hj => ?_⟩
  have hj : j < 1 := hj
  interval_cases j
  · refine ⟨_, _, _, _, _, _, _, rfl, rfl, rfl, rfl, rfl, ref_prism0_0, ref_triangle0_0, fun q hq => ?_⟩
    ext i; fin_cases i <;> simp <;> norm_num <;> ring

theorem nodes_prism0_0 : FaceNodesFit .prism0 0 := by
  refine ⟨_, .triangle0, _, rfl, rfl, rfl, rfl, rfl, fun j hj => ?_⟩
  have hj : j < 1 := hj
  interval_cases j
  all_goals exact ⟨_, _, _, _, _, _, rfl, rfl, rfl, rfl, rfl, rfl, rfl⟩

theorem face_prism0_1 : FaceFits .prism0 1 := by
  refine ⟨_, .triangle0, rfl, rfl, rfl, fun j hj => ?_⟩
  have hj : j < 1 := hj
  interval_cases j
  · refine ⟨_, _, _, _, _, _, _, rfl, rfl, rfl, rfl, rfl, ref_prism0_0, ref_triangle0_0, fun q hq => ?_⟩
    ext i; fin_cases i <;> simp <;> norm_num <;> ring

theorem nodes_prism0_1 : FaceNodesFit .prism0 1 := by
  refine ⟨_, .triangle0, _, rfl, rfl, rfl, rfl, rfl, fun j hj => ?_⟩
  have hj : j < 1 := hj
  interval_cases j
  all_goals exact ⟨_, _, _, _, _, _, rfl, rfl, rfl, rfl, rfl, rfl, rfl⟩

theorem face_prism0_2 : FaceFits .prism0 2 := by
  refine ⟨_, .square0, rfl, rfl, rfl, fun j hj => ?_⟩
  have hj : j < 1 := hj
  interval_cases j
  · refine ⟨_, _, _, _, _, _, _, rfl, rfl, rfl, rfl, rfl, ref_prism0_0, ref_square0_0, fun q hq => ?_⟩
    ext i; fin_cases i <;> simp <;> norm_num <;> ring

theorem nodes_prism0_2 : FaceNodesFit .prism0 2 := by
  refine ⟨_, .square0, _, rfl, rfl, rfl, rfl, rfl, fun j hj => ?_⟩
  have hj : j < 1 := hj
  interval_cases j
  all_goals exact ⟨_, _, _, _, _, _, rfl, rfl, rfl, rfl, rfl, rfl, rfl⟩

theorem face_prism0_3 : FaceFits .prism0 3 := by
  refine ⟨_, .square0, rfl, rfl, rfl, fun j hj => ?_⟩
  have hj : j < 1 := hj
  interval_cases j
  · refine ⟨_, _, _, _, _, _, _, rfl, rfl, rfl, rfl, rfl, ref_prism0_0, ref_square0_0, fun q hq => ?_⟩
    ext i; fin_cases i <;> simp <;> norm_num <;> ring

theorem nodes_prism0_3 : FaceNodesFit .prism0 3 := by
  refine ⟨_, .square0, _, rfl, rfl, rfl, rfl, rfl, fun j hj => ?_⟩
  have hj : j < 1 := hj
  interval_cases j
  all_goals exact ⟨_, _, _, _, _, _, rfl, rfl, rfl, rfl, rfl, rfl, rfl⟩

theorem face_prism0_4 : FaceFits .prism0 4 := by
  refine ⟨_, .square0, rfl, rfl, rfl, fun j hj => ?_⟩
  have hj : j < 1 := hj
  interval_cases j
  · refine ⟨_, _, _, _, _, _, _, rfl, rfl, rfl, rfl, rfl, ref_prism0_0, ref_square0_0, fun q hq => ?_⟩
    ext i; fin_cases i <;> simp <;> norm_num <;> ring

theorem nodes_prism0_4 : FaceNodesFit .prism0 4 := by
  refine ⟨_, .square0, _, rfl, rfl, rfl, rfl, rfl, fun j hj => ?_⟩
  have hj : j < 1 := hj
  interval_cases j
  all_goals exact ⟨_, _, _, _, _, _, rfl, rfl, rfl, rfl, rfl, rfl, rfl⟩

theorem face_prism1_0 : FaceFits .prism1 0 := by
  refine ⟨_, .triangle2, rfl, rfl, rfl, fun j hj => ?_⟩
  have hj : j < 2 := hj
  interval_cases j
  · refine ⟨_, _, _, _, _, _, _, rfl, rfl, rfl, rfl, rfl, ref_prism1_0, ref_triangle2_0, fun q hq => ?_⟩
    ext i; fin_cases i <;> simp <;> norm_num <;> ring
  · refine ⟨_, _, _, _, _, _, _, rfl, rfl, rfl, rfl, rfl, ref_prism1_1, ref_triangle2_1, fun q hq => ?_⟩
    ext i; fin_cases i <;> simp <;> norm_num <;> ring

theorem nodes_prism1_0 : FaceNodesFit .prism1 0 := by
  refine ⟨_, .triangle2, _, rfl, rfl, rfl, rfl, rfl, fun j hj => ?_⟩
  have hj : j < 2 := hj
  interval_cases j
  all_goals exact ⟨_, _, _, _, _, _, rfl, rfl, rfl, rfl, rfl, rfl, rfl⟩

theorem face_prism1_1 : FaceFits .prism1 1 := by
  refine ⟨_, .triangle1, rfl, rfl, rfl, fun j hj => ?_⟩
  have hj : j < 2 := hj
  interval_cases j
  · refine ⟨_, _, _, _, _, _, _, rfl, rfl, rfl, rfl, rfl, ref_prism1_0, ref_triangle1_0, fun q hq => ?_⟩
    ext i; fin_cases i <;> simp <;> norm_num <;> ring
  · refine ⟨_, _, _, _, _, _, _, rfl, rfl, rfl, rfl, rfl, ref_prism1_1, ref_triangle1_1, fun q hq => ?_⟩
    ext i; fin_cases i <;> simp <;> norm_num <;> ring

theorem nodes_prism1_1 : FaceNodesFit .prism1 1 := by
  refine ⟨_, .triangle1, _, rfl, rfl, rfl, rfl, rfl, fun j hj => ?_⟩
  have hj : j < 2 := hj
  interval_cases j
  all_goals exact ⟨_, _, _, _, _, _, rfl, rfl, rfl, rfl, rfl, rfl, rfl⟩

theorem face_prism1_2 : FaceFits .prism1 2 := by
  refine ⟨_, .square0, rfl, rfl, rfl, fun j hj => ?_⟩
  have hj : j < 1 := hj
  interval_cases j
  · refine ⟨_, _, _, _, _, _, _, rfl, rfl, rfl, rfl, rfl, ref_prism1_0, ref_square0_0, fun q hq => ?_⟩
    ext i; fin_cases i <;> simp <;> norm_num <;> ring

theorem nodes_prism1_2 : FaceNodesFit .prism1 2 := by
  refine ⟨_, .square0, _, rfl, rfl, rfl, rfl, rfl, fun j hj => ?_⟩
  have hj : j < 1 := hj
  interval_cases j
  all_goals exact ⟨_, _, _, _, _, _, rfl, rfl, rfl, rfl, rfl, rfl, rfl⟩

theorem face_prism1_3 : FaceFits .prism1 3 := by
  refine ⟨_, .square1, rfl, rfl, rfl, fun j hj => ?_⟩
  have hj : j < 2 := hj
  interval_cases j
  · refine ⟨_, _, _, _, _, _, _, rfl, rfl, rfl, rfl, rfl, ref_prism1_0, ref_square1_0, fun q hq => ?_⟩
    ext i; fin_cases i <;> simp <;> norm_num <;> ring
  · refine ⟨_, _, _, _, _, _, _, rfl, rfl, rfl, rfl, rfl, ref_prism1_1, ref_square1_1, fun q hq => ?_⟩
    ext i; fin_cases i <;> simp <;> norm_num <;> ring

theorem nodes_prism1_3 : FaceNodesFit .prism1 3 := by
  refine ⟨_, .square1, _, rfl, rfl, rfl, rfl, rfl, fun j hj => ?_⟩
  have hj : j < 2 := hj
  interval_cases j
  all_goals exact ⟨_, _, _, _, _, _, rfl, rfl, rfl, rfl, rfl, rfl, rfl⟩

theorem face_prism1_4 : FaceFits .prism1 4 := by
  refine ⟨_, .square0, rfl, rfl, rfl, fun j hj => ?_⟩
  have hj : j < 1 := hj
  interval_cases j
  · refine ⟨_, _, _, _, _, _, _, rfl, rfl, rfl, rfl, rfl, ref_prism1_1, ref_square0_0, fun q hq => ?_⟩
    ext i; fin_cases i <;> simp <;> norm_num <;> ring

theorem nodes_prism1_4 : FaceNodesFit .prism1 4 := by
  refine ⟨_, .square0, _, rfl, rfl, rfl, rfl, rfl, fun j hj => ?_⟩
  have hj : j < 1 := hj
  interval_cases j
  all_goals exact ⟨_, _, _, _, _, _, rfl, rfl, rfl, rfl, rfl, rfl, rfl⟩

theorem face_prism2_0 : FaceFits .prism2 0 := by
  refine ⟨_, .triangle1, rfl, rfl, rfl, fun j hj => ?_⟩
  have hj : j < 2 := hj
  interval_cases j
  · refine ⟨_, _, _, _, _, _, _, rfl, rfl, rfl, rfl, rfl, ref_prism2_0, ref_triangle1_0, fun q hq => ?_⟩
    ext i; fin_cases i <;> simp <;> norm_num <;> ring
  · refine ⟨_, _, _, _, _, _, _, rfl, rfl, rfl, rfl, rfl, ref_prism2_1, ref_triangle1_1, fun q hq => ?_⟩
    ext i; fin_cases i <;> simp <;> norm_num <;> ring

theorem nodes_prism2_0 : FaceNodesFit .prism2 0 := by
  refine ⟨_, .triangle1, _, rfl, rfl, rfl, rfl, rfl, fun j hj => ?_⟩
  have hj : j < 2 := hj
  interval_cases j
  all_goals exact ⟨_, _, _, _, _, _, rfl, rfl, rfl, rfl, rfl, rfl, rfl⟩

theorem face_prism2_1 : FaceFits .prism2 1 := by
  refine ⟨_, .triangle2, rfl, rfl, rfl, fun j hj => ?_⟩
  have hj : j < 2 := hj
  interval_cases j
  · refine ⟨_, _, _, _, _, _, _, rfl, rfl, rfl, rfl, rfl, ref_prism2_0, ref_triangle2_0, fun q hq => ?_⟩
    ext i; fin_cases i <;> simp <;> norm_num <;> ring
  · refine ⟨_, _, _, _, _, _, _, rfl, rfl, rfl, rfl, rfl, ref_prism2_1, ref_triangle2_1, fun q hq => ?_⟩
    ext i; fin_cases i <;> simp <;> norm_num <;> ring

theorem nodes_prism2_1 : FaceNodesFit .prism2 1 := by
  refine ⟨_, .triangle2, _, rfl, rfl, rfl, rfl, rfl, fun j hj => ?_⟩
  have hj : j < 2 := hj
  interval_cases j
  all_goals exact ⟨_, _, _, _, _, _, rfl, rfl, rfl, rfl, rfl, rfl, rfl⟩

theorem face_prism2_3 : FaceFits .prism2 3 := by
  refine ⟨_, .square0, rfl, rfl, rfl, fun j hj => ?_⟩
  have hj : j < 1 := hj
  interval_cases j
  · refine ⟨_, _, _, _, _, _, _, rfl, rfl, rfl, rfl, rfl, ref_prism2_0, ref_square0_0, fun q hq => ?_⟩
    ext i; fin_cases i <;> simp <;> norm_num <;> ring

theorem nodes_prism2_3 : FaceNodesFit .prism2 3 := by
  refine ⟨_, .square0, _, rfl, rfl, rfl, rfl, rfl, fun j hj => ?_⟩
  have hj : j < 1 := hj
  interval_cases j
  all_goals exact ⟨_, _, _, _, _, _, rfl, rfl, rfl, rfl, rfl, rfl, rfl⟩

theorem face_prism2_4 : FaceFits .prism2 4 := by
  refine ⟨_, .square0, rfl, rfl, rfl, fun j hj => ?_⟩
  have hj : j < 1 := hj
  interval_cases j
  · refine ⟨_, _, _, _, _, _, _, rfl, rfl, rfl, rfl, rfl, ref_prism2_1, ref_square0_0, fun q hq => ?_⟩
    ext i; fin_cases i <;> simp <;> norm_num <;> ring

theorem nodes_prism2_4 : FaceNodesFit .prism2 4 := by
  refine ⟨_, .square0, _, rfl, rfl, rfl, rfl, rfl, fun j hj => ?_⟩
  have hj : j < 1 := hj
  interval_cases j
  all_goals exact ⟨_, _, _, _, _, _, rfl, rfl, rfl, rfl, rfl, rfl, rfl⟩

theorem face_prism3_0 : FaceFits .prism3 0 := by
  refine ⟨_, .triangle3, rfl, rfl, rfl, fun j hj => ?_⟩
  have hj : j < 2 := hj
  interval_cases j
  · refine ⟨_, _, _, _, _, _, _, rfl, rfl, rfl, rfl, rfl, ref_prism3_0, ref_triangle3_0, fun q hq => ?_⟩
    ext i; fin_cases i <;> simp <;> norm_num <;> ring
  · refine ⟨_, _, _, _, _, _, _, rfl, rfl, rfl, rfl, rfl, ref_prism3_1, ref_triangle3_1, fun q hq => ?_⟩
    ext i; fin_cases i <;> simp <;> norm_num <;> ring

theorem nodes_prism3_0 : FaceNodesFit .prism3 0 := by
  refine ⟨_, .triangle3, _, rfl, rfl, rfl, rfl, rfl, fun j hj => ?_⟩
  have hj : j < 2 := hj
  interval_cases j
  all_goals exact ⟨_, _, _, _, _, _, rfl, rfl, rfl, rfl, rfl, rfl, rfl⟩

theorem face_prism3_2 : FaceFits .prism3 2 := by
  refine ⟨_, .square0, rfl, rfl, rfl, fun j hj => ?_⟩
  have hj : j < 1 := hj
  interval_cases j
  · refine ⟨_, _, _, _, _, _, _, rfl, rfl, rfl, rfl, rfl, ref_prism3_0, ref_square0_0, fun q hq => ?_⟩
    ext i; fin_cases i <;> simp <;> norm_num <;> ring

theorem nodes_prism3_2 : FaceNodesFit .prism3 2 := by
  refine ⟨_, .square0, _, rfl, rfl, rfl, rfl, rfl, fun j hj => ?_⟩
  have hj : j < 1 := hj
  interval_cases j
  all_goals exact ⟨_, _, _, _, _, _, rfl, rfl, rfl, rfl, rfl, rfl, rfl⟩

theorem face_prism3_3 : FaceFits .prism3 3 := by
  refine ⟨_, .square0, rfl, rfl, rfl, fun j hj => ?_⟩
  have hj : j < 1 := hj
  interval_cases j
  · refine ⟨_, _, _, _, _, _, _, rfl, rfl, rfl, rfl, rfl, ref_prism3_1, ref_square0_0, fun q hq => ?_⟩
    ext i; fin_cases i <;> simp <;> norm_num <;> ring

theorem nodes_prism3_3 : FaceNodesFit .prism3 3 := by
  refine ⟨_, .square0, _, rfl, rfl, rfl, rfl, rfl, fun j hj => ?_⟩
  have hj : j < 1 := hj
  interval_cases j
  all_goals exact ⟨_, _, _, _, _, _, rfl, rfl, rfl, rfl, rfl, rfl, rfl⟩

theorem face_prism4_1 : FaceFits .prism4 1 := by
  refine ⟨_, .triangle4, rfl, rfl, rfl, fun j hj => ?_⟩
  have hj : j < 4 := hj
  interval_cases j
  · refine ⟨_, _, _, _, _, _, _, rfl, rfl, rfl, rfl, rfl, ref_prism4_0, ref_triangle4_0, fun q hq => ?_⟩
    ext i; fin_cases i <;> simp <;> norm_num <;> ring
  · refine ⟨_, _, _, _, _, _, _, rfl, rfl, rfl, rfl, rfl, ref_prism4_1, ref_triangle4_1, fun q hq => ?_⟩
    ext i; fin_cases i <;> simp <;> norm_num <;> ring
  · refine ⟨_, _, _, _, _, _, _, rfl, rfl, rfl, rfl, rfl, ref_prism4_2, ref_triangle4_2, fun q hq => ?_⟩
    ext i; fin_cases i <;> simp <;> norm_num <;> ring
  · refine ⟨_, _, _, _, _, _, _, rfl, rfl, rfl, rfl, rfl, ref_prism4_3, ref_triangle4_3, fun q hq => ?_⟩
    ext i; fin_cases i <;> simp <;> norm_num <;> ring

theorem nodes_prism4_1 : FaceNodesFit .prism4 1 := by
  refine ⟨_, .triangle4, _, rfl, rfl, rfl, rfl, rfl, fun j hj => ?_⟩
  have hj : j < 4 := hj
  interval_cases j
  all_goals exact ⟨_, _, _, _, _, _, rfl, rfl, rfl, rfl, rfl, rfl, rfl⟩

theorem face_prism4_4 : FaceFits .prism4 4 := by
  refine ⟨_, .square1, rfl, rfl, rfl, fun j hj => ?_⟩
  have hj : j < 2 := hj
  interval_cases j
  · refine ⟨_, _, _, _, _, _, _, rfl, rfl, rfl, rfl, rfl, ref_prism4_1, ref_square1_0, fun q hq => ?_⟩
    ext i; fin_cases i <;> simp <;> norm_num <;> ring
  · refine ⟨_, _, _, _, _, _, _, rfl, rfl, rfl, rfl, rfl, ref_prism4_2, ref_square1_1, fun q hq => ?_⟩
    ext i; fin_cases i <;> simp <;> norm_num <;> ring

theorem nodes_prism4_4 : FaceNodesFit .prism4 4 := by
  refine ⟨_, .square1, _, rfl, rfl, rfl, rfl, rfl, fun j hj => ?_⟩
  have hj : j < 2 := hj
  interval_cases j
  all_goals exact ⟨_, _, _, _, _, _, rfl, rfl, rfl, rfl, rfl, rfl, rfl⟩

theorem face_prism5_0 : FaceFits .prism5 0 := by
  refine ⟨_, .triangle0, rfl, rfl, rfl, fun j hj => ?_⟩
  have hj : j < 1 := hj
  interval_cases j
  · refine ⟨_, _, _, _, _, _, _, rfl, rfl, rfl, rfl, rfl, ref_prism5_0, ref_triangle0_0, fun q hq => ?_⟩
    simp only [place_cube, place_prism]
    ext i; fin_cases i <;> simp <;> norm_num <;> ring

theorem nodes_prism5_0 : FaceNodesFit .prism5 0 := by
  refine ⟨_, .triangle0, _, rfl, rfl, rfl, rfl, rfl, fun j hj => ?_⟩
  have hj : j < 1 := hj
  interval_cases j
  all_goals exact ⟨_, _, _, _, _, _, rfl, rfl, rfl, rfl, rfl, rfl, rfl⟩

theorem face_prism5_1 : FaceFits .prism5 1 := by
  refine ⟨_, .triangle0, rfl, rfl, rfl, fun j hj => ?_⟩
  have hj : j < 1 := hj
  interval_cases j
  · refine ⟨_, _, _, _, _, _, _, rfl, rfl, rfl, rfl, rfl, ref_prism5_1, ref_triangle0_0, fun q hq => ?_⟩
    simp only [place_cube, place_prism]
    ext i; fin_cases i <;> simp <;> norm_num <;> ring

theorem nodes_prism5_1 : FaceNodesFit .prism5 1 := by
  refine ⟨_, .triangle0, _, rfl, rfl, rfl, rfl, rfl, fun j hj => ?_⟩
  have hj : j < 1 := hj
  interval_cases j
  all_goals exact ⟨_, _, _, _, _, _, rfl, rfl, rfl, rfl, rfl, rfl, rfl⟩

theorem nodes_prism5_2 : FaceNodesFit .prism5 2 := by
  refine ⟨_, .square2, _, rfl, rfl, rfl, rfl, rfl, fun j hj => ?_⟩
  have hj : j < 2 := hj
  interval_cases j
  all_goals exact ⟨_, _, _, _, _, _, rfl, rfl, rfl, rfl, rfl, rfl, rfl⟩

theorem nodes_prism5_3 : FaceNodesFit .prism5 3 := by
  refine ⟨_, .square2, _, rfl, rfl, rfl, rfl, rfl, fun j hj => ?_⟩
  have hj : j < 2 := hj
  interval_cases j
  all_goals exact ⟨_, _, _, _, _, _, rfl, rfl, rfl, rfl, rfl, rfl, rfl⟩

theorem nodes_prism5_4 : FaceNodesFit .prism5 4 := by
  refine ⟨_, .square2, _, rfl, rfl, rfl, rfl, rfl, fun j hj => ?_⟩
  have hj : j < 2 := hj
  interval_cases j
  all_goals exact ⟨_, _, _, _, _, _, rfl, rfl, rfl, rfl, rfl, rfl, rfl⟩

end Verif.Refine
