import Verif.Refine.FacesFit
import Verif.Refine.FacesWrong
import Verif.Refine.Jacobian

/-! # Refinements that do not tile and transformations that do not fit -/
set_option linter.all false
namespace Verif.Refine
open Verif.RefGeometry (Pt Geom Face)

theorem mem_interior_cube (x y z : ℝ) (h : (-1 < x ∧ x < 1) ∧ (-1 < y ∧ y < 1) ∧ -1 < z ∧ z < 1) :
    (![x, y, z] : Pt 3) ∈ interior Shape.cube.body := by
  have hO : IsOpen {q : Pt 3 | (-1 < q 0 ∧ q 0 < 1) ∧ (-1 < q 1 ∧ q 1 < 1) ∧ -1 < q 2 ∧ q 2 < 1} := by
    have c := fun i : Fin 3 => (continuous_apply (A := fun _ => ℝ) i)
    exact ((isOpen_lt continuous_const (c 0)).inter (isOpen_lt (c 0) continuous_const)).inter
      (((isOpen_lt continuous_const (c 1)).inter (isOpen_lt (c 1) continuous_const)).inter
        ((isOpen_lt continuous_const (c 2)).inter (isOpen_lt (c 2) continuous_const)))
  refine interior_maximal ?_ hO h
  rintro q ⟨⟨a, b⟩, ⟨c, d⟩, e, f⟩
  exact (body_cube q).2 ⟨a.le, b.le, c.le, d.le, e.le, f.le⟩

theorem mem_interior_prism (x y z : ℝ) (h : (0 < x ∧ 0 < y ∧ x + y < 1) ∧ -1 < z ∧ z < 1) :
    (![x, y, z] : Pt 3) ∈ interior Shape.prism.body := by
  have hO : IsOpen {q : Pt 3 | (0 < q 0 ∧ 0 < q 1 ∧ q 0 + q 1 < 1) ∧ -1 < q 2 ∧ q 2 < 1} := by
    have c := fun i : Fin 3 => (continuous_apply (A := fun _ => ℝ) i)
    exact ((isOpen_lt continuous_const (c 0)).inter ((isOpen_lt continuous_const (c 1)).inter
      (isOpen_lt ((c 0).add (c 1)) continuous_const))).inter
        ((isOpen_lt continuous_const (c 2)).inter (isOpen_lt (c 2) continuous_const))
  refine interior_maximal ?_ hO h
  rintro q ⟨⟨a, b, c⟩, e, f⟩
  exact ⟨e.le, f.le, a.le, by linarith, b.le, by linarith⟩

theorem tiles_cube5 : ¬ Tiles .cube5 := by
  rintro ⟨sub, c, h, t⟩
  obtain ⟨a, b⟩ := h 1 (by show 1 < 4; norm_num)
  obtain ⟨a', b'⟩ := h 3 (by show 3 < 4; norm_num)
  have a : Shape.cube = sub 1 := Option.some.inj a
  have a' : Shape.cube = sub 3 := Option.some.inj a'
  have b := Option.some.inj (ref_cube5_1.symm.trans b)
  have b' := Option.some.inj (ref_cube5_3.symm.trans b')
  have hp : (![-1/2, 0, 1/2] : Pt 3) ∈ interior (sub 1).body := by
    rw [← a]; exact mem_interior_cube _ _ _ (by norm_num)
  have hq : (![0, -1/2, -1/2] : Pt 3) ∈ (sub 3).body := by
    rw [← a', body_cube]; simp; try norm_num
  have e := (t.once 1 (by show 1 < 4; norm_num) 3 (by show 3 < 4; norm_num) _ hp _ hq ?_)
  · have := congrFun e.2 0
    norm_num at this
  · simp only [← b, ← b', place_cube]
    ext i; fin_cases i <;> simp <;> norm_num

theorem tiles_cube6 : ¬ Tiles .cube6 := by
  rintro ⟨sub, c, h, t⟩
  obtain ⟨a, b⟩ := h 3 (by show 3 < 4; norm_num)
  obtain ⟨a', b'⟩ := h 1 (by show 1 < 4; norm_num)
  have a : Shape.cube = sub 3 := Option.some.inj a
  have a' : Shape.cube = sub 1 := Option.some.inj a'
  have b := Option.some.inj (ref_cube6_3.symm.trans b)
  have b' := Option.some.inj (ref_cube6_1.symm.trans b')
  have hp : (![0, -1/3, -1/3] : Pt 3) ∈ interior (sub 3).body := by
    rw [← a]; exact mem_interior_cube _ _ _ (by norm_num)
  have hq : (![-2/3, 1, 1/3] : Pt 3) ∈ (sub 1).body := by
    rw [← a', body_cube]; simp; try norm_num
  have e := (t.once 3 (by show 3 < 4; norm_num) 1 (by show 1 < 4; norm_num) _ hp _ hq ?_)
  · have := congrFun e.2 0
    norm_num at this
  · simp only [← b, ← b', place_cube]
    ext i; fin_cases i <;> simp <;> norm_num

theorem tiles_cube7 : ¬ Tiles .cube7 := by
  rintro ⟨sub, c, h, t⟩
  obtain ⟨a, b⟩ := h 0 (by show 0 < 8; norm_num)
  obtain ⟨a', b'⟩ := h 0 (by show 0 < 8; norm_num)
  have a : Shape.cube = sub 0 := Option.some.inj a
  have a' : Shape.cube = sub 0 := Option.some.inj a'
  have b := Option.some.inj (ref_cube7_0.symm.trans b)
  have b' := Option.some.inj (ref_cube7_0.symm.trans b')
  have hp : (![0, 0, 0] : Pt 3) ∈ interior (sub 0).body := by
    rw [← a]; exact mem_interior_cube _ _ _ (by norm_num)
  have hq : (![-1, 0, 1] : Pt 3) ∈ (sub 0).body := by
    rw [← a', body_cube]; simp; try norm_num
  have e := (t.once 0 (by show 0 < 8; norm_num) 0 (by show 0 < 8; norm_num) _ hp _ hq ?_)
  · have := congrFun e.2 0
    norm_num at this
  · simp only [← b, ← b', place_cube]
    ext i; fin_cases i <;> simp <;> norm_num

theorem tiles_prism5 : ¬ Tiles .prism5 := by
  rintro ⟨sub, c, h, t⟩
  obtain ⟨a, b⟩ := h 0 (by show 0 < 2; norm_num)
  obtain ⟨a', b'⟩ := h 0 (by show 0 < 2; norm_num)
  have a : Shape.prism = sub 0 := Option.some.inj a
  have a' : Shape.prism = sub 0 := Option.some.inj a'
  have b := Option.some.inj (ref_prism5_0.symm.trans b)
  have b' := Option.some.inj (ref_prism5_0.symm.trans b')
  have hp : (![1/4, 1/3, 0] : Pt 3) ∈ interior (sub 0).body := by
    rw [← a]; exact mem_interior_prism _ _ _ (by norm_num)
  have hq : (![1/3, 1/4, 0] : Pt 3) ∈ (sub 0).body := by
    rw [← a']; exact interior_subset (mem_interior_prism _ _ _ (by norm_num))
  have e := (t.once 0 (by show 0 < 2; norm_num) 0 (by show 0 < 2; norm_num) _ hp _ hq ?_)
  · have := congrFun e.2 0
    norm_num at this
  · simp only [← b, ← b', place_prism]
    ext i; fin_cases i <;> simp <;> norm_num

theorem placed_point0 : TransformFits .point0 := by
  intro s hs
  have hs : s < 1 := hs
  interval_cases s
  · exact ⟨_, _, rfl, ref_point0_0, fun p hp => rfl⟩

theorem placed_line0 : TransformFits .line0 := by
  intro s hs
  have hs : s < 1 := hs
  interval_cases s
  · exact ⟨_, _, rfl, ref_line0_0, fun p hp => rfl⟩

theorem placed_line1 : TransformFits .line1 := by
  intro s hs
  have hs : s < 2 := hs
  interval_cases s
  · exact ⟨_, _, rfl, ref_line1_0, fun p hp => rfl⟩
  · exact ⟨_, _, rfl, ref_line1_1, fun p hp => rfl⟩

theorem placed_square0 : TransformFits .square0 := by
  intro s hs
  have hs : s < 1 := hs
  interval_cases s
  · exact ⟨_, _, rfl, ref_square0_0, fun p hp => rfl⟩

theorem placed_square1 : TransformFits .square1 := by
  intro s hs
  have hs : s < 2 := hs
  interval_cases s
  · exact ⟨_, _, rfl, ref_square1_0, fun p hp => rfl⟩
  · exact ⟨_, _, rfl, ref_square1_1, fun p hp => rfl⟩

theorem placed_square2 : TransformFits .square2 := by
  intro s hs
  have hs : s < 2 := hs
  interval_cases s
  · exact ⟨_, _, rfl, ref_square2_0, fun p hp => rfl⟩
  · exact ⟨_, _, rfl, ref_square2_1, fun p hp => rfl⟩

theorem placed_square3 : TransformFits .square3 := by
  intro s hs
  have hs : s < 4 := hs
  interval_cases s
  · exact ⟨_, _, rfl, ref_square3_0, fun p hp => rfl⟩
  · exact ⟨_, _, rfl, ref_square3_1, fun p hp => rfl⟩
  · exact ⟨_, _, rfl, ref_square3_2, fun p hp => rfl⟩
  · exact ⟨_, _, rfl, ref_square3_3, fun p hp => rfl⟩

theorem placed_triangle0 : TransformFits .triangle0 := by
  intro s hs
  have hs : s < 1 := hs
  interval_cases s
  · exact ⟨_, _, rfl, ref_triangle0_0, fun p hp => rfl⟩

theorem placed_triangle1 : ¬ TransformFits .triangle1 := by
  intro h
  obtain ⟨sh, c, a, b, h⟩ := h 1 (by show 1 < 2; norm_num)
  obtain rfl := Option.some.inj a
  obtain rfl := Option.some.inj (ref_triangle1_1.symm.trans b)
  have := congrFun (Option.some.inj (h ![0, 1] (by simp [Shape.body, Shape.geom, RefGeometry.triangleG]))) 0
  simp at this
  try norm_num at this

theorem placed_triangle2 : ¬ TransformFits .triangle2 := by
  intro h
  obtain ⟨sh, c, a, b, h⟩ := h 1 (by show 1 < 2; norm_num)
  obtain rfl := Option.some.inj a
  obtain rfl := Option.some.inj (ref_triangle2_1.symm.trans b)
  have := congrFun (Option.some.inj (h ![1, 0] (by simp [Shape.body, Shape.geom, RefGeometry.triangleG]))) 1
  simp at this
  try norm_num at this

theorem placed_triangle3 : ¬ TransformFits .triangle3 := by
  intro h
  obtain ⟨sh, c, a, b, h⟩ := h 0 (by show 0 < 2; norm_num)
  obtain rfl := Option.some.inj a
  obtain rfl := Option.some.inj (ref_triangle3_0.symm.trans b)
  have := congrFun (Option.some.inj (h ![1, 0] (by simp [Shape.body, Shape.geom, RefGeometry.triangleG]))) 0
  simp at this
  try norm_num at this

theorem placed_triangle4 : TransformFits .triangle4 := by
  intro s hs
  have hs : s < 4 := hs
  interval_cases s
  · exact ⟨_, _, rfl, ref_triangle4_0, fun p hp => rfl⟩
  · exact ⟨_, _, rfl, ref_triangle4_1, fun p hp => rfl⟩
  · exact ⟨_, _, rfl, ref_triangle4_2, fun p hp => rfl⟩
  · exact ⟨_, _, rfl, ref_triangle4_3, fun p hp => rfl⟩

theorem placed_triangle5 : TransformFits .triangle5 := by
  intro s hs
  have hs : s < 3 := hs
  interval_cases s
  · exact ⟨_, _, rfl, ref_triangle5_0, fun p hp => rfl⟩
  · exact ⟨_, _, rfl, ref_triangle5_1, fun p hp => rfl⟩
  · exact ⟨_, _, rfl, ref_triangle5_2, fun p hp => rfl⟩

theorem placed_triangle6 : TransformFits .triangle6 := by
  intro s hs
  have hs : s < 2 := hs
  interval_cases s
  · exact ⟨_, _, rfl, ref_triangle6_0, fun p hp => rfl⟩
  · exact ⟨_, _, rfl, ref_triangle6_1, fun p hp => rfl⟩

theorem placed_triangle7 : TransformFits .triangle7 := by
  intro s hs
  have hs : s < 2 := hs
  interval_cases s
  · exact ⟨_, _, rfl, ref_triangle7_0, fun p hp => rfl⟩
  · exact ⟨_, _, rfl, ref_triangle7_1, fun p hp => rfl⟩

theorem placed_triangle8 : TransformFits .triangle8 := by
  intro s hs
  have hs : s < 2 := hs
  interval_cases s
  · exact ⟨_, _, rfl, ref_triangle8_0, fun p hp => rfl⟩
  · exact ⟨_, _, rfl, ref_triangle8_1, fun p hp => rfl⟩

theorem placed_cube0 : TransformFits .cube0 := by
  intro s hs
  have hs : s < 1 := hs
  interval_cases s
  · exact ⟨_, _, rfl, ref_cube0_0, fun p hp => rfl⟩

theorem placed_cube1 : TransformFits .cube1 := by
  intro s hs
  have hs : s < 2 := hs
  interval_cases s
  · exact ⟨_, _, rfl, ref_cube1_0, fun p hp => rfl⟩
  · exact ⟨_, _, rfl, ref_cube1_1, fun p hp => rfl⟩

theorem placed_cube2 : TransformFits .cube2 := by
  intro s hs
  have hs : s < 2 := hs
  interval_cases s
  · exact ⟨_, _, rfl, ref_cube2_0, fun p hp => rfl⟩
  · exact ⟨_, _, rfl, ref_cube2_1, fun p hp => rfl⟩

theorem placed_cube3 : TransformFits .cube3 := by
  intro s hs
  have hs : s < 2 := hs
  interval_cases s
  · exact ⟨_, _, rfl, ref_cube3_0, fun p hp => rfl⟩
  · exact ⟨_, _, rfl, ref_cube3_1, fun p hp => rfl⟩

theorem placed_cube4 : TransformFits .cube4 := by
  intro s hs
  have hs : s < 4 := hs
  interval_cases s
  · exact ⟨_, _, rfl, ref_cube4_0, fun p hp => rfl⟩
  · exact ⟨_, _, rfl, ref_cube4_1, fun p hp => rfl⟩
  · exact ⟨_, _, rfl, ref_cube4_2, fun p hp => rfl⟩
  · exact ⟨_, _, rfl, ref_cube4_3, fun p hp => rfl⟩

theorem placed_cube5 : ¬ TransformFits .cube5 := by
  intro h
  obtain ⟨sh, c, a, b, h⟩ := h 0 (by show 0 < 4; norm_num)
  obtain rfl := Option.some.inj a
  obtain rfl := Option.some.inj (ref_cube5_0.symm.trans b)
  have := congrFun (Option.some.inj (h ![1, 1, -1] (by simp [Shape.body, Shape.geom, RefGeometry.cubeG]))) 1
  simp only [place_cube, place_prism] at this
  simp at this
  try norm_num at this

theorem placed_cube6 : ¬ TransformFits .cube6 := by
  intro h
  obtain ⟨sh, c, a, b, h⟩ := h 0 (by show 0 < 4; norm_num)
  obtain rfl := Option.some.inj a
  obtain rfl := Option.some.inj (ref_cube6_0.symm.trans b)
  have := congrFun (Option.some.inj (h ![1, 1, -1] (by simp [Shape.body, Shape.geom, RefGeometry.cubeG]))) 0
  simp only [place_cube, place_prism] at this
  simp at this
  try norm_num at this

theorem placed_cube7 : ¬ TransformFits .cube7 := by
  intro h
  obtain ⟨sh, c, a, b, h⟩ := h 0 (by show 0 < 8; norm_num)
  obtain rfl := Option.some.inj a
  obtain rfl := Option.some.inj (ref_cube7_0.symm.trans b)
  have := congrFun (Option.some.inj (h ![1, 1, -1] (by simp [Shape.body, Shape.geom, RefGeometry.cubeG]))) 0
  simp only [place_cube, place_prism] at this
  simp at this
  try norm_num at this

theorem placed_tetrahedron0 : TransformFits .tetrahedron0 := by
  intro s hs
  have hs : s < 1 := hs
  interval_cases s
  · exact ⟨_, _, rfl, ref_tetrahedron0_0, fun p hp => rfl⟩

theorem placed_pyramid0 : TransformFits .pyramid0 := by
  intro s hs
  have hs : s < 1 := hs
  interval_cases s
  · exact ⟨_, _, rfl, ref_pyramid0_0, fun p hp => rfl⟩

theorem placed_prism0 : TransformFits .prism0 := by
  intro s hs
  have hs : s < 1 := hs
  interval_cases s
  · exact ⟨_, _, rfl, ref_prism0_0, fun p hp => rfl⟩

theorem placed_prism1 : ¬ TransformFits .prism1 := by
  intro h
  obtain ⟨sh, c, a, b, h⟩ := h 1 (by show 1 < 2; norm_num)
  obtain rfl := Option.some.inj a
  obtain rfl := Option.some.inj (ref_prism1_1.symm.trans b)
  have := congrFun (Option.some.inj (h ![0, 1, -1] (by simp [Shape.body, Shape.geom, RefGeometry.prismG]))) 0
  simp at this
  try norm_num at this

theorem placed_prism2 : ¬ TransformFits .prism2 := by
  intro h
  obtain ⟨sh, c, a, b, h⟩ := h 1 (by show 1 < 2; norm_num)
  obtain rfl := Option.some.inj a
  obtain rfl := Option.some.inj (ref_prism2_1.symm.trans b)
  have := congrFun (Option.some.inj (h ![1, 0, -1] (by simp [Shape.body, Shape.geom, RefGeometry.prismG]))) 1
  simp at this
  try norm_num at this

theorem placed_prism3 : TransformFits .prism3 := by
  intro s hs
  have hs : s < 2 := hs
  interval_cases s
  · exact ⟨_, _, rfl, ref_prism3_0, fun p hp => rfl⟩
  · exact ⟨_, _, rfl, ref_prism3_1, fun p hp => rfl⟩

theorem placed_prism4 : TransformFits .prism4 := by
  intro s hs
  have hs : s < 4 := hs
  interval_cases s
  · exact ⟨_, _, rfl, ref_prism4_0, fun p hp => rfl⟩
  · exact ⟨_, _, rfl, ref_prism4_1, fun p hp => rfl⟩
  · exact ⟨_, _, rfl, ref_prism4_2, fun p hp => rfl⟩
  · exact ⟨_, _, rfl, ref_prism4_3, fun p hp => rfl⟩

theorem placed_prism5 : ¬ TransformFits .prism5 := by
  intro h
  obtain ⟨sh, c, a, b, h⟩ := h 0 (by show 0 < 2; norm_num)
  obtain rfl := Option.some.inj a
  obtain rfl := Option.some.inj (ref_prism5_0.symm.trans b)
  have := congrFun (Option.some.inj (h ![1, 0, 1] (by simp [Shape.body, Shape.geom, RefGeometry.prismG]))) 0
  simp only [place_cube, place_prism] at this
  simp at this
  try norm_num at this

theorem placed_prism6 : TransformFits .prism6 := by
  intro s hs
  have hs : s < 3 := hs
  interval_cases s
  · exact ⟨_, _, rfl, ref_prism6_0, fun p hp => rfl⟩
  · exact ⟨_, _, rfl, ref_prism6_1, fun p hp => rfl⟩
  · exact ⟨_, _, rfl, ref_prism6_2, fun p hp => rfl⟩

theorem placed_prism7 : TransformFits .prism7 := by
  intro s hs
  have hs : s < 2 := hs
  interval_cases s
  · exact ⟨_, _, rfl, ref_prism7_0, fun p hp => rfl⟩
  · exact ⟨_, _, rfl, ref_prism7_1, fun p hp => rfl⟩

theorem placed_prism8 : TransformFits .prism8 := by
  intro s hs
  have hs : s < 2 := hs
  interval_cases s
  · exact ⟨_, _, rfl, ref_prism8_0, fun p hp => rfl⟩
  · exact ⟨_, _, rfl, ref_prism8_1, fun p hp => rfl⟩

theorem placed_prism9 : TransformFits .prism9 := by
  intro s hs
  have hs : s < 2 := hs
  interval_cases s
  · exact ⟨_, _, rfl, ref_prism9_0, fun p hp => rfl⟩
  · exact ⟨_, _, rfl, ref_prism9_1, fun p hp => rfl⟩

theorem follows_point0 : ChildrenFollow .point0 := by
  intro V _ _ P s hs
  have hs : s < 1 := hs
  interval_cases s
  · exact ⟨_, ref_point0_0, follow_point0_0 P⟩

theorem follows_line0 : ChildrenFollow .line0 := by
  intro V _ _ P s hs
  have hs : s < 1 := hs
  interval_cases s
  · exact ⟨_, ref_line0_0, follow_line0_0 P⟩

theorem follows_line1 : ChildrenFollow .line1 := by
  intro V _ _ P s hs
  have hs : s < 2 := hs
  interval_cases s
  · exact ⟨_, ref_line1_0, follow_line1_0 P⟩
  · exact ⟨_, ref_line1_1, follow_line1_1 P⟩

theorem follows_square0 : ChildrenFollow .square0 := by
  intro V _ _ P s hs
  have hs : s < 1 := hs
  interval_cases s
  · exact ⟨_, ref_square0_0, follow_square0_0 P⟩

theorem follows_square1 : ChildrenFollow .square1 := by
  intro V _ _ P s hs
  have hs : s < 2 := hs
  interval_cases s
  · exact ⟨_, ref_square1_0, follow_square1_0 P⟩
  · exact ⟨_, ref_square1_1, follow_square1_1 P⟩

theorem follows_square2 : ChildrenFollow .square2 := by
  intro V _ _ P s hs
  have hs : s < 2 := hs
  interval_cases s
  · exact ⟨_, ref_square2_0, follow_square2_0 P⟩
  · exact ⟨_, ref_square2_1, follow_square2_1 P⟩

theorem follows_square3 : ChildrenFollow .square3 := by
  intro V _ _ P s hs
  have hs : s < 4 := hs
  interval_cases s
  · exact ⟨_, ref_square3_0, follow_square3_0 P⟩
  · exact ⟨_, ref_square3_1, follow_square3_1 P⟩
  · exact ⟨_, ref_square3_2, follow_square3_2 P⟩
  · exact ⟨_, ref_square3_3, follow_square3_3 P⟩

theorem follows_triangle0 : ChildrenFollow .triangle0 := by
  intro V _ _ P s hs
  have hs : s < 1 := hs
  interval_cases s
  · exact ⟨_, ref_triangle0_0, follow_triangle0_0 P⟩

theorem follows_triangle1 : ChildrenFollow .triangle1 := by
  intro V _ _ P s hs
  have hs : s < 2 := hs
  interval_cases s
  · exact ⟨_, ref_triangle1_0, follow_triangle1_0 P⟩
  · exact ⟨_, ref_triangle1_1, follow_triangle1_1 P⟩

theorem follows_triangle2 : ChildrenFollow .triangle2 := by
  intro V _ _ P s hs
  have hs : s < 2 := hs
  interval_cases s
  · exact ⟨_, ref_triangle2_0, follow_triangle2_0 P⟩
  · exact ⟨_, ref_triangle2_1, follow_triangle2_1 P⟩

theorem follows_triangle3 : ChildrenFollow .triangle3 := by
  intro V _ _ P s hs
  have hs : s < 2 := hs
  interval_cases s
  · exact ⟨_, ref_triangle3_0, follow_triangle3_0 P⟩
  · exact ⟨_, ref_triangle3_1, follow_triangle3_1 P⟩

theorem follows_triangle4 : ChildrenFollow .triangle4 := by
  intro V _ _ P s hs
  have hs : s < 4 := hs
  interval_cases s
  · exact ⟨_, ref_triangle4_0, follow_triangle4_0 P⟩
  · exact ⟨_, ref_triangle4_1, follow_triangle4_1 P⟩
  · exact ⟨_, ref_triangle4_2, follow_triangle4_2 P⟩
  · exact ⟨_, ref_triangle4_3, follow_triangle4_3 P⟩

theorem follows_triangle5 : ChildrenFollow .triangle5 := by
  intro V _ _ P s hs
  have hs : s < 3 := hs
  interval_cases s
  · exact ⟨_, ref_triangle5_0, follow_triangle5_0 P⟩
  · exact ⟨_, ref_triangle5_1, follow_triangle5_1 P⟩
  · exact ⟨_, ref_triangle5_2, follow_triangle5_2 P⟩

theorem follows_triangle6 : ChildrenFollow .triangle6 := by
  intro V _ _ P s hs
  have hs : s < 2 := hs
  interval_cases s
  · exact ⟨_, ref_triangle6_0, follow_triangle6_0 P⟩
  · exact ⟨_, ref_triangle6_1, follow_triangle6_1 P⟩

theorem follows_triangle7 : ChildrenFollow .triangle7 := by
  intro V _ _ P s hs
  have hs : s < 2 := hs
  interval_cases s
  · exact ⟨_, ref_triangle7_0, follow_triangle7_0 P⟩
  · exact ⟨_, ref_triangle7_1, follow_triangle7_1 P⟩

theorem follows_triangle8 : ChildrenFollow .triangle8 := by
  intro V _ _ P s hs
  have hs : s < 2 := hs
  interval_cases s
  · exact ⟨_, ref_triangle8_0, follow_triangle8_0 P⟩
  · exact ⟨_, ref_triangle8_1, follow_triangle8_1 P⟩

theorem follows_cube0 : ChildrenFollow .cube0 := by
  intro V _ _ P s hs
  have hs : s < 1 := hs
  interval_cases s
  · exact ⟨_, ref_cube0_0, follow_cube0_0 P⟩

theorem follows_cube1 : ChildrenFollow .cube1 := by
  intro V _ _ P s hs
  have hs : s < 2 := hs
  interval_cases s
  · exact ⟨_, ref_cube1_0, follow_cube1_0 P⟩
  · exact ⟨_, ref_cube1_1, follow_cube1_1 P⟩

theorem follows_cube2 : ChildrenFollow .cube2 := by
  intro V _ _ P s hs
  have hs : s < 2 := hs
  interval_cases s
  · exact ⟨_, ref_cube2_0, follow_cube2_0 P⟩
  · exact ⟨_, ref_cube2_1, follow_cube2_1 P⟩

theorem follows_cube3 : ChildrenFollow .cube3 := by
  intro V _ _ P s hs
  have hs : s < 2 := hs
  interval_cases s
  · exact ⟨_, ref_cube3_0, follow_cube3_0 P⟩
  · exact ⟨_, ref_cube3_1, follow_cube3_1 P⟩

theorem follows_cube4 : ChildrenFollow .cube4 := by
  intro V _ _ P s hs
  have hs : s < 4 := hs
  interval_cases s
  · exact ⟨_, ref_cube4_0, follow_cube4_0 P⟩
  · exact ⟨_, ref_cube4_1, follow_cube4_1 P⟩
  · exact ⟨_, ref_cube4_2, follow_cube4_2 P⟩
  · exact ⟨_, ref_cube4_3, follow_cube4_3 P⟩

theorem follows_tetrahedron0 : ChildrenFollow .tetrahedron0 := by
  intro V _ _ P s hs
  have hs : s < 1 := hs
  interval_cases s
  · exact ⟨_, ref_tetrahedron0_0, follow_tetrahedron0_0 P⟩

theorem follows_pyramid0 : ChildrenFollow .pyramid0 := by
  intro V _ _ P s hs
  have hs : s < 1 := hs
  interval_cases s
  · exact ⟨_, ref_pyramid0_0, follow_pyramid0_0 P⟩

theorem follows_prism0 : ChildrenFollow .prism0 := by
  intro V _ _ P s hs
  have hs : s < 1 := hs
  interval_cases s
  · exact ⟨_, ref_prism0_0, follow_prism0_0 P⟩

theorem follows_prism1 : ChildrenFollow .prism1 := by
  intro V _ _ P s hs
  have hs : s < 2 := hs
  interval_cases s
  · exact ⟨_, ref_prism1_0, follow_prism1_0 P⟩
  · exact ⟨_, ref_prism1_1, follow_prism1_1 P⟩

theorem follows_prism2 : ChildrenFollow .prism2 := by
  intro V _ _ P s hs
  have hs : s < 2 := hs
  interval_cases s
  · exact ⟨_, ref_prism2_0, follow_prism2_0 P⟩
  · exact ⟨_, ref_prism2_1, follow_prism2_1 P⟩

theorem follows_prism3 : ChildrenFollow .prism3 := by
  intro V _ _ P s hs
  have hs : s < 2 := hs
  interval_cases s
  · exact ⟨_, ref_prism3_0, follow_prism3_0 P⟩
  · exact ⟨_, ref_prism3_1, follow_prism3_1 P⟩

theorem follows_prism4 : ChildrenFollow .prism4 := by
  intro V _ _ P s hs
  have hs : s < 4 := hs
  interval_cases s
  · exact ⟨_, ref_prism4_0, follow_prism4_0 P⟩
  · exact ⟨_, ref_prism4_1, follow_prism4_1 P⟩
  · exact ⟨_, ref_prism4_2, follow_prism4_2 P⟩
  · exact ⟨_, ref_prism4_3, follow_prism4_3 P⟩

theorem follows_prism6 : ChildrenFollow .prism6 := by
  intro V _ _ P s hs
  have hs : s < 3 := hs
  interval_cases s
  · exact ⟨_, ref_prism6_0, follow_prism6_0 P⟩
  · exact ⟨_, ref_prism6_1, follow_prism6_1 P⟩
  · exact ⟨_, ref_prism6_2, follow_prism6_2 P⟩

theorem follows_prism7 : ChildrenFollow .prism7 := by
  intro V _ _ P s hs
  have hs : s < 2 := hs
  interval_cases s
  · exact ⟨_, ref_prism7_0, follow_prism7_0 P⟩
  · exact ⟨_, ref_prism7_1, follow_prism7_1 P⟩

theorem follows_prism8 : ChildrenFollow .prism8 := by
  intro V _ _ P s hs
  have hs : s < 2 := hs
  interval_cases s
  · exact ⟨_, ref_prism8_0, follow_prism8_0 P⟩
  · exact ⟨_, ref_prism8_1, follow_prism8_1 P⟩

theorem follows_prism9 : ChildrenFollow .prism9 := by
  intro V _ _ P s hs
  have hs : s < 2 := hs
  interval_cases s
  · exact ⟨_, ref_prism9_0, follow_prism9_0 P⟩
  · exact ⟨_, ref_prism9_1, follow_prism9_1 P⟩

end Verif.Refine
