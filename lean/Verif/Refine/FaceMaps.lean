import Verif.Refine.Tables

/-! # The faces of the sub-elements -/
set_option linter.all false
namespace Verif.Refine
open Verif.RefGeometry (Pt Geom Face)

theorem ref_point0_0 : child .point0 (Name.table .point0).shape.corner 0 = some fun p => p :=
  (follow_point0_0 _).trans (congrArg some (funext fun p => place_corner _ _))

theorem ref_line0_0 : child .line0 (Name.table .line0).shape.corner 0 = some fun p => p :=
  (follow_line0_0 _).trans (congrArg some (funext fun p => place_corner _ _))

theorem ref_line1_0 : child .line1 (Name.table .line1).shape.corner 0 = some fun p => ![p 0 / 2 + ((0 : ℕ) : ℝ) - 0.5] :=
  (follow_line1_0 _).trans (congrArg some (funext fun p => place_corner _ _))

theorem ref_line1_1 : child .line1 (Name.table .line1).shape.corner 1 = some fun p => ![p 0 / 2 + ((1 : ℕ) : ℝ) - 0.5] :=
  (follow_line1_1 _).trans (congrArg some (funext fun p => place_corner _ _))

theorem ref_square0_0 : child .square0 (Name.table .square0).shape.corner 0 = some fun p => p :=
  (follow_square0_0 _).trans (congrArg some (funext fun p => place_corner _ _))

theorem ref_square1_0 : child .square1 (Name.table .square1).shape.corner 0 = some fun p => ![p 0 / 2 + ((0 : ℕ) : ℝ) - 0.5, p 1] :=
  (follow_square1_0 _).trans (congrArg some (funext fun p => place_corner _ _))

theorem ref_square1_1 : child .square1 (Name.table .square1).shape.corner 1 = some fun p => ![p 0 / 2 + ((1 : ℕ) : ℝ) - 0.5, p 1] :=
  (follow_square1_1 _).trans (congrArg some (funext fun p => place_corner _ _))

theorem ref_square2_0 : child .square2 (Name.table .square2).shape.corner 0 = some fun p => ![p 0, p 1 / 2 + ((0 : ℕ) : ℝ) - 0.5] :=
  (follow_square2_0 _).trans (congrArg some (funext fun p => place_corner _ _))

theorem ref_square2_1 : child .square2 (Name.table .square2).shape.corner 1 = some fun p => ![p 0, p 1 / 2 + ((1 : ℕ) : ℝ) - 0.5] :=
  (follow_square2_1 _).trans (congrArg some (funext fun p => place_corner _ _))

theorem ref_square3_0 : child .square3 (Name.table .square3).shape.corner 0 = some fun p => ![-0.5 + 0.5 * p 0, -0.5 + 0.5 * p 1] :=
  (follow_square3_0 _).trans (congrArg some (funext fun p => place_corner _ _))

theorem ref_square3_1 : child .square3 (Name.table .square3).shape.corner 1 = some fun p => ![0.5 + 0.5 * p 0, -0.5 + 0.5 * p 1] :=
  (follow_square3_1 _).trans (congrArg some (funext fun p => place_corner _ _))

theorem ref_square3_2 : child .square3 (Name.table .square3).shape.corner 2 = some fun p => ![-0.5 + 0.5 * p 0, 0.5 + 0.5 * p 1] :=
  (follow_square3_2 _).trans (congrArg some (funext fun p => place_corner _ _))

theorem ref_square3_3 : child .square3 (Name.table .square3).shape.corner 3 = some fun p => ![0.5 + 0.5 * p 0, 0.5 + 0.5 * p 1] :=
  (follow_square3_3 _).trans (congrArg some (funext fun p => place_corner _ _))

theorem ref_triangle0_0 : child .triangle0 (Name.table .triangle0).shape.corner 0 = some fun p => p :=
  (follow_triangle0_0 _).trans (congrArg some (funext fun p => place_corner _ _))

theorem ref_triangle1_0 : child .triangle1 (Name.table .triangle1).shape.corner 0 = some fun p => ![(1 / 2) * p 0, p 1] :=
  (follow_triangle1_0 _).trans (congrArg some (funext fun p => place_corner _ _))

theorem ref_triangle1_1 : child .triangle1 (Name.table .triangle1).shape.corner 1 = some fun p => ![1 / 2 + (1 / 2) * p 0 + (-1 / 2) * p 1, p 1] :=
  (follow_triangle1_1 _).trans (congrArg some (funext fun p => place_corner _ _))

theorem ref_triangle2_0 : child .triangle2 (Name.table .triangle2).shape.corner 0 = some fun p => ![p 0, (1 / 2) * p 1] :=
  (follow_triangle2_0 _).trans (congrArg some (funext fun p => place_corner _ _))

theorem ref_triangle2_1 : child .triangle2 (Name.table .triangle2).shape.corner 1 = some fun p => ![p 0, 1 / 2 + (-1 / 2) * p 0 + (1 / 2) * p 1] :=
  (follow_triangle2_1 _).trans (congrArg some (funext fun p => place_corner _ _))

theorem ref_triangle3_0 : child .triangle3 (Name.table .triangle3).shape.corner 0 = some fun p => ![p 0 + (1 / 2) * p 1, (1 / 2) * p 1] :=
  (follow_triangle3_0 _).trans (congrArg some (funext fun p => place_corner _ _))

theorem ref_triangle3_1 : child .triangle3 (Name.table .triangle3).shape.corner 1 = some fun p => ![(1 / 2) * p 0, (1 / 2) * p 0 + p 1] :=
  (follow_triangle3_1 _).trans (congrArg some (funext fun p => place_corner _ _))

theorem ref_triangle4_0 : child .triangle4 (Name.table .triangle4).shape.corner 0 = some fun p => ![0.5 * p 0, 0.5 * p 1] :=
  (follow_triangle4_0 _).trans (congrArg some (funext fun p => place_corner _ _))

theorem ref_triangle4_1 : child .triangle4 (Name.table .triangle4).shape.corner 1 = some fun p => ![0.5 + 0.5 * p 0, 0.5 * p 1] :=
  (follow_triangle4_1 _).trans (congrArg some (funext fun p => place_corner _ _))

theorem ref_triangle4_2 : child .triangle4 (Name.table .triangle4).shape.corner 2 = some fun p => ![0.5 * p 0, 0.5 + 0.5 * p 1] :=
  (follow_triangle4_2 _).trans (congrArg some (funext fun p => place_corner _ _))

theorem ref_triangle4_3 : child .triangle4 (Name.table .triangle4).shape.corner 3 = some fun p => ![0.5 - 0.5 * p 0, 0.5 - 0.5 * p 1] :=
  (follow_triangle4_3 _).trans (congrArg some (funext fun p => place_corner _ _))

theorem ref_triangle5_0 : child .triangle5 (Name.table .triangle5).shape.corner 0 = some fun p => ![(p 1 + 1) * (5 + p 0) / 24, (1 - p 0) * (5 - p 1) / 24] :=
  (follow_triangle5_0 _).trans (congrArg some (funext fun p => place_corner _ _))

theorem ref_triangle5_1 : child .triangle5 (Name.table .triangle5).shape.corner 1 = some fun p => ![((p 0 + 2) * (2 - p 1) + 3) / 12, (p 1 + 1) * (5 + p 0) / 24] :=
  (follow_triangle5_1 _).trans (congrArg some (funext fun p => place_corner _ _))

theorem ref_triangle5_2 : child .triangle5 (Name.table .triangle5).shape.corner 2 = some fun p => ![(1 - p 0) * (5 - p 1) / 24, ((p 0 + 2) * (2 - p 1) + 3) / 12] :=
  (follow_triangle5_2 _).trans (congrArg some (funext fun p => place_corner _ _))

theorem ref_triangle6_0 : child .triangle6 (Name.table .triangle6).shape.corner 0 = some fun p => ![(1 + p 0) / 4, (p 1 + 1) * (3 - p 0) / 8] :=
  (follow_triangle6_0 _).trans (congrArg some (funext fun p => place_corner _ _))

theorem ref_triangle6_1 : child .triangle6 (Name.table .triangle6).shape.corner 1 = some fun p => ![(1 + p 0) / 2, p 1 / 2] :=
  (follow_triangle6_1 _).trans (congrArg some (funext fun p => place_corner _ _))

theorem ref_triangle7_0 : child .triangle7 (Name.table .triangle7).shape.corner 0 = some fun p => ![(p 0 + 1) * (3 - p 1) / 8, (1 + p 1) / 4] :=
  (follow_triangle7_0 _).trans (congrArg some (funext fun p => place_corner _ _))

theorem ref_triangle7_1 : child .triangle7 (Name.table .triangle7).shape.corner 1 = some fun p => ![p 0 / 2, (1 + p 1) / 2] :=
  (follow_triangle7_1 _).trans (congrArg some (funext fun p => place_corner _ _))

theorem ref_triangle8_0 : child .triangle8 (Name.table .triangle8).shape.corner 0 = some fun p => ![p 0 / 2, p 1 / 2] :=
  (follow_triangle8_0 _).trans (congrArg some (funext fun p => place_corner _ _))

theorem ref_triangle8_1 : child .triangle8 (Name.table .triangle8).shape.corner 1 = some fun p => ![(1 - p 1) * (3 + p 0) / 8, (1 + p 1) * (3 + p 0) / 8] :=
  (follow_triangle8_1 _).trans (congrArg some (funext fun p => place_corner _ _))

theorem ref_cube0_0 : child .cube0 (Name.table .cube0).shape.corner 0 = some fun p => p :=
  (follow_cube0_0 _).trans (congrArg some (funext fun p => place_corner _ _))

theorem ref_cube1_0 : child .cube1 (Name.table .cube1).shape.corner 0 = some fun p => ![(p 0 - 1) / 2, p 1, p 2] :=
  (follow_cube1_0 _).trans (congrArg some (funext fun p => place_corner _ _))

theorem ref_cube1_1 : child .cube1 (Name.table .cube1).shape.corner 1 = some fun p => ![(p 0 + 1) / 2, p 1, p 2] :=
  (follow_cube1_1 _).trans (congrArg some (funext fun p => place_corner _ _))

theorem ref_cube2_0 : child .cube2 (Name.table .cube2).shape.corner 0 = some fun p => ![p 0, (p 1 - 1) / 2, p 2] :=
  (follow_cube2_0 _).trans (congrArg some (funext fun p => place_corner _ _))

theorem ref_cube2_1 : child .cube2 (Name.table .cube2).shape.corner 1 = some fun p => ![p 0, (p 1 + 1) / 2, p 2] :=
  (follow_cube2_1 _).trans (congrArg some (funext fun p => place_corner _ _))

theorem ref_cube3_0 : child .cube3 (Name.table .cube3).shape.corner 0 = some fun p => ![p 0, p 1, (p 2 - 1) / 2] :=
  (follow_cube3_0 _).trans (congrArg some (funext fun p => place_corner _ _))

theorem ref_cube3_1 : child .cube3 (Name.table .cube3).shape.corner 1 = some fun p => ![p 0, p 1, (p 2 + 1) / 2] :=
  (follow_cube3_1 _).trans (congrArg some (funext fun p => place_corner _ _))

theorem ref_cube4_0 : child .cube4 (Name.table .cube4).shape.corner 0 = some fun p => ![(p 0 - 1) / 2, (p 1 - 1) / 2, p 2] :=
  (follow_cube4_0 _).trans (congrArg some (funext fun p => place_corner _ _))

theorem ref_cube4_1 : child .cube4 (Name.table .cube4).shape.corner 1 = some fun p => ![(p 0 + 1) / 2, (p 1 - 1) / 2, p 2] :=
  (follow_cube4_1 _).trans (congrArg some (funext fun p => place_corner _ _))

theorem ref_cube4_2 : child .cube4 (Name.table .cube4).shape.corner 2 = some fun p => ![(p 0 - 1) / 2, (p 1 + 1) / 2, p 2] :=
  (follow_cube4_2 _).trans (congrArg some (funext fun p => place_corner _ _))

theorem ref_cube4_3 : child .cube4 (Name.table .cube4).shape.corner 3 = some fun p => ![(p 0 + 1) / 2, (p 1 + 1) / 2, p 2] :=
  (follow_cube4_3 _).trans (congrArg some (funext fun p => place_corner _ _))

theorem ref_cube5_0 : child .cube5 (Name.table .cube5).shape.corner 0 = some fun p =>
    Shape.cube.place (fun i => ([![-1, -1, -1], ![0, -1, -1], ![-1, 1, -1], ![0, -1, 1], ![0, -1, 0], ![1, 1, 0], ![0, 1, 1], ![0, 1, 0]] : List (Pt 3)).getD i 0) p := by
  have e : child .cube5 (Name.table .cube5).shape.corner 0 = some (Shape.cube.place fun i => [Shape.cube.corner 0, Shape.cube.place Shape.cube.corner ![0, -1, -1], Shape.cube.corner 2, Shape.cube.place Shape.cube.corner ![0, -1, 1], Shape.cube.place Shape.cube.corner ![0, -1, 0], Shape.cube.place Shape.cube.corner ![1, 1, 0], Shape.cube.place Shape.cube.corner ![0, 1, 1], Shape.cube.place Shape.cube.corner ![0, 1, 0]].getD i 0) := rfl
  rw [e]
  simp only [place_corner]
  rfl

theorem ref_cube5_1 : child .cube5 (Name.table .cube5).shape.corner 1 = some fun p =>
    Shape.cube.place (fun i => ([![0, -1, -1], ![1, -1, -1], ![0, -1, 1], ![1, 1, -1], ![1, 1, 0], ![0, 1, -1], ![0, 1, 0], ![-1, 1, 0]] : List (Pt 3)).getD i 0) p := by
  have e : child .cube5 (Name.table .cube5).shape.corner 1 = some (Shape.cube.place fun i => [Shape.cube.place Shape.cube.corner ![0, -1, -1], Shape.cube.corner 1, Shape.cube.place Shape.cube.corner ![0, -1, 1], Shape.cube.corner 3, Shape.cube.place Shape.cube.corner ![1, 1, 0], Shape.cube.place Shape.cube.corner ![0, 1, -1], Shape.cube.place Shape.cube.corner ![0, 1, 0], Shape.cube.place Shape.cube.corner ![-1, 1, 0]].getD i 0) := rfl
  rw [e]
  simp only [place_corner]
  rfl

theorem ref_cube5_2 : child .cube5 (Name.table .cube5).shape.corner 2 = some fun p =>
    Shape.cube.place (fun i => ([![0, -1, 0], ![1, 1, 0], ![0, 1, 1], ![0, 1, 0], ![-1, -1, 1], ![-1, -1, 0], ![-1, 1, 1], ![1, -1, 0]] : List (Pt 3)).getD i 0) p := by
  have e : child .cube5 (Name.table .cube5).shape.corner 2 = some (Shape.cube.place fun i => [Shape.cube.place Shape.cube.corner ![0, -1, 0], Shape.cube.place Shape.cube.corner ![1, 1, 0], Shape.cube.place Shape.cube.corner ![0, 1, 1], Shape.cube.place Shape.cube.corner ![0, 1, 0], Shape.cube.corner 4, Shape.cube.place Shape.cube.corner ![-1, -1, 0], Shape.cube.corner 6, Shape.cube.place Shape.cube.corner ![1, -1, 0]].getD i 0) := rfl
  rw [e]
  simp only [place_corner]
  rfl

theorem ref_cube5_3 : child .cube5 (Name.table .cube5).shape.corner 3 = some fun p =>
    Shape.cube.place (fun i => ([![1, 1, 0], ![0, 1, -1], ![0, 1, 0], ![-1, 1, 0], ![-1, -1, 0], ![1, -1, 1], ![1, -1, 0], ![1, 1, 1]] : List (Pt 3)).getD i 0) p := by
  have e : child .cube5 (Name.table .cube5).shape.corner 3 = some (Shape.cube.place fun i => [Shape.cube.place Shape.cube.corner ![1, 1, 0], Shape.cube.place Shape.cube.corner ![0, 1, -1], Shape.cube.place Shape.cube.corner ![0, 1, 0], Shape.cube.place Shape.cube.corner ![-1, 1, 0], Shape.cube.place Shape.cube.corner ![-1, -1, 0], Shape.cube.corner 5, Shape.cube.place Shape.cube.corner ![1, -1, 0], Shape.cube.corner 7].getD i 0) := rfl
  rw [e]
  simp only [place_corner]
  rfl

theorem ref_cube6_0 : child .cube6 (Name.table .cube6).shape.corner 0 = some fun p =>
    Shape.cube.place (fun i => ([![-1, -1, -1], ![1, -1, -1], ![-1, 0, -1], ![-1, 0, 1], ![-1, 0, 0], ![1, 0, -1], ![1, 1, 0], ![1, 0, 0]] : List (Pt 3)).getD i 0) p := by
  have e : child .cube6 (Name.table .cube6).shape.corner 0 = some (Shape.cube.place fun i => [Shape.cube.corner 0, Shape.cube.corner 1, Shape.cube.place Shape.cube.corner ![-1, 0, -1], Shape.cube.place Shape.cube.corner ![-1, 0, 1], Shape.cube.place Shape.cube.corner ![-1, 0, 0], Shape.cube.place Shape.cube.corner ![1, 0, -1], Shape.cube.place Shape.cube.corner ![1, 1, 0], Shape.cube.place Shape.cube.corner ![1, 0, 0]].getD i 0) := rfl
  rw [e]
  simp only [place_corner]
  rfl

theorem ref_cube6_1 : child .cube6 (Name.table .cube6).shape.corner 1 = some fun p =>
    Shape.cube.place (fun i => ([![-1, 0, -1], ![-1, 0, 1], ![-1, 1, -1], ![1, 1, -1], ![1, 1, 0], ![1, 0, 0], ![1, 0, 1], ![1, -1, 0]] : List (Pt 3)).getD i 0) p := by
  have e : child .cube6 (Name.table .cube6).shape.corner 1 = some (Shape.cube.place fun i => [Shape.cube.place Shape.cube.corner ![-1, 0, -1], Shape.cube.place Shape.cube.corner ![-1, 0, 1], Shape.cube.corner 2, Shape.cube.corner 3, Shape.cube.place Shape.cube.corner ![1, 1, 0], Shape.cube.place Shape.cube.corner ![1, 0, 0], Shape.cube.place Shape.cube.corner ![1, 0, 1], Shape.cube.place Shape.cube.corner ![1, -1, 0]].getD i 0) := rfl
  rw [e]
  simp only [place_corner]
  rfl

theorem ref_cube6_2 : child .cube6 (Name.table .cube6).shape.corner 2 = some fun p =>
    Shape.cube.place (fun i => ([![-1, 0, 0], ![1, 0, -1], ![1, 1, 0], ![1, 0, 0], ![-1, -1, 1], ![1, -1, 1], ![-1, -1, 0], ![-1, 1, 0]] : List (Pt 3)).getD i 0) p := by
  have e : child .cube6 (Name.table .cube6).shape.corner 2 = some (Shape.cube.place fun i => [Shape.cube.place Shape.cube.corner ![-1, 0, 0], Shape.cube.place Shape.cube.corner ![1, 0, -1], Shape.cube.place Shape.cube.corner ![1, 1, 0], Shape.cube.place Shape.cube.corner ![1, 0, 0], Shape.cube.corner 4, Shape.cube.corner 5, Shape.cube.place Shape.cube.corner ![-1, -1, 0], Shape.cube.place Shape.cube.corner ![-1, 1, 0]].getD i 0) := rfl
  rw [e]
  simp only [place_corner]
  rfl

theorem ref_cube6_3 : child .cube6 (Name.table .cube6).shape.corner 3 = some fun p =>
    Shape.cube.place (fun i => ([![1, 1, 0], ![1, 0, 0], ![1, 0, 1], ![1, -1, 0], ![-1, -1, 0], ![-1, 1, 0], ![-1, 1, 1], ![1, 1, 1]] : List (Pt 3)).getD i 0) p := by
  have e : child .cube6 (Name.table .cube6).shape.corner 3 = some (Shape.cube.place fun i => [Shape.cube.place Shape.cube.corner ![1, 1, 0], Shape.cube.place Shape.cube.corner ![1, 0, 0], Shape.cube.place Shape.cube.corner ![1, 0, 1], Shape.cube.place Shape.cube.corner ![1, -1, 0], Shape.cube.place Shape.cube.corner ![-1, -1, 0], Shape.cube.place Shape.cube.corner ![-1, 1, 0], Shape.cube.corner 6, Shape.cube.corner 7].getD i 0) := rfl
  rw [e]
  simp only [place_corner]
  rfl

theorem ref_cube7_0 : child .cube7 (Name.table .cube7).shape.corner 0 = some fun p =>
    Shape.cube.place (fun i => ([![-1, -1, -1], ![0, -1, -1], ![-1, 0, -1], ![-1, 0, 0], ![-1, -1, 0], ![0, -1, 0], ![0, 0, -1], ![0, 0, 0]] : List (Pt 3)).getD i 0) p := by
  have e : child .cube7 (Name.table .cube7).shape.corner 0 = some (Shape.cube.place fun i => [Shape.cube.corner 0, Shape.cube.place Shape.cube.corner ![0, -1, -1], Shape.cube.place Shape.cube.corner ![-1, 0, -1], Shape.cube.place Shape.cube.corner ![-1, 0, 0], Shape.cube.place Shape.cube.corner ![-1, -1, 0], Shape.cube.place Shape.cube.corner ![0, -1, 0], Shape.cube.place Shape.cube.corner ![0, 0, -1], Shape.cube.place Shape.cube.corner ![0, 0, 0]].getD i 0) := rfl
  rw [e]
  simp only [place_corner]
  rfl

theorem ref_cube7_1 : child .cube7 (Name.table .cube7).shape.corner 1 = some fun p =>
    Shape.cube.place (fun i => ([![0, -1, -1], ![1, -1, -1], ![-1, 0, 0], ![1, 0, -1], ![0, -1, 0], ![1, -1, 0], ![0, 0, 0], ![0, 0, 1]] : List (Pt 3)).getD i 0) p := by
  have e : child .cube7 (Name.table .cube7).shape.corner 1 = some (Shape.cube.place fun i => [Shape.cube.place Shape.cube.corner ![0, -1, -1], Shape.cube.corner 1, Shape.cube.place Shape.cube.corner ![-1, 0, 0], Shape.cube.place Shape.cube.corner ![1, 0, -1], Shape.cube.place Shape.cube.corner ![0, -1, 0], Shape.cube.place Shape.cube.corner ![1, -1, 0], Shape.cube.place Shape.cube.corner ![0, 0, 0], Shape.cube.place Shape.cube.corner ![0, 0, 1]].getD i 0) := rfl
  rw [e]
  simp only [place_corner]
  rfl

theorem ref_cube7_2 : child .cube7 (Name.table .cube7).shape.corner 2 = some fun p =>
    Shape.cube.place (fun i => ([![-1, 0, -1], ![-1, 0, 0], ![-1, 1, -1], ![0, 1, -1], ![0, 0, -1], ![0, 0, 0], ![-1, 1, 0], ![0, 1, 0]] : List (Pt 3)).getD i 0) p := by
  have e : child .cube7 (Name.table .cube7).shape.corner 2 = some (Shape.cube.place fun i => [Shape.cube.place Shape.cube.corner ![-1, 0, -1], Shape.cube.place Shape.cube.corner ![-1, 0, 0], Shape.cube.corner 2, Shape.cube.place Shape.cube.corner ![0, 1, -1], Shape.cube.place Shape.cube.corner ![0, 0, -1], Shape.cube.place Shape.cube.corner ![0, 0, 0], Shape.cube.place Shape.cube.corner ![-1, 1, 0], Shape.cube.place Shape.cube.corner ![0, 1, 0]].getD i 0) := rfl
  rw [e]
  simp only [place_corner]
  rfl

theorem ref_cube7_3 : child .cube7 (Name.table .cube7).shape.corner 3 = some fun p =>
    Shape.cube.place (fun i => ([![-1, 0, 0], ![1, 0, -1], ![0, 1, -1], ![1, 1, -1], ![0, 0, 0], ![0, 0, 1], ![0, 1, 0], ![1, 1, 0]] : List (Pt 3)).getD i 0) p := by
  have e : child .cube7 (Name.table .cube7).shape.corner 3 = some (Shape.cube.place fun i => [Shape.cube.place Shape.cube.corner ![-1, 0, 0], Shape.cube.place Shape.cube.corner ![1, 0, -1], Shape.cube.place Shape.cube.corner ![0, 1, -1], Shape.cube.corner 3, Shape.cube.place Shape.cube.corner ![0, 0, 0], Shape.cube.place Shape.cube.corner ![0, 0, 1], Shape.cube.place Shape.cube.corner ![0, 1, 0], Shape.cube.place Shape.cube.corner ![1, 1, 0]].getD i 0) := rfl
  rw [e]
  simp only [place_corner]
  rfl

theorem ref_cube7_4 : child .cube7 (Name.table .cube7).shape.corner 4 = some fun p =>
    Shape.cube.place (fun i => ([![-1, -1, 0], ![0, -1, 0], ![0, 0, -1], ![0, 0, 0], ![-1, -1, 1], ![0, -1, 1], ![-1, 0, 1], ![1, 0, 0]] : List (Pt 3)).getD i 0) p := by
  have e : child .cube7 (Name.table .cube7).shape.corner 4 = some (Shape.cube.place fun i => [Shape.cube.place Shape.cube.corner ![-1, -1, 0], Shape.cube.place Shape.cube.corner ![0, -1, 0], Shape.cube.place Shape.cube.corner ![0, 0, -1], Shape.cube.place Shape.cube.corner ![0, 0, 0], Shape.cube.corner 4, Shape.cube.place Shape.cube.corner ![0, -1, 1], Shape.cube.place Shape.cube.corner ![-1, 0, 1], Shape.cube.place Shape.cube.corner ![1, 0, 0]].getD i 0) := rfl
  rw [e]
  simp only [place_corner]
  rfl

theorem ref_cube7_5 : child .cube7 (Name.table .cube7).shape.corner 5 = some fun p =>
    Shape.cube.place (fun i => ([![0, -1, 0], ![1, -1, 0], ![0, 0, 0], ![0, 0, 1], ![0, -1, 1], ![1, -1, 1], ![1, 0, 0], ![1, 0, 1]] : List (Pt 3)).getD i 0) p := by
  have e : child .cube7 (Name.table .cube7).shape.corner 5 = some (Shape.cube.place fun i => [Shape.cube.place Shape.cube.corner ![0, -1, 0], Shape.cube.place Shape.cube.corner ![1, -1, 0], Shape.cube.place Shape.cube.corner ![0, 0, 0], Shape.cube.place Shape.cube.corner ![0, 0, 1], Shape.cube.place Shape.cube.corner ![0, -1, 1], Shape.cube.corner 5, Shape.cube.place Shape.cube.corner ![1, 0, 0], Shape.cube.place Shape.cube.corner ![1, 0, 1]].getD i 0) := rfl
  rw [e]
  simp only [place_corner]
  rfl

theorem ref_cube7_6 : child .cube7 (Name.table .cube7).shape.corner 6 = some fun p =>
    Shape.cube.place (fun i => ([![0, 0, -1], ![0, 0, 0], ![-1, 1, 0], ![0, 1, 0], ![-1, 0, 1], ![1, 0, 0], ![-1, 1, 1], ![0, 1, 1]] : List (Pt 3)).getD i 0) p := by
  have e : child .cube7 (Name.table .cube7).shape.corner 6 = some (Shape.cube.place fun i => [Shape.cube.place Shape.cube.corner ![0, 0, -1], Shape.cube.place Shape.cube.corner ![0, 0, 0], Shape.cube.place Shape.cube.corner ![-1, 1, 0], Shape.cube.place Shape.cube.corner ![0, 1, 0], Shape.cube.place Shape.cube.corner ![-1, 0, 1], Shape.cube.place Shape.cube.corner ![1, 0, 0], Shape.cube.corner 6, Shape.cube.place Shape.cube.corner ![0, 1, 1]].getD i 0) := rfl
  rw [e]
  simp only [place_corner]
  rfl

theorem ref_cube7_7 : child .cube7 (Name.table .cube7).shape.corner 7 = some fun p =>
    Shape.cube.place (fun i => ([![0, 0, 0], ![0, 0, 1], ![0, 1, 0], ![1, 1, 0], ![1, 0, 0], ![1, 0, 1], ![0, 1, 1], ![1, 1, 1]] : List (Pt 3)).getD i 0) p := by
  have e : child .cube7 (Name.table .cube7).shape.corner 7 = some (Shape.cube.place fun i => [Shape.cube.place Shape.cube.corner ![0, 0, 0], Shape.cube.place Shape.cube.corner ![0, 0, 1], Shape.cube.place Shape.cube.corner ![0, 1, 0], Shape.cube.place Shape.cube.corner ![1, 1, 0], Shape.cube.place Shape.cube.corner ![1, 0, 0], Shape.cube.place Shape.cube.corner ![1, 0, 1], Shape.cube.place Shape.cube.corner ![0, 1, 1], Shape.cube.corner 7].getD i 0) := rfl
  rw [e]
  simp only [place_corner]
  rfl

theorem ref_tetrahedron0_0 : child .tetrahedron0 (Name.table .tetrahedron0).shape.corner 0 = some fun p => p :=
  (follow_tetrahedron0_0 _).trans (congrArg some (funext fun p => place_corner _ _))

theorem ref_pyramid0_0 : child .pyramid0 (Name.table .pyramid0).shape.corner 0 = some fun p => p :=
  (follow_pyramid0_0 _).trans (congrArg some (funext fun p => place_corner _ _))

theorem ref_prism0_0 : child .prism0 (Name.table .prism0).shape.corner 0 = some fun p => p :=
  (follow_prism0_0 _).trans (congrArg some (funext fun p => place_corner _ _))

theorem ref_prism1_0 : child .prism1 (Name.table .prism1).shape.corner 0 = some fun p => ![(1 / 2) * p 0, p 1, p 2] :=
  (follow_prism1_0 _).trans (congrArg some (funext fun p => place_corner _ _))

theorem ref_prism1_1 : child .prism1 (Name.table .prism1).shape.corner 1 = some fun p => ![1 / 2 + (1 / 2) * p 0 + (-1 / 2) * p 1, p 1, p 2] :=
  (follow_prism1_1 _).trans (congrArg some (funext fun p => place_corner _ _))

theorem ref_prism2_0 : child .prism2 (Name.table .prism2).shape.corner 0 = some fun p => ![p 0, (1 / 2) * p 1, p 2] :=
  (follow_prism2_0 _).trans (congrArg some (funext fun p => place_corner _ _))

theorem ref_prism2_1 : child .prism2 (Name.table .prism2).shape.corner 1 = some fun p => ![p 0, 1 / 2 + (-1 / 2) * p 0 + (1 / 2) * p 1, p 2] :=
  (follow_prism2_1 _).trans (congrArg some (funext fun p => place_corner _ _))

theorem ref_prism3_0 : child .prism3 (Name.table .prism3).shape.corner 0 = some fun p => ![0.5 * p 0, 0.5 * p 0 + p 1, p 2] :=
  (follow_prism3_0 _).trans (congrArg some (funext fun p => place_corner _ _))

theorem ref_prism3_1 : child .prism3 (Name.table .prism3).shape.corner 1 = some fun p => ![p 0 + 0.5 * p 1, 0.5 * p 1, p 2] :=
  (follow_prism3_1 _).trans (congrArg some (funext fun p => place_corner _ _))

theorem ref_prism4_0 : child .prism4 (Name.table .prism4).shape.corner 0 = some fun p => ![0.5 * p 0, 0.5 * p 1, p 2] :=
  (follow_prism4_0 _).trans (congrArg some (funext fun p => place_corner _ _))

theorem ref_prism4_1 : child .prism4 (Name.table .prism4).shape.corner 1 = some fun p => ![0.5 + 0.5 * p 0, 0.5 * p 1, p 2] :=
  (follow_prism4_1 _).trans (congrArg some (funext fun p => place_corner _ _))

theorem ref_prism4_2 : child .prism4 (Name.table .prism4).shape.corner 2 = some fun p => ![0.5 * p 0, 0.5 + 0.5 * p 1, p 2] :=
  (follow_prism4_2 _).trans (congrArg some (funext fun p => place_corner _ _))

theorem ref_prism4_3 : child .prism4 (Name.table .prism4).shape.corner 3 = some fun p => ![0.5 - 0.5 * p 0, 0.5 - 0.5 * p 1, p 2] :=
  (follow_prism4_3 _).trans (congrArg some (funext fun p => place_corner _ _))

theorem ref_prism5_0 : child .prism5 (Name.table .prism5).shape.corner 0 = some fun p =>
    Shape.prism.place (fun i => ([![0, 0, -1], ![1, 0, -1], ![0, 1, -1], ![0, 0, 0], ![0, 1, 0], ![1, 0, 0]] : List (Pt 3)).getD i 0) p := by
  have e : child .prism5 (Name.table .prism5).shape.corner 0 = some (Shape.prism.place fun i => [Shape.prism.corner 0, Shape.prism.corner 1, Shape.prism.corner 2, Shape.prism.place Shape.prism.corner ![0, 0, 0], Shape.prism.place Shape.prism.corner ![0, 1, 0], Shape.prism.place Shape.prism.corner ![1, 0, 0]].getD i 0) := rfl
  rw [e]
  simp only [place_corner]
  rfl

theorem ref_prism5_1 : child .prism5 (Name.table .prism5).shape.corner 1 = some fun p =>
    Shape.prism.place (fun i => ([![0, 0, 0], ![0, 1, 0], ![1, 0, 0], ![0, 0, 1], ![1, 0, 1], ![0, 1, 1]] : List (Pt 3)).getD i 0) p := by
  have e : child .prism5 (Name.table .prism5).shape.corner 1 = some (Shape.prism.place fun i => [Shape.prism.place Shape.prism.corner ![0, 0, 0], Shape.prism.place Shape.prism.corner ![0, 1, 0], Shape.prism.place Shape.prism.corner ![1, 0, 0], Shape.prism.corner 3, Shape.prism.corner 4, Shape.prism.corner 5].getD i 0) := rfl
  rw [e]
  simp only [place_corner]
  rfl

theorem ref_prism6_0 : child .prism6 (Name.table .prism6).shape.corner 0 = some fun p => ![(p 1 + 1) * (5 + p 0) / 24, (1 - p 0) * (5 - p 1) / 24, p 2] :=
  (follow_prism6_0 _).trans (congrArg some (funext fun p => place_corner _ _))

theorem ref_prism6_1 : child .prism6 (Name.table .prism6).shape.corner 1 = some fun p => ![((p 0 + 2) * (2 - p 1) + 3) / 12, (p 1 + 1) * (5 + p 0) / 24, p 2] :=
  (follow_prism6_1 _).trans (congrArg some (funext fun p => place_corner _ _))

theorem ref_prism6_2 : child .prism6 (Name.table .prism6).shape.corner 2 = some fun p => ![(1 - p 0) * (5 - p 1) / 24, ((p 0 + 2) * (2 - p 1) + 3) / 12, p 2] :=
  (follow_prism6_2 _).trans (congrArg some (funext fun p => place_corner _ _))

theorem ref_prism7_0 : child .prism7 (Name.table .prism7).shape.corner 0 = some fun p => ![(1 + p 0) / 4, (p 1 + 1) * (3 - p 0) / 8, p 2] :=
  (follow_prism7_0 _).trans (congrArg some (funext fun p => place_corner _ _))

theorem ref_prism7_1 : child .prism7 (Name.table .prism7).shape.corner 1 = some fun p => ![(1 + p 0) / 2, p 1 / 2, p 2] :=
  (follow_prism7_1 _).trans (congrArg some (funext fun p => place_corner _ _))

theorem ref_prism8_0 : child .prism8 (Name.table .prism8).shape.corner 0 = some fun p => ![(p 0 + 1) * (3 - p 1) / 8, (1 + p 1) / 4, p 2] :=
  (follow_prism8_0 _).trans (congrArg some (funext fun p => place_corner _ _))

theorem ref_prism8_1 : child .prism8 (Name.table .prism8).shape.corner 1 = some fun p => ![p 0 / 2, (1 + p 1) / 2, p 2] :=
  (follow_prism8_1 _).trans (congrArg some (funext fun p => place_corner _ _))

theorem ref_prism9_0 : child .prism9 (Name.table .prism9).shape.corner 0 = some fun p => ![p 0 / 2, p 1 / 2, p 2] :=
  (follow_prism9_0 _).trans (congrArg some (funext fun p => place_corner _ _))

theorem ref_prism9_1 : child .prism9 (Name.table .prism9).shape.corner 1 = some fun p => ![(1 - p 1) * (3 + p 0) / 8, (1 + p 1) * (3 + p 0) / 8, p 2] :=
  (follow_prism9_1 _).trans (congrArg some (funext fun p => place_corner _ _))

end Verif.Refine
