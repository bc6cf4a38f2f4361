import Verif.Refine.Place
import Mathlib.Tactic.IntervalCases

/-! # Where the sub-elements are -/
set_option linter.all false
namespace Verif.Refine
open Verif.RefGeometry (Pt Geom Face)
variable {V : Type*} [AddCommGroup V] [Module ℝ V]

theorem follow_point0_0 (P : Nat → V) :
    child .point0 P 0 = some fun p => Shape.point.place P p := by
  have e : child .point0 P 0 = some (Shape.point.place fun i => [P 0].getD i 0) := rfl
  rw [e]
  refine congrArg some (funext fun p => ?_)
  simp [place_point, place_line, place_triangle, place_square, place_tetrahedron, place_pyramid, place_prism, place_cube]

theorem follow_line0_0 (P : Nat → V) :
    child .line0 P 0 = some fun p => Shape.line.place P p := by
  have e : child .line0 P 0 = some (Shape.line.place fun i => [P 0, P 1].getD i 0) := rfl
  rw [e]
  refine congrArg some (funext fun p => ?_)
  simp [place_point, place_line, place_triangle, place_square, place_tetrahedron, place_pyramid, place_prism, place_cube]

theorem follow_line1_0 (P : Nat → V) :
    child .line1 P 0 = some fun p => Shape.line.place P ![p 0 / 2 + ((0 : ℕ) : ℝ) - 0.5] := by
  have e : child .line1 P 0 = some (Shape.line.place fun i => [P 0, Shape.line.place P ![0]].getD i 0) := rfl
  rw [e]
  refine congrArg some (funext fun p => ?_)
  simp only [place_line]
  simp
  norm_num
  module

theorem follow_line1_1 (P : Nat → V) :
    child .line1 P 1 = some fun p => Shape.line.place P ![p 0 / 2 + ((1 : ℕ) : ℝ) - 0.5] := by
  have e : child .line1 P 1 = some (Shape.line.place fun i => [Shape.line.place P ![0], P 1].getD i 0) := rfl
  rw [e]
  refine congrArg some (funext fun p => ?_)
  simp only [place_line]
  simp
  norm_num
  module

theorem follow_square0_0 (P : Nat → V) :
    child .square0 P 0 = some fun p => Shape.square.place P p := by
  have e : child .square0 P 0 = some (Shape.square.place fun i => [P 0, P 1, P 2, P 3].getD i 0) := rfl
  rw [e]
  refine congrArg some (funext fun p => ?_)
  simp [place_point, place_line, place_triangle, place_square, place_tetrahedron, place_pyramid, place_prism, place_cube]

theorem follow_square1_0 (P : Nat → V) :
    child .square1 P 0 = some fun p => Shape.square.place P ![p 0 / 2 + ((0 : ℕ) : ℝ) - 0.5, p 1] := by
  have e : child .square1 P 0 = some (Shape.square.place fun i => [P 0, Shape.square.place P ![0, -1], P 2, Shape.square.place P ![0, 1]].getD i 0) := rfl
  rw [e]
  refine congrArg some (funext fun p => ?_)
  simp only [place_square]
  simp
  norm_num
  module

theorem follow_square1_1 (P : Nat → V) :
    child .square1 P 1 = some fun p => Shape.square.place P ![p 0 / 2 + ((1 : ℕ) : ℝ) - 0.5, p 1] := by
  have e : child .square1 P 1 = some (Shape.square.place fun i => [Shape.square.place P ![0, -1], P 1, Shape.square.place P ![0, 1], P 3].getD i 0) := rfl
  rw [e]
  refine congrArg some (funext fun p => ?_)
  simp only [place_square]
  simp
  norm_num
  module

theorem follow_square2_0 (P : Nat → V) :
    child .square2 P 0 = some fun p => Shape.square.place P ![p 0, p 1 / 2 + ((0 : ℕ) : ℝ) - 0.5] := by
  have e : child .square2 P 0 = some (Shape.square.place fun i => [P 0, P 1, Shape.square.place P ![-1, 0], Shape.square.place P ![1, 0]].getD i 0) := rfl
  rw [e]
  refine congrArg some (funext fun p => ?_)
  simp only [place_square]
  simp
  norm_num
  module

theorem follow_square2_1 (P : Nat → V) :
    child .square2 P 1 = some fun p => Shape.square.place P ![p 0, p 1 / 2 + ((1 : ℕ) : ℝ) - 0.5] := by
  have e : child .square2 P 1 = some (Shape.square.place fun i => [Shape.square.place P ![-1, 0], Shape.square.place P ![1, 0], P 2, P 3].getD i 0) := rfl
  rw [e]
  refine congrArg some (funext fun p => ?_)
  simp only [place_square]
  simp
  norm_num
  module

theorem follow_square3_0 (P : Nat → V) :
    child .square3 P 0 = some fun p => Shape.square.place P ![-0.5 + 0.5 * p 0, -0.5 + 0.5 * p 1] := by
  have e : child .square3 P 0 = some (Shape.square.place fun i => [P 0, Shape.square.place P ![0, -1], Shape.square.place P ![-1, 0], Shape.square.place P ![0, 0]].getD i 0) := rfl
  rw [e]
  refine congrArg some (funext fun p => ?_)
  simp only [place_square]
  simp
  norm_num
  module

theorem follow_square3_1 (P : Nat → V) :
    child .square3 P 1 = some fun p => Shape.square.place P ![0.5 + 0.5 * p 0, -0.5 + 0.5 * p 1] := by
  have e : child .square3 P 1 = some (Shape.square.place fun i => [Shape.square.place P ![0, -1], P 1, Shape.square.place P ![0, 0], Shape.square.place P ![1, 0]].getD i 0) := rfl
  rw [e]
  refine congrArg some (funext fun p => ?_)
  simp only [place_square]
  simp
  norm_num
  module

theorem follow_square3_2 (P : Nat → V) :
    child .square3 P 2 = some fun p => Shape.square.place P ![-0.5 + 0.5 * p 0, 0.5 + 0.5 * p 1] := by
  have e : child .square3 P 2 = some (Shape.square.place fun i => [Shape.square.place P ![-1, 0], Shape.square.place P ![0, 0], P 2, Shape.square.place P ![0, 1]].getD i 0) := rfl
  rw [e]
  refine congrArg some (funext fun p => ?_)
  simp only [place_square]
  simp
  norm_num
  module

theorem follow_square3_3 (P : Nat → V) :
    child .square3 P 3 = some fun p => Shape.square.place P ![0.5 + 0.5 * p 0, 0.5 + 0.5 * p 1] := by
  have e : child .square3 P 3 = some (Shape.square.place fun i => [Shape.square.place P ![0, 0], Shape.square.place P ![1, 0], Shape.square.place P ![0, 1], P 3].getD i 0) := rfl
  rw [e]
  refine congrArg some (funext fun p => ?_)
  simp only [place_square]
  simp
  norm_num
  module

theorem follow_triangle0_0 (P : Nat → V) :
    child .triangle0 P 0 = some fun p => Shape.triangle.place P p := by
  have e : child .triangle0 P 0 = some (Shape.triangle.place fun i => [P 0, P 1, P 2].getD i 0) := rfl
  rw [e]
  refine congrArg some (funext fun p => ?_)
  simp [place_point, place_line, place_triangle, place_square, place_tetrahedron, place_pyramid, place_prism, place_cube]

theorem follow_triangle1_0 (P : Nat → V) :
    child .triangle1 P 0 = some fun p => Shape.triangle.place P ![(1 / 2) * p 0, p 1] := by
  have e : child .triangle1 P 0 = some (Shape.triangle.place fun i => [P 0, Shape.triangle.place P ![0.5, 0], P 2].getD i 0) := rfl
  rw [e]
  refine congrArg some (funext fun p => ?_)
  simp only [place_triangle]
  simp
  norm_num
  module

theorem follow_triangle1_1 (P : Nat → V) :
    child .triangle1 P 1 = some fun p => Shape.triangle.place P ![1 / 2 + (1 / 2) * p 0 + (-1 / 2) * p 1, p 1] := by
  have e : child .triangle1 P 1 = some (Shape.triangle.place fun i => [Shape.triangle.place P ![0.5, 0], P 1, P 2].getD i 0) := rfl
  rw [e]
  refine congrArg some (funext fun p => ?_)
  simp only [place_triangle]
  simp
  norm_num
  module

theorem follow_triangle2_0 (P : Nat → V) :
    child .triangle2 P 0 = some fun p => Shape.triangle.place P ![p 0, (1 / 2) * p 1] := by
  have e : child .triangle2 P 0 = some (Shape.triangle.place fun i => [P 0, P 1, Shape.triangle.place P ![0, 0.5]].getD i 0) := rfl
  rw [e]
  refine congrArg some (funext fun p => ?_)
  simp only [place_triangle]
  simp
  norm_num
  module

theorem follow_triangle2_1 (P : Nat → V) :
    child .triangle2 P 1 = some fun p => Shape.triangle.place P ![p 0, 1 / 2 + (-1 / 2) * p 0 + (1 / 2) * p 1] := by
  have e : child .triangle2 P 1 = some (Shape.triangle.place fun i => [Shape.triangle.place P ![0, 0.5], P 1, P 2].getD i 0) := rfl
  rw [e]
  refine congrArg some (funext fun p => ?_)
  simp only [place_triangle]
  simp
  norm_num
  module

theorem follow_triangle3_0 (P : Nat → V) :
    child .triangle3 P 0 = some fun p => Shape.triangle.place P ![p 0 + (1 / 2) * p 1, (1 / 2) * p 1] := by
  have e : child .triangle3 P 0 = some (Shape.triangle.place fun i => [P 0, P 1, Shape.triangle.place P ![0.5, 0.5]].getD i 0) := rfl
  rw [e]
  refine congrArg some (funext fun p => ?_)
  simp only [place_triangle]
  simp
  norm_num
  module

theorem follow_triangle3_1 (P : Nat → V) :
    child .triangle3 P 1 = some fun p => Shape.triangle.place P ![(1 / 2) * p 0, (1 / 2) * p 0 + p 1] := by
  have e : child .triangle3 P 1 = some (Shape.triangle.place fun i => [P 0, Shape.triangle.place P ![0.5, 0.5], P 2].getD i 0) := rfl
  rw [e]
  refine congrArg some (funext fun p => ?_)
  simp only [place_triangle]
  simp
  norm_num
  module

theorem follow_triangle4_0 (P : Nat → V) :
    child .triangle4 P 0 = some fun p => Shape.triangle.place P ![0.5 * p 0, 0.5 * p 1] := by
  have e : child .triangle4 P 0 = some (Shape.triangle.place fun i => [P 0, Shape.triangle.place P ![0.5, 0], Shape.triangle.place P ![0, 0.5]].getD i 0) := rfl
  rw [e]
  refine congrArg some (funext fun p => ?_)
  simp only [place_triangle]
  simp
  norm_num
  module

theorem follow_triangle4_1 (P : Nat → V) :
    child .triangle4 P 1 = some fun p => Shape.triangle.place P ![0.5 + 0.5 * p 0, 0.5 * p 1] := by
  have e : child .triangle4 P 1 = some (Shape.triangle.place fun i => [Shape.triangle.place P ![0.5, 0], P 1, Shape.triangle.place P ![0.5, 0.5]].getD i 0) := rfl
  rw [e]
  refine congrArg some (funext fun p => ?_)
  simp only [place_triangle]
  simp
  norm_num
  module

theorem follow_triangle4_2 (P : Nat → V) :
    child .triangle4 P 2 = some fun p => Shape.triangle.place P ![0.5 * p 0, 0.5 + 0.5 * p 1] := by
  have e : child .triangle4 P 2 = some (Shape.triangle.place fun i => [Shape.triangle.place P ![0, 0.5], Shape.triangle.place P ![0.5, 0.5], P 2].getD i 0) := rfl
  rw [e]
  refine congrArg some (funext fun p => ?_)
  simp only [place_triangle]
  simp
  norm_num
  module

theorem follow_triangle4_3 (P : Nat → V) :
    child .triangle4 P 3 = some fun p => Shape.triangle.place P ![0.5 - 0.5 * p 0, 0.5 - 0.5 * p 1] := by
  have e : child .triangle4 P 3 = some (Shape.triangle.place fun i => [Shape.triangle.place P ![0.5, 0.5], Shape.triangle.place P ![0, 0.5], Shape.triangle.place P ![0.5, 0]].getD i 0) := rfl
  rw [e]
  refine congrArg some (funext fun p => ?_)
  simp only [place_triangle]
  simp
  norm_num
  module

theorem follow_triangle5_0 (P : Nat → V) :
    child .triangle5 P 0 = some fun p => Shape.triangle.place P ![(p 1 + 1) * (5 + p 0) / 24, (1 - p 0) * (5 - p 1) / 24] := by
  have e : child .triangle5 P 0 = some (Shape.square.place fun i => [Shape.triangle.place P ![0, 0.5], P 0, Shape.triangle.place P ![1 / 3, 1 / 3], Shape.triangle.place P ![0.5, 0]].getD i 0) := rfl
  rw [e]
  refine congrArg some (funext fun p => ?_)
  simp only [place_square, place_triangle]
  simp
  norm_num
  module

theorem follow_triangle5_1 (P : Nat → V) :
    child .triangle5 P 1 = some fun p => Shape.triangle.place P ![((p 0 + 2) * (2 - p 1) + 3) / 12, (p 1 + 1) * (5 + p 0) / 24] := by
  have e : child .triangle5 P 1 = some (Shape.square.place fun i => [Shape.triangle.place P ![0.5, 0], P 1, Shape.triangle.place P ![1 / 3, 1 / 3], Shape.triangle.place P ![0.5, 0.5]].getD i 0) := rfl
  rw [e]
  refine congrArg some (funext fun p => ?_)
  simp only [place_square, place_triangle]
  simp
  norm_num
  module

theorem follow_triangle5_2 (P : Nat → V) :
    child .triangle5 P 2 = some fun p => Shape.triangle.place P ![(1 - p 0) * (5 - p 1) / 24, ((p 0 + 2) * (2 - p 1) + 3) / 12] := by
  have e : child .triangle5 P 2 = some (Shape.square.place fun i => [Shape.triangle.place P ![0.5, 0.5], P 2, Shape.triangle.place P ![1 / 3, 1 / 3], Shape.triangle.place P ![0, 0.5]].getD i 0) := rfl
  rw [e]
  refine congrArg some (funext fun p => ?_)
  simp only [place_square, place_triangle]
  simp
  norm_num
  module

theorem follow_triangle6_0 (P : Nat → V) :
    child .triangle6 P 0 = some fun p => Shape.triangle.place P ![(1 + p 0) / 4, (p 1 + 1) * (3 - p 0) / 8] := by
  have e : child .triangle6 P 0 = some (Shape.square.place fun i => [P 0, Shape.triangle.place P ![0.5, 0], P 2, Shape.triangle.place P ![0.5, 0.5]].getD i 0) := rfl
  rw [e]
  refine congrArg some (funext fun p => ?_)
  simp only [place_square, place_triangle]
  simp
  norm_num
  module

theorem follow_triangle6_1 (P : Nat → V) :
    child .triangle6 P 1 = some fun p => Shape.triangle.place P ![(1 + p 0) / 2, p 1 / 2] := by
  have e : child .triangle6 P 1 = some (Shape.triangle.place fun i => [Shape.triangle.place P ![0.5, 0], P 1, Shape.triangle.place P ![0.5, 0.5]].getD i 0) := rfl
  rw [e]
  refine congrArg some (funext fun p => ?_)
  simp only [place_triangle]
  simp
  norm_num
  module

theorem follow_triangle7_0 (P : Nat → V) :
    child .triangle7 P 0 = some fun p => Shape.triangle.place P ![(p 0 + 1) * (3 - p 1) / 8, (1 + p 1) / 4] := by
  have e : child .triangle7 P 0 = some (Shape.square.place fun i => [P 0, P 1, Shape.triangle.place P ![0, 0.5], Shape.triangle.place P ![0.5, 0.5]].getD i 0) := rfl
  rw [e]
  refine congrArg some (funext fun p => ?_)
  simp only [place_square, place_triangle]
  simp
  norm_num
  module

theorem follow_triangle7_1 (P : Nat → V) :
    child .triangle7 P 1 = some fun p => Shape.triangle.place P ![p 0 / 2, (1 + p 1) / 2] := by
  have e : child .triangle7 P 1 = some (Shape.triangle.place fun i => [Shape.triangle.place P ![0, 0.5], Shape.triangle.place P ![0.5, 0.5], P 2].getD i 0) := rfl
  rw [e]
  refine congrArg some (funext fun p => ?_)
  simp only [place_triangle]
  simp
  norm_num
  module

theorem follow_triangle8_0 (P : Nat → V) :
    child .triangle8 P 0 = some fun p => Shape.triangle.place P ![p 0 / 2, p 1 / 2] := by
  have e : child .triangle8 P 0 = some (Shape.triangle.place fun i => [P 0, Shape.triangle.place P ![0.5, 0], Shape.triangle.place P ![0, 0.5]].getD i 0) := rfl
  rw [e]
  refine congrArg some (funext fun p => ?_)
  simp only [place_triangle]
  simp
  norm_num
  module

theorem follow_triangle8_1 (P : Nat → V) :
    child .triangle8 P 1 = some fun p => Shape.triangle.place P ![(1 - p 1) * (3 + p 0) / 8, (1 + p 1) * (3 + p 0) / 8] := by
  have e : child .triangle8 P 1 = some (Shape.square.place fun i => [Shape.triangle.place P ![0.5, 0], P 1, Shape.triangle.place P ![0, 0.5], P 2].getD i 0) := rfl
  rw [e]
  refine congrArg some (funext fun p => ?_)
  simp only [place_square, place_triangle]
  simp
  norm_num
  module

theorem follow_cube0_0 (P : Nat → V) :
    child .cube0 P 0 = some fun p => Shape.cube.place P p := by
  have e : child .cube0 P 0 = some (Shape.cube.place fun i => [P 0, P 1, P 2, P 3, P 4, P 5, P 6, P 7].getD i 0) := rfl
  rw [e]
  refine congrArg some (funext fun p => ?_)
  simp [place_point, place_line, place_triangle, place_square, place_tetrahedron, place_pyramid, place_prism, place_cube]

theorem follow_cube1_0 (P : Nat → V) :
    child .cube1 P 0 = some fun p => Shape.cube.place P ![(p 0 - 1) / 2, p 1, p 2] := by
  have e : child .cube1 P 0 = some (Shape.cube.place fun i => [P 0, Shape.cube.place P ![0, -1, -1], P 2, Shape.cube.place P ![0, 1, -1], P 4, Shape.cube.place P ![0, -1, 1], P 6, Shape.cube.place P ![0, 1, 1]].getD i 0) := rfl
  rw [e]
  refine congrArg some (funext fun p => ?_)
  simp only [place_cube]
  simp
  norm_num
  module

theorem follow_cube1_1 (P : Nat → V) :
    child .cube1 P 1 = some fun p => Shape.cube.place P ![(p 0 + 1) / 2, p 1, p 2] := by
  have e : child .cube1 P 1 = some (Shape.cube.place fun i => [Shape.cube.place P ![0, -1, -1], P 1, Shape.cube.place P ![0, 1, -1], P 3, Shape.cube.place P ![0, -1, 1], P 5, Shape.cube.place P ![0, 1, 1], P 7].getD i 0) := rfl
  rw [e]
  refine congrArg some (funext fun p => ?_)
  simp only [place_cube]
  simp
  norm_num
  module

theorem follow_cube2_0 (P : Nat → V) :
    child .cube2 P 0 = some fun p => Shape.cube.place P ![p 0, (p 1 - 1) / 2, p 2] := by
  have e : child .cube2 P 0 = some (Shape.cube.place fun i => [P 0, P 1, Shape.cube.place P ![-1, 0, -1], Shape.cube.place P ![1, 0, -1], P 4, P 5, Shape.cube.place P ![-1, 0, 1], Shape.cube.place P ![1, 0, 1]].getD i 0) := rfl
  rw [e]
  refine congrArg some (funext fun p => ?_)
  simp only [place_cube]
  simp
  norm_num
  module

theorem follow_cube2_1 (P : Nat → V) :
    child .cube2 P 1 = some fun p => Shape.cube.place P ![p 0, (p 1 + 1) / 2, p 2] := by
  have e : child .cube2 P 1 = some (Shape.cube.place fun i => [Shape.cube.place P ![-1, 0, -1], Shape.cube.place P ![1, 0, -1], P 2, P 3, Shape.cube.place P ![-1, 0, 1], Shape.cube.place P ![1, 0, 1], P 6, P 7].getD i 0) := rfl
  rw [e]
  refine congrArg some (funext fun p => ?_)
  simp only [place_cube]
  simp
  norm_num
  module

theorem follow_cube3_0 (P : Nat → V) :
    child .cube3 P 0 = some fun p => Shape.cube.place P ![p 0, p 1, (p 2 - 1) / 2] := by
  have e : child .cube3 P 0 = some (Shape.cube.place fun i => [P 0, P 1, P 2, P 3, Shape.cube.place P ![-1, -1, 0], Shape.cube.place P ![1, -1, 0], Shape.cube.place P ![-1, 1, 0], Shape.cube.place P ![1, 1, 0]].getD i 0) := rfl
  rw [e]
  refine congrArg some (funext fun p => ?_)
  simp only [place_cube]
  simp
  norm_num
  module

theorem follow_cube3_1 (P : Nat → V) :
    child .cube3 P 1 = some fun p => Shape.cube.place P ![p 0, p 1, (p 2 + 1) / 2] := by
  have e : child .cube3 P 1 = some (Shape.cube.place fun i => [Shape.cube.place P ![-1, -1, 0], Shape.cube.place P ![1, -1, 0], Shape.cube.place P ![-1, 1, 0], Shape.cube.place P ![1, 1, 0], P 4, P 5, P 6, P 7].getD i 0) := rfl
  rw [e]
  refine congrArg some (funext fun p => ?_)
  simp only [place_cube]
  simp
  norm_num
  module

theorem follow_cube4_0 (P : Nat → V) :
    child .cube4 P 0 = some fun p => Shape.cube.place P ![(p 0 - 1) / 2, (p 1 - 1) / 2, p 2] := by
  have e : child .cube4 P 0 = some (Shape.cube.place fun i => [P 0, Shape.cube.place P ![0, -1, -1], Shape.cube.place P ![-1, 0, -1], Shape.cube.place P ![0, 0, -1], P 4, Shape.cube.place P ![0, -1, 1], Shape.cube.place P ![-1, 0, 1], Shape.cube.place P ![0, 0, 1]].getD i 0) := rfl
  rw [e]
  refine congrArg some (funext fun p => ?_)
  simp only [place_cube]
  simp
  norm_num
  module

theorem follow_cube4_1 (P : Nat → V) :
    child .cube4 P 1 = some fun p => Shape.cube.place P ![(p 0 + 1) / 2, (p 1 - 1) / 2, p 2] := by
  have e : child .cube4 P 1 = some (Shape.cube.place fun i => [Shape.cube.place P ![0, -1, -1], P 1, Shape.cube.place P ![0, 0, -1], Shape.cube.place P ![1, 0, -1], Shape.cube.place P ![0, -1, 1], P 5, Shape.cube.place P ![0, 0, 1], Shape.cube.place P ![1, 0, 1]].getD i 0) := rfl
  rw [e]
  refine congrArg some (funext fun p => ?_)
  simp only [place_cube]
  simp
  norm_num
  module

theorem follow_cube4_2 (P : Nat → V) :
    child .cube4 P 2 = some fun p => Shape.cube.place P ![(p 0 - 1) / 2, (p 1 + 1) / 2, p 2] := by
  have e : child .cube4 P 2 = some (Shape.cube.place fun i => [Shape.cube.place P ![-1, 0, -1], Shape.cube.place P ![0, 0, -1], P 2, Shape.cube.place P ![0, 1, -1], Shape.cube.place P ![-1, 0, 1], Shape.cube.place P ![0, 0, 1], P 6, Shape.cube.place P ![0, 1, 1]].getD i 0) := rfl
  rw [e]
  refine congrArg some (funext fun p => ?_)
  simp only [place_cube]
  simp
  norm_num
  module

theorem follow_cube4_3 (P : Nat → V) :
    child .cube4 P 3 = some fun p => Shape.cube.place P ![(p 0 + 1) / 2, (p 1 + 1) / 2, p 2] := by
  have e : child .cube4 P 3 = some (Shape.cube.place fun i => [Shape.cube.place P ![0, 0, -1], Shape.cube.place P ![1, 0, -1], Shape.cube.place P ![0, 1, -1], P 3, Shape.cube.place P ![0, 0, 1], Shape.cube.place P ![1, 0, 1], Shape.cube.place P ![0, 1, 1], P 7].getD i 0) := rfl
  rw [e]
  refine congrArg some (funext fun p => ?_)
  simp only [place_cube]
  simp
  norm_num
  module

theorem follow_tetrahedron0_0 (P : Nat → V) :
    child .tetrahedron0 P 0 = some fun p => Shape.tetrahedron.place P p := by
  have e : child .tetrahedron0 P 0 = some (Shape.tetrahedron.place fun i => [P 0, P 1, P 2, P 3].getD i 0) := rfl
  rw [e]
  refine congrArg some (funext fun p => ?_)
  simp [place_point, place_line, place_triangle, place_square, place_tetrahedron, place_pyramid, place_prism, place_cube]

theorem follow_pyramid0_0 (P : Nat → V) :
    child .pyramid0 P 0 = some fun p => Shape.pyramid.place P p := by
  have e : child .pyramid0 P 0 = some (Shape.pyramid.place fun i => [P 0, P 1, P 2, P 3, P 4].getD i 0) := rfl
  rw [e]
  refine congrArg some (funext fun p => ?_)
  simp [place_point, place_line, place_triangle, place_square, place_tetrahedron, place_pyramid, place_prism, place_cube]

theorem follow_prism0_0 (P : Nat → V) :
    child .prism0 P 0 = some fun p => Shape.prism.place P p := by
  have e : child .prism0 P 0 = some (Shape.prism.place fun i => [P 0, P 1, P 2, P 3, P 4, P 5].getD i 0) := rfl
  rw [e]
  refine congrArg some (funext fun p => ?_)
  simp [place_point, place_line, place_triangle, place_square, place_tetrahedron, place_pyramid, place_prism, place_cube]

theorem follow_prism1_0 (P : Nat → V) :
    child .prism1 P 0 = some fun p => Shape.prism.place P ![(1 / 2) * p 0, p 1, p 2] := by
  have e : child .prism1 P 0 = some (Shape.prism.place fun i => [P 0, Shape.prism.place P ![0.5, 0, -1], P 2, P 3, Shape.prism.place P ![0.5, 0, 1], P 5].getD i 0) := rfl
  rw [e]
  refine congrArg some (funext fun p => ?_)
  simp only [place_prism]
  simp
  norm_num
  module

theorem follow_prism1_1 (P : Nat → V) :
    child .prism1 P 1 = some fun p => Shape.prism.place P ![1 / 2 + (1 / 2) * p 0 + (-1 / 2) * p 1, p 1, p 2] := by
  have e : child .prism1 P 1 = some (Shape.prism.place fun i => [Shape.prism.place P ![0.5, 0, -1], P 1, P 2, Shape.prism.place P ![0.5, 0, 1], P 4, P 5].getD i 0) := rfl
  rw [e]
  refine congrArg some (funext fun p => ?_)
  simp only [place_prism]
  simp
  norm_num
  module

theorem follow_prism2_0 (P : Nat → V) :
    child .prism2 P 0 = some fun p => Shape.prism.place P ![p 0, (1 / 2) * p 1, p 2] := by
  have e : child .prism2 P 0 = some (Shape.prism.place fun i => [P 0, P 1, Shape.prism.place P ![0, 0.5, -1], P 3, P 4, Shape.prism.place P ![0, 0.5, 1]].getD i 0) := rfl
  rw [e]
  refine congrArg some (funext fun p => ?_)
  simp only [place_prism]
  simp
  norm_num
  module

theorem follow_prism2_1 (P : Nat → V) :
    child .prism2 P 1 = some fun p => Shape.prism.place P ![p 0, 1 / 2 + (-1 / 2) * p 0 + (1 / 2) * p 1, p 2] := by
  have e : child .prism2 P 1 = some (Shape.prism.place fun i => [Shape.prism.place P ![0, 0.5, -1], P 1, P 2, Shape.prism.place P ![0, 0.5, 1], P 4, P 5].getD i 0) := rfl
  rw [e]
  refine congrArg some (funext fun p => ?_)
  simp only [place_prism]
  simp
  norm_num
  module

theorem follow_prism3_0 (P : Nat → V) :
    child .prism3 P 0 = some fun p => Shape.prism.place P ![0.5 * p 0, 0.5 * p 0 + p 1, p 2] := by
  have e : child .prism3 P 0 = some (Shape.prism.place fun i => [P 0, Shape.prism.place P ![0.5, 0.5, -1], P 2, P 3, Shape.prism.place P ![0.5, 0.5, 1], P 5].getD i 0) := rfl
  rw [e]
  refine congrArg some (funext fun p => ?_)
  simp only [place_prism]
  simp
  norm_num
  module

theorem follow_prism3_1 (P : Nat → V) :
    child .prism3 P 1 = some fun p => Shape.prism.place P ![p 0 + 0.5 * p 1, 0.5 * p 1, p 2] := by
  have e : child .prism3 P 1 = some (Shape.prism.place fun i => [P 0, P 1, Shape.prism.place P ![0.5, 0.5, -1], P 3, P 4, Shape.prism.place P ![0.5, 0.5, 1]].getD i 0) := rfl
  rw [e]
  refine congrArg some (funext fun p => ?_)
  simp only [place_prism]
  simp
  norm_num
  module

theorem follow_prism4_0 (P : Nat → V) :
    child .prism4 P 0 = some fun p => Shape.prism.place P ![0.5 * p 0, 0.5 * p 1, p 2] := by
  have e : child .prism4 P 0 = some (Shape.prism.place fun i => [P 0, Shape.prism.place P ![0.5, 0, -1], Shape.prism.place P ![0, 0.5, -1], P 3, Shape.prism.place P ![0.5, 0, 1], Shape.prism.place P ![0, 0.5, 1]].getD i 0) := rfl
  rw [e]
  refine congrArg some (funext fun p => ?_)
  simp only [place_prism]
  simp
  norm_num
  module

theorem follow_prism4_1 (P : Nat → V) :
    child .prism4 P 1 = some fun p => Shape.prism.place P ![0.5 + 0.5 * p 0, 0.5 * p 1, p 2] := by
  have e : child .prism4 P 1 = some (Shape.prism.place fun i => [Shape.prism.place P ![0.5, 0, -1], P 1, Shape.prism.place P ![0.5, 0.5, -1], Shape.prism.place P ![0.5, 0, 1], P 4, Shape.prism.place P ![0.5, 0.5, 1]].getD i 0) := rfl
  rw [e]
  refine congrArg some (funext fun p => ?_)
  simp only [place_prism]
  simp
  norm_num
  module

theorem follow_prism4_2 (P : Nat → V) :
    child .prism4 P 2 = some fun p => Shape.prism.place P ![0.5 * p 0, 0.5 + 0.5 * p 1, p 2] := by
  have e : child .prism4 P 2 = some (Shape.prism.place fun i => [Shape.prism.place P ![0, 0.5, -1], Shape.prism.place P ![0.5, 0.5, -1], P 2, Shape.prism.place P ![0, 0.5, 1], Shape.prism.place P ![0.5, 0.5, 1], P 5].getD i 0) := rfl
  rw [e]
  refine congrArg some (funext fun p => ?_)
  simp only [place_prism]
  simp
  norm_num
  module

theorem follow_prism4_3 (P : Nat → V) :
    child .prism4 P 3 = some fun p => Shape.prism.place P ![0.5 - 0.5 * p 0, 0.5 - 0.5 * p 1, p 2] := by
  have e : child .prism4 P 3 = some (Shape.prism.place fun i => [Shape.prism.place P ![0.5, 0.5, -1], Shape.prism.place P ![0, 0.5, -1], Shape.prism.place P ![0.5, 0, -1], Shape.prism.place P ![0.5, 0.5, 1], Shape.prism.place P ![0, 0.5, 1], Shape.prism.place P ![0.5, 0, 1]].getD i 0) := rfl
  rw [e]
  refine congrArg some (funext fun p => ?_)
  simp only [place_prism]
  simp
  norm_num
  module

theorem follow_prism6_0 (P : Nat → V) :
    child .prism6 P 0 = some fun p => Shape.prism.place P ![(p 1 + 1) * (5 + p 0) / 24, (1 - p 0) * (5 - p 1) / 24, p 2] := by
  have e : child .prism6 P 0 = some (Shape.cube.place fun i => [Shape.prism.place P ![0, 0.5, -1], P 0, Shape.prism.place P ![1 / 3, 1 / 3, -1], Shape.prism.place P ![0.5, 0, -1], Shape.prism.place P ![0, 0.5, 1], P 3, Shape.prism.place P ![1 / 3, 1 / 3, 1], Shape.prism.place P ![0.5, 0, 1]].getD i 0) := rfl
  rw [e]
  refine congrArg some (funext fun p => ?_)
  simp only [place_cube, place_prism]
  simp
  norm_num
  module

theorem follow_prism6_1 (P : Nat → V) :
    child .prism6 P 1 = some fun p => Shape.prism.place P ![((p 0 + 2) * (2 - p 1) + 3) / 12, (p 1 + 1) * (5 + p 0) / 24, p 2] := by
  have e : child .prism6 P 1 = some (Shape.cube.place fun i => [Shape.prism.place P ![0.5, 0, -1], P 1, Shape.prism.place P ![1 / 3, 1 / 3, -1], Shape.prism.place P ![0.5, 0.5, -1], Shape.prism.place P ![0.5, 0, 1], P 4, Shape.prism.place P ![1 / 3, 1 / 3, 1], Shape.prism.place P ![0.5, 0.5, 1]].getD i 0) := rfl
  rw [e]
  refine congrArg some (funext fun p => ?_)
  simp only [place_cube, place_prism]
  simp
  norm_num
  module

theorem follow_prism6_2 (P : Nat → V) :
    child .prism6 P 2 = some fun p => Shape.prism.place P ![(1 - p 0) * (5 - p 1) / 24, ((p 0 + 2) * (2 - p 1) + 3) / 12, p 2] := by
  have e : child .prism6 P 2 = some (Shape.cube.place fun i => [Shape.prism.place P ![0.5, 0.5, -1], P 2, Shape.prism.place P ![1 / 3, 1 / 3, -1], Shape.prism.place P ![0, 0.5, -1], Shape.prism.place P ![0.5, 0.5, 1], P 5, Shape.prism.place P ![1 / 3, 1 / 3, 1], Shape.prism.place P ![0, 0.5, 1]].getD i 0) := rfl
  rw [e]
  refine congrArg some (funext fun p => ?_)
  simp only [place_cube, place_prism]
  simp
  norm_num
  module

theorem follow_prism7_0 (P : Nat → V) :
    child .prism7 P 0 = some fun p => Shape.prism.place P ![(1 + p 0) / 4, (p 1 + 1) * (3 - p 0) / 8, p 2] := by
  have e : child .prism7 P 0 = some (Shape.cube.place fun i => [P 0, Shape.prism.place P ![0.5, 0, -1], P 2, Shape.prism.place P ![0.5, 0.5, -1], P 3, Shape.prism.place P ![0.5, 0, 1], P 5, Shape.prism.place P ![0.5, 0.5, 1]].getD i 0) := rfl
  rw [e]
  refine congrArg some (funext fun p => ?_)
  simp only [place_cube, place_prism]
  simp
  norm_num
  module

theorem follow_prism7_1 (P : Nat → V) :
    child .prism7 P 1 = some fun p => Shape.prism.place P ![(1 + p 0) / 2, p 1 / 2, p 2] := by
  have e : child .prism7 P 1 = some (Shape.prism.place fun i => [Shape.prism.place P ![0.5, 0, -1], P 1, Shape.prism.place P ![0.5, 0.5, -1], Shape.prism.place P ![0.5, 0, 1], P 4, Shape.prism.place P ![0.5, 0.5, 1]].getD i 0) := rfl
  rw [e]
  refine congrArg some (funext fun p => ?_)
  simp only [place_prism]
  simp
  norm_num
  module

theorem follow_prism8_0 (P : Nat → V) :
    child .prism8 P 0 = some fun p => Shape.prism.place P ![(p 0 + 1) * (3 - p 1) / 8, (1 + p 1) / 4, p 2] := by
  have e : child .prism8 P 0 = some (Shape.cube.place fun i => [P 0, P 1, Shape.prism.place P ![0, 0.5, -1], Shape.prism.place P ![0.5, 0.5, -1], P 3, P 4, Shape.prism.place P ![0, 0.5, 1], Shape.prism.place P ![0.5, 0.5, 1]].getD i 0) := rfl
  rw [e]
  refine congrArg some (funext fun p => ?_)
  simp only [place_cube, place_prism]
  simp
  norm_num
  module

theorem follow_prism8_1 (P : Nat → V) :
    child .prism8 P 1 = some fun p => Shape.prism.place P ![p 0 / 2, (1 + p 1) / 2, p 2] := by
  have e : child .prism8 P 1 = some (Shape.prism.place fun i => [Shape.prism.place P ![0, 0.5, -1], Shape.prism.place P ![0.5, 0.5, -1], P 2, Shape.prism.place P ![0, 0.5, 1], Shape.prism.place P ![0.5, 0.5, 1], P 5].getD i 0) := rfl
  rw [e]
  refine congrArg some (funext fun p => ?_)
  simp only [place_prism]
  simp
  norm_num
  module

theorem follow_prism9_0 (P : Nat → V) :
    child .prism9 P 0 = some fun p => Shape.prism.place P ![p 0 / 2, p 1 / 2, p 2] := by
  have e : child .prism9 P 0 = some (Shape.prism.place fun i => [P 0, Shape.prism.place P ![0.5, 0, -1], Shape.prism.place P ![0, 0.5, -1], P 3, Shape.prism.place P ![0.5, 0, 1], Shape.prism.place P ![0, 0.5, 1]].getD i 0) := rfl
  rw [e]
  refine congrArg some (funext fun p => ?_)
  simp only [place_prism]
  simp
  norm_num
  module

theorem follow_prism9_1 (P : Nat → V) :
    child .prism9 P 1 = some fun p => Shape.prism.place P ![(1 - p 1) * (3 + p 0) / 8, (1 + p 1) * (3 + p 0) / 8, p 2] := by
  have e : child .prism9 P 1 = some (Shape.cube.place fun i => [Shape.prism.place P ![0.5, 0, -1], P 1, Shape.prism.place P ![0, 0.5, -1], P 2, Shape.prism.place P ![0.5, 0, 1], P 4, Shape.prism.place P ![0, 0.5, 1], P 5].getD i 0) := rfl
  rw [e]
  refine congrArg some (funext fun p => ?_)
  simp only [place_cube, place_prism]
  simp
  norm_num
  module

end Verif.Refine
