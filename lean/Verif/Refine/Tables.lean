import Verif.Refine.TileCurved
import Verif.Refine.Follow

/-! # The tables, one by one -/
set_option linter.all false
namespace Verif.Refine
open Verif.RefGeometry (Pt Geom Face)

theorem wf_point0 : Wellformed .point0 := by
  refine ⟨rfl, ?_, ?_⟩
  · intro s hs
    have hs : s < 1 := hs
    interval_cases s
    all_goals exact ⟨_, _, rfl, rfl, rfl, by decide⟩
  · intro s hs
    obtain ⟨k, rfl⟩ := Nat.exists_eq_add_of_le' hs
    have hk : ¬ k + 1 < 1 := by omega
    refine ⟨?_, ?_, fun p => ⟨?_, ?_, ?_⟩⟩ <;> first | rfl | simp [Name.table, Refine.point0]

theorem tiles_point0 : Tiles .point0 := by
  refine ⟨_, _, fun s hs => ?_, tiling_id _⟩
  have hs : s < 1 := hs
  interval_cases s
  · exact ⟨rfl, (follow_point0_0 _).trans (congrArg some (funext fun p => place_corner _ _))⟩

theorem wf_line0 : Wellformed .line0 := by
  refine ⟨rfl, ?_, ?_⟩
  · intro s hs
    have hs : s < 1 := hs
    interval_cases s
    all_goals exact ⟨_, _, rfl, rfl, rfl, by decide⟩
  · intro s hs
    obtain ⟨k, rfl⟩ := Nat.exists_eq_add_of_le' hs
    have hk : ¬ k + 1 < 1 := by omega
    refine ⟨?_, ?_, fun p => ⟨?_, ?_, ?_⟩⟩ <;> first | rfl | simp [Name.table, Refine.line0]

theorem tiles_line0 : Tiles .line0 := by
  refine ⟨_, _, fun s hs => ?_, tiling_id _⟩
  have hs : s < 1 := hs
  interval_cases s
  · exact ⟨rfl, (follow_line0_0 _).trans (congrArg some (funext fun p => place_corner _ _))⟩

theorem wf_line1 : Wellformed .line1 := by
  refine ⟨rfl, ?_, ?_⟩
  · intro s hs
    have hs : s < 2 := hs
    interval_cases s
    all_goals exact ⟨_, _, rfl, rfl, rfl, by decide⟩
  · intro s hs
    obtain ⟨k, rfl⟩ := Nat.exists_eq_add_of_le' hs
    have hk : ¬ k + 2 < 2 := by omega
    refine ⟨?_, ?_, fun p => ⟨?_, ?_, ?_⟩⟩ <;> first | rfl | simp [Name.table, Refine.line1]

theorem tiles_line1 : Tiles .line1 := by
  refine ⟨_, _, fun s hs => ?_, tiling_line1⟩
  have hs : s < 2 := hs
  interval_cases s
  · exact ⟨rfl, (follow_line1_0 _).trans (congrArg some (funext fun p => place_corner _ _))⟩
  · exact ⟨rfl, (follow_line1_1 _).trans (congrArg some (funext fun p => place_corner _ _))⟩

theorem wf_square0 : Wellformed .square0 := by
  refine ⟨rfl, ?_, ?_⟩
  · intro s hs
    have hs : s < 1 := hs
    interval_cases s
    all_goals exact ⟨_, _, rfl, rfl, rfl, by decide⟩
  · intro s hs
    obtain ⟨k, rfl⟩ := Nat.exists_eq_add_of_le' hs
    have hk : ¬ k + 1 < 1 := by omega
    refine ⟨?_, ?_, fun p => ⟨?_, ?_, ?_⟩⟩ <;> first | rfl | simp [Name.table, Refine.square0]

theorem tiles_square0 : Tiles .square0 := by
  refine ⟨_, _, fun s hs => ?_, tiling_id _⟩
  have hs : s < 1 := hs
  interval_cases s
  · exact ⟨rfl, (follow_square0_0 _).trans (congrArg some (funext fun p => place_corner _ _))⟩

theorem wf_square1 : Wellformed .square1 := by
  refine ⟨rfl, ?_, ?_⟩
  · intro s hs
    have hs : s < 2 := hs
    interval_cases s
    all_goals exact ⟨_, _, rfl, rfl, rfl, by decide⟩
  · intro s hs
    obtain ⟨k, rfl⟩ := Nat.exists_eq_add_of_le' hs
    have hk : ¬ k + 2 < 2 := by omega
    refine ⟨?_, ?_, fun p => ⟨?_, ?_, ?_⟩⟩ <;> first | rfl | simp [Name.table, Refine.square1]

theorem tiles_square1 : Tiles .square1 := by
  refine ⟨_, _, fun s hs => ?_, tiling_square1⟩
  have hs : s < 2 := hs
  interval_cases s
  · exact ⟨rfl, (follow_square1_0 _).trans (congrArg some (funext fun p => place_corner _ _))⟩
  · exact ⟨rfl, (follow_square1_1 _).trans (congrArg some (funext fun p => place_corner _ _))⟩

theorem wf_square2 : Wellformed .square2 := by
  refine ⟨rfl, ?_, ?_⟩
  · intro s hs
    have hs : s < 2 := hs
    interval_cases s
    all_goals exact ⟨_, _, rfl, rfl, rfl, by decide⟩
  · intro s hs
    obtain ⟨k, rfl⟩ := Nat.exists_eq_add_of_le' hs
    have hk : ¬ k + 2 < 2 := by omega
    refine ⟨?_, ?_, fun p => ⟨?_, ?_, ?_⟩⟩ <;> first | rfl | simp [Name.table, Refine.square2]

theorem tiles_square2 : Tiles .square2 := by
  refine ⟨_, _, fun s hs => ?_, tiling_square2⟩
  have hs : s < 2 := hs
  interval_cases s
  · exact ⟨rfl, (follow_square2_0 _).trans (congrArg some (funext fun p => place_corner _ _))⟩
  · exact ⟨rfl, (follow_square2_1 _).trans (congrArg some (funext fun p => place_corner _ _))⟩

theorem wf_square3 : Wellformed .square3 := by
  refine ⟨rfl, ?_, ?_⟩
  · intro s hs
    have hs : s < 4 := hs
    interval_cases s
    all_goals exact ⟨_, _, rfl, rfl, rfl, by decide⟩
  · intro s hs
    obtain ⟨k, rfl⟩ := Nat.exists_eq_add_of_le' hs
    have hk : ¬ k + 4 < 4 := by omega
    refine ⟨?_, ?_, fun p => ⟨?_, ?_, ?_⟩⟩ <;> first | rfl | simp [Name.table, Refine.square3]

theorem tiles_square3 : Tiles .square3 := by
  refine ⟨_, _, fun s hs => ?_, tiling_square3⟩
  have hs : s < 4 := hs
  interval_cases s
  · exact ⟨rfl, (follow_square3_0 _).trans (congrArg some (funext fun p => place_corner _ _))⟩
  · exact ⟨rfl, (follow_square3_1 _).trans (congrArg some (funext fun p => place_corner _ _))⟩
  · exact ⟨rfl, (follow_square3_2 _).trans (congrArg some (funext fun p => place_corner _ _))⟩
  · exact ⟨rfl, (follow_square3_3 _).trans (congrArg some (funext fun p => place_corner _ _))⟩

theorem wf_triangle0 : Wellformed .triangle0 := by
  refine ⟨rfl, ?_, ?_⟩
  · intro s hs
    have hs : s < 1 := hs
    interval_cases s
    all_goals exact ⟨_, _, rfl, rfl, rfl, by decide⟩
  · intro s hs
    obtain ⟨k, rfl⟩ := Nat.exists_eq_add_of_le' hs
    have hk : ¬ k + 1 < 1 := by omega
    refine ⟨?_, ?_, fun p => ⟨?_, ?_, ?_⟩⟩ <;> first | rfl | simp [Name.table, Refine.triangle0]

theorem tiles_triangle0 : Tiles .triangle0 := by
  refine ⟨_, _, fun s hs => ?_, tiling_id _⟩
  have hs : s < 1 := hs
  interval_cases s
  · exact ⟨rfl, (follow_triangle0_0 _).trans (congrArg some (funext fun p => place_corner _ _))⟩

theorem wf_triangle1 : Wellformed .triangle1 := by
  refine ⟨rfl, ?_, ?_⟩
  · intro s hs
    have hs : s < 2 := hs
    interval_cases s
    all_goals exact ⟨_, _, rfl, rfl, rfl, by decide⟩
  · intro s hs
    obtain ⟨k, rfl⟩ := Nat.exists_eq_add_of_le' hs
    have hk : ¬ k + 2 < 2 := by omega
    refine ⟨?_, ?_, fun p => ⟨?_, ?_, ?_⟩⟩ <;> first | rfl | simp [Name.table, Refine.triangle1]

theorem tiles_triangle1 : Tiles .triangle1 := by
  refine ⟨_, _, fun s hs => ?_, tiling_triangle1⟩
  have hs : s < 2 := hs
  interval_cases s
  · exact ⟨rfl, (follow_triangle1_0 _).trans (congrArg some (funext fun p => place_corner _ _))⟩
  · exact ⟨rfl, (follow_triangle1_1 _).trans (congrArg some (funext fun p => place_corner _ _))⟩

theorem wf_triangle2 : Wellformed .triangle2 := by
  refine ⟨rfl, ?_, ?_⟩
  · intro s hs
    have hs : s < 2 := hs
    interval_cases s
    all_goals exact ⟨_, _, rfl, rfl, rfl, by decide⟩
  · intro s hs
    obtain ⟨k, rfl⟩ := Nat.exists_eq_add_of_le' hs
    have hk : ¬ k + 2 < 2 := by omega
    refine ⟨?_, ?_, fun p => ⟨?_, ?_, ?_⟩⟩ <;> first | rfl | simp [Name.table, Refine.triangle2]

theorem tiles_triangle2 : Tiles .triangle2 := by
  refine ⟨_, _, fun s hs => ?_, tiling_triangle2⟩
  have hs : s < 2 := hs
  interval_cases s
  · exact ⟨rfl, (follow_triangle2_0 _).trans (congrArg some (funext fun p => place_corner _ _))⟩
  · exact ⟨rfl, (follow_triangle2_1 _).trans (congrArg some (funext fun p => place_corner _ _))⟩

theorem wf_triangle3 : Wellformed .triangle3 := by
  refine ⟨rfl, ?_, ?_⟩
  · intro s hs
    have hs : s < 2 := hs
    interval_cases s
    all_goals exact ⟨_, _, rfl, rfl, rfl, by decide⟩
  · intro s hs
    obtain ⟨k, rfl⟩ := Nat.exists_eq_add_of_le' hs
    have hk : ¬ k + 2 < 2 := by omega
    refine ⟨?_, ?_, fun p => ⟨?_, ?_, ?_⟩⟩ <;> first | rfl | simp [Name.table, Refine.triangle3]

theorem tiles_triangle3 : Tiles .triangle3 := by
  refine ⟨_, _, fun s hs => ?_, tiling_triangle3⟩
  have hs : s < 2 := hs
  interval_cases s
  · exact ⟨rfl, (follow_triangle3_0 _).trans (congrArg some (funext fun p => place_corner _ _))⟩
  · exact ⟨rfl, (follow_triangle3_1 _).trans (congrArg some (funext fun p => place_corner _ _))⟩

theorem wf_triangle4 : Wellformed .triangle4 := by
  refine ⟨rfl, ?_, ?_⟩
  · intro s hs
    have hs : s < 4 := hs
    interval_cases s
    all_goals exact ⟨_, _, rfl, rfl, rfl, by decide⟩
  · intro s hs
    obtain ⟨k, rfl⟩ := Nat.exists_eq_add_of_le' hs
    have hk : ¬ k + 4 < 4 := by omega
    refine ⟨?_, ?_, fun p => ⟨?_, ?_, ?_⟩⟩ <;> first | rfl | simp [Name.table, Refine.triangle4]

theorem tiles_triangle4 : Tiles .triangle4 := by
  refine ⟨_, _, fun s hs => ?_, tiling_triangle4⟩
  have hs : s < 4 := hs
  interval_cases s
  · exact ⟨rfl, (follow_triangle4_0 _).trans (congrArg some (funext fun p => place_corner _ _))⟩
  · exact ⟨rfl, (follow_triangle4_1 _).trans (congrArg some (funext fun p => place_corner _ _))⟩
  · exact ⟨rfl, (follow_triangle4_2 _).trans (congrArg some (funext fun p => place_corner _ _))⟩
  · exact ⟨rfl, (follow_triangle4_3 _).trans (congrArg some (funext fun p => place_corner _ _))⟩

theorem wf_triangle5 : Wellformed .triangle5 := by
  refine ⟨rfl, ?_, ?_⟩
  · intro s hs
    have hs : s < 3 := hs
    interval_cases s
    all_goals exact ⟨_, _, rfl, rfl, rfl, by decide⟩
  · intro s hs
    obtain ⟨k, rfl⟩ := Nat.exists_eq_add_of_le' hs
    have hk : ¬ k + 3 < 3 := by omega
    refine ⟨?_, ?_, fun p => ⟨?_, ?_, ?_⟩⟩ <;> first | rfl | simp [Name.table, Refine.triangle5]

theorem tiles_triangle5 : Tiles .triangle5 := by
  refine ⟨_, _, fun s hs => ?_, tiling_triangle5⟩
  have hs : s < 3 := hs
  interval_cases s
  · exact ⟨rfl, (follow_triangle5_0 _).trans (congrArg some (funext fun p => place_corner _ _))⟩
  · exact ⟨rfl, (follow_triangle5_1 _).trans (congrArg some (funext fun p => place_corner _ _))⟩
  · exact ⟨rfl, (follow_triangle5_2 _).trans (congrArg some (funext fun p => place_corner _ _))⟩

theorem wf_triangle6 : Wellformed .triangle6 := by
  refine ⟨rfl, ?_, ?_⟩
  · intro s hs
    have hs : s < 2 := hs
    interval_cases s
    all_goals exact ⟨_, _, rfl, rfl, rfl, by decide⟩
  · intro s hs
    obtain ⟨k, rfl⟩ := Nat.exists_eq_add_of_le' hs
    have hk : ¬ k + 2 < 2 := by omega
    refine ⟨?_, ?_, fun p => ⟨?_, ?_, ?_⟩⟩ <;> first | rfl | simp [Name.table, Refine.triangle6]

theorem tiles_triangle6 : Tiles .triangle6 := by
  refine ⟨_, _, fun s hs => ?_, tiling_triangle6⟩
  have hs : s < 2 := hs
  interval_cases s
  · exact ⟨rfl, (follow_triangle6_0 _).trans (congrArg some (funext fun p => place_corner _ _))⟩
  · exact ⟨rfl, (follow_triangle6_1 _).trans (congrArg some (funext fun p => place_corner _ _))⟩

theorem wf_triangle7 : Wellformed .triangle7 := by
  refine ⟨rfl, ?_, ?_⟩
  · intro s hs
    have hs : s < 2 := hs
    interval_cases s
    all_goals exact ⟨_, _, rfl, rfl, rfl, by decide⟩
  · intro s hs
    obtain ⟨k, rfl⟩ := Nat.exists_eq_add_of_le' hs
    have hk : ¬ k + 2 < 2 := by omega
    refine ⟨?_, ?_, fun p => ⟨?_, ?_, ?_⟩⟩ <;> first | rfl | simp [Name.table, Refine.triangle7]

theorem tiles_triangle7 : Tiles .triangle7 := by
  refine ⟨_, _, fun s hs => ?_, tiling_triangle7⟩
  have hs : s < 2 := hs
  interval_cases s
  · exact ⟨rfl, (follow_triangle7_0 _).trans (congrArg some (funext fun p => place_corner _ _))⟩
  · exact ⟨rfl, (follow_triangle7_1 _).trans (congrArg some (funext fun p => place_corner _ _))⟩

theorem wf_triangle8 : Wellformed .triangle8 := by
  refine ⟨rfl, ?_, ?_⟩
  · intro s hs
    have hs : s < 2 := hs
    interval_cases s
    all_goals exact ⟨_, _, rfl, rfl, rfl, by decide⟩
  · intro s hs
    obtain ⟨k, rfl⟩ := Nat.exists_eq_add_of_le' hs
    have hk : ¬ k + 2 < 2 := by omega
    refine ⟨?_, ?_, fun p => ⟨?_, ?_, ?_⟩⟩ <;> first | rfl | simp [Name.table, Refine.triangle8]

theorem tiles_triangle8 : Tiles .triangle8 := by
  refine ⟨_, _, fun s hs => ?_, tiling_triangle8⟩
  have hs : s < 2 := hs
  interval_cases s
  · exact ⟨rfl, (follow_triangle8_0 _).trans (congrArg some (funext fun p => place_corner _ _))⟩
  · exact ⟨rfl, (follow_triangle8_1 _).trans (congrArg some (funext fun p => place_corner _ _))⟩

theorem wf_cube0 : Wellformed .cube0 := by
  refine ⟨rfl, ?_, ?_⟩
  · intro s hs
    have hs : s < 1 := hs
    interval_cases s
    all_goals exact ⟨_, _, rfl, rfl, rfl, by decide⟩
  · intro s hs
    obtain ⟨k, rfl⟩ := Nat.exists_eq_add_of_le' hs
    have hk : ¬ k + 1 < 1 := by omega
    refine ⟨?_, ?_, fun p => ⟨?_, ?_, ?_⟩⟩ <;> first | rfl | simp [Name.table, Refine.cube0]

theorem tiles_cube0 : Tiles .cube0 := by
  refine ⟨_, _, fun s hs => ?_, tiling_id _⟩
  have hs : s < 1 := hs
  interval_cases s
  · exact ⟨rfl, (follow_cube0_0 _).trans (congrArg some (funext fun p => place_corner _ _))⟩

theorem wf_cube1 : Wellformed .cube1 := by
  refine ⟨rfl, ?_, ?_⟩
  · intro s hs
    have hs : s < 2 := hs
    interval_cases s
    all_goals exact ⟨_, _, rfl, rfl, rfl, by decide⟩
  · intro s hs
    obtain ⟨k, rfl⟩ := Nat.exists_eq_add_of_le' hs
    have hk : ¬ k + 2 < 2 := by omega
    refine ⟨?_, ?_, fun p => ⟨?_, ?_, ?_⟩⟩ <;> first | rfl | simp [Name.table, Refine.cube1]

theorem tiles_cube1 : Tiles .cube1 := by
  refine ⟨_, _, fun s hs => ?_, tiling_cube1⟩
  have hs : s < 2 := hs
  interval_cases s
  · exact ⟨rfl, (follow_cube1_0 _).trans (congrArg some (funext fun p => place_corner _ _))⟩
  · exact ⟨rfl, (follow_cube1_1 _).trans (congrArg some (funext fun p => place_corner _ _))⟩

theorem wf_cube2 : Wellformed .cube2 := by
  refine ⟨rfl, ?_, ?_⟩
  · intro s hs
    have hs : s < 2 := hs
    interval_cases s
    all_goals exact ⟨_, _, rfl, rfl, rfl, by decide⟩
  · intro s hs
    obtain ⟨k, rfl⟩ := Nat.exists_eq_add_of_le' hs
    have hk : ¬ k + 2 < 2 := by omega
    refine ⟨?_, ?_, fun p => ⟨?_, ?_, ?_⟩⟩ <;> first | rfl | simp [Name.table, Refine.cube2]

theorem tiles_cube2 : Tiles .cube2 := by
  refine ⟨_, _, fun s hs => ?_, tiling_cube2⟩
  have hs : s < 2 := hs
  interval_cases s
  · exact ⟨rfl, (follow_cube2_0 _).trans (congrArg some (funext fun p => place_corner _ _))⟩
  · exact ⟨rfl, (follow_cube2_1 _).trans (congrArg some (funext fun p => place_corner _ _))⟩

theorem wf_cube3 : Wellformed .cube3 := by
  refine ⟨rfl, ?_, ?_⟩
  · intro s hs
    have hs : s < 2 := hs
    interval_cases s
    all_goals exact ⟨_, _, rfl, rfl, rfl, by decide⟩
  · intro s hs
    obtain ⟨k, rfl⟩ := Nat.exists_eq_add_of_le' hs
    have hk : ¬ k + 2 < 2 := by omega
    refine ⟨?_, ?_, fun p => ⟨?_, ?_, ?_⟩⟩ <;> first | rfl | simp [Name.table, Refine.cube3]

theorem tiles_cube3 : Tiles .cube3 := by
  refine ⟨_, _, fun s hs => ?_, tiling_cube3⟩
  have hs : s < 2 := hs
  interval_cases s
  · exact ⟨rfl, (follow_cube3_0 _).trans (congrArg some (funext fun p => place_corner _ _))⟩
  · exact ⟨rfl, (follow_cube3_1 _).trans (congrArg some (funext fun p => place_corner _ _))⟩

theorem wf_cube4 : Wellformed .cube4 := by
  refine ⟨rfl, ?_, ?_⟩
  · intro s hs
    have hs : s < 4 := hs
    interval_cases s
    all_goals exact ⟨_, _, rfl, rfl, rfl, by decide⟩
  · intro s hs
    obtain ⟨k, rfl⟩ := Nat.exists_eq_add_of_le' hs
    have hk : ¬ k + 4 < 4 := by omega
    refine ⟨?_, ?_, fun p => ⟨?_, ?_, ?_⟩⟩ <;> first | rfl | simp [Name.table, Refine.cube4]

theorem tiles_cube4 : Tiles .cube4 := by
  refine ⟨_, _, fun s hs => ?_, tiling_cube4⟩
  have hs : s < 4 := hs
  interval_cases s
  · exact ⟨rfl, (follow_cube4_0 _).trans (congrArg some (funext fun p => place_corner _ _))⟩
  · exact ⟨rfl, (follow_cube4_1 _).trans (congrArg some (funext fun p => place_corner _ _))⟩
  · exact ⟨rfl, (follow_cube4_2 _).trans (congrArg some (funext fun p => place_corner _ _))⟩
  · exact ⟨rfl, (follow_cube4_3 _).trans (congrArg some (funext fun p => place_corner _ _))⟩

theorem wf_cube5 : Wellformed .cube5 := by
  refine ⟨rfl, ?_, ?_⟩
  · intro s hs
    have hs : s < 4 := hs
    interval_cases s
    all_goals exact ⟨_, _, rfl, rfl, rfl, by decide⟩
  · intro s hs
    obtain ⟨k, rfl⟩ := Nat.exists_eq_add_of_le' hs
    have hk : ¬ k + 4 < 4 := by omega
    refine ⟨?_, ?_, fun p => ⟨?_, ?_, ?_⟩⟩ <;> first | rfl | simp [Name.table, Refine.cube5]

theorem wf_cube6 : Wellformed .cube6 := by
  refine ⟨rfl, ?_, ?_⟩
  · intro s hs
    have hs : s < 4 := hs
    interval_cases s
    all_goals exact ⟨_, _, rfl, rfl, rfl, by decide⟩
  · intro s hs
    obtain ⟨k, rfl⟩ := Nat.exists_eq_add_of_le' hs
    have hk : ¬ k + 4 < 4 := by omega
    refine ⟨?_, ?_, fun p => ⟨?_, ?_, ?_⟩⟩ <;> first | rfl | simp [Name.table, Refine.cube6]

theorem wf_cube7 : Wellformed .cube7 := by
  refine ⟨rfl, ?_, ?_⟩
  · intro s hs
    have hs : s < 8 := hs
    interval_cases s
    all_goals exact ⟨_, _, rfl, rfl, rfl, by decide⟩
  · intro s hs
    obtain ⟨k, rfl⟩ := Nat.exists_eq_add_of_le' hs
    have hk : ¬ k + 8 < 8 := by omega
    refine ⟨?_, ?_, fun p => ⟨?_, ?_, ?_⟩⟩ <;> first | rfl | simp [Name.table, Refine.cube7]

theorem wf_tetrahedron0 : Wellformed .tetrahedron0 := by
  refine ⟨rfl, ?_, ?_⟩
  · intro s hs
    have hs : s < 1 := hs
    interval_cases s
    all_goals exact ⟨_, _, rfl, rfl, rfl, by decide⟩
  · intro s hs
    obtain ⟨k, rfl⟩ := Nat.exists_eq_add_of_le' hs
    have hk : ¬ k + 1 < 1 := by omega
    refine ⟨?_, ?_, fun p => ⟨?_, ?_, ?_⟩⟩ <;> first | rfl | simp [Name.table, Refine.tetrahedron0]

theorem tiles_tetrahedron0 : Tiles .tetrahedron0 := by
  refine ⟨_, _, fun s hs => ?_, tiling_id _⟩
  have hs : s < 1 := hs
  interval_cases s
  · exact ⟨rfl, (follow_tetrahedron0_0 _).trans (congrArg some (funext fun p => place_corner _ _))⟩

theorem wf_pyramid0 : Wellformed .pyramid0 := by
  refine ⟨rfl, ?_, ?_⟩
  · intro s hs
    have hs : s < 1 := hs
    interval_cases s
    all_goals exact ⟨_, _, rfl, rfl, rfl, by decide⟩
  · intro s hs
    obtain ⟨k, rfl⟩ := Nat.exists_eq_add_of_le' hs
    have hk : ¬ k + 1 < 1 := by omega
    refine ⟨?_, ?_, fun p => ⟨?_, ?_, ?_⟩⟩ <;> first | rfl | simp [Name.table, Refine.pyramid0]

theorem tiles_pyramid0 : Tiles .pyramid0 := by
  refine ⟨_, _, fun s hs => ?_, tiling_id _⟩
  have hs : s < 1 := hs
  interval_cases s
  · exact ⟨rfl, (follow_pyramid0_0 _).trans (congrArg some (funext fun p => place_corner _ _))⟩

theorem wf_prism0 : Wellformed .prism0 := by
  refine ⟨rfl, ?_, ?_⟩
  · intro s hs
    have hs : s < 1 := hs
    interval_cases s
    all_goals exact ⟨_, _, rfl, rfl, rfl, by decide⟩
  · intro s hs
    obtain ⟨k, rfl⟩ := Nat.exists_eq_add_of_le' hs
    have hk : ¬ k + 1 < 1 := by omega
    refine ⟨?_, ?_, fun p => ⟨?_, ?_, ?_⟩⟩ <;> first | rfl | simp [Name.table, Refine.prism0]

theorem tiles_prism0 : Tiles .prism0 := by
  refine ⟨_, _, fun s hs => ?_, tiling_id _⟩
  have hs : s < 1 := hs
  interval_cases s
  · exact ⟨rfl, (follow_prism0_0 _).trans (congrArg some (funext fun p => place_corner _ _))⟩

theorem wf_prism1 : Wellformed .prism1 := by
  refine ⟨rfl, ?_, ?_⟩
  · intro s hs
    have hs : s < 2 := hs
    interval_cases s
    all_goals exact ⟨_, _, rfl, rfl, rfl, by decide⟩
  · intro s hs
    obtain ⟨k, rfl⟩ := Nat.exists_eq_add_of_le' hs
    have hk : ¬ k + 2 < 2 := by omega
    refine ⟨?_, ?_, fun p => ⟨?_, ?_, ?_⟩⟩ <;> first | rfl | simp [Name.table, Refine.prism1]

theorem tiles_prism1 : Tiles .prism1 := by
  refine ⟨_, _, fun s hs => ?_, tiling_tower tiling_triangle1⟩
  have hs : s < 2 := hs
  interval_cases s
  · exact ⟨rfl, (follow_prism1_0 _).trans (congrArg some (funext fun p => place_corner _ _))⟩
  · exact ⟨rfl, (follow_prism1_1 _).trans (congrArg some (funext fun p => place_corner _ _))⟩

theorem wf_prism2 : Wellformed .prism2 := by
  refine ⟨rfl, ?_, ?_⟩
  · intro s hs
    have hs : s < 2 := hs
    interval_cases s
    all_goals exact ⟨_, _, rfl, rfl, rfl, by decide⟩
  · intro s hs
    obtain ⟨k, rfl⟩ := Nat.exists_eq_add_of_le' hs
    have hk : ¬ k + 2 < 2 := by omega
    refine ⟨?_, ?_, fun p => ⟨?_, ?_, ?_⟩⟩ <;> first | rfl | simp [Name.table, Refine.prism2]

theorem tiles_prism2 : Tiles .prism2 := by
  refine ⟨_, _, fun s hs => ?_, tiling_tower tiling_triangle2⟩
  have hs : s < 2 := hs
  interval_cases s
  · exact ⟨rfl, (follow_prism2_0 _).trans (congrArg some (funext fun p => place_corner _ _))⟩
  · exact ⟨rfl, (follow_prism2_1 _).trans (congrArg some (funext fun p => place_corner _ _))⟩

theorem wf_prism3 : Wellformed .prism3 := by
  refine ⟨rfl, ?_, ?_⟩
  · intro s hs
    have hs : s < 2 := hs
    interval_cases s
    all_goals exact ⟨_, _, rfl, rfl, rfl, by decide⟩
  · intro s hs
    obtain ⟨k, rfl⟩ := Nat.exists_eq_add_of_le' hs
    have hk : ¬ k + 2 < 2 := by omega
    refine ⟨?_, ?_, fun p => ⟨?_, ?_, ?_⟩⟩ <;> first | rfl | simp [Name.table, Refine.prism3]

theorem tiles_prism3 : Tiles .prism3 := by
  refine ⟨_, _, fun s hs => ?_, tiling_tower tiling_triangle3T⟩
  have hs : s < 2 := hs
  interval_cases s
  · exact ⟨rfl, (follow_prism3_0 _).trans (congrArg some (funext fun p => place_corner _ _))⟩
  · exact ⟨rfl, (follow_prism3_1 _).trans (congrArg some (funext fun p => place_corner _ _))⟩

theorem wf_prism4 : Wellformed .prism4 := by
  refine ⟨rfl, ?_, ?_⟩
  · intro s hs
    have hs : s < 4 := hs
    interval_cases s
    all_goals exact ⟨_, _, rfl, rfl, rfl, by decide⟩
  · intro s hs
    obtain ⟨k, rfl⟩ := Nat.exists_eq_add_of_le' hs
    have hk : ¬ k + 4 < 4 := by omega
    refine ⟨?_, ?_, fun p => ⟨?_, ?_, ?_⟩⟩ <;> first | rfl | simp [Name.table, Refine.prism4]

theorem tiles_prism4 : Tiles .prism4 := by
  refine ⟨_, _, fun s hs => ?_, tiling_tower tiling_triangle4⟩
  have hs : s < 4 := hs
  interval_cases s
  · exact ⟨rfl, (follow_prism4_0 _).trans (congrArg some (funext fun p => place_corner _ _))⟩
  · exact ⟨rfl, (follow_prism4_1 _).trans (congrArg some (funext fun p => place_corner _ _))⟩
  · exact ⟨rfl, (follow_prism4_2 _).trans (congrArg some (funext fun p => place_corner _ _))⟩
  · exact ⟨rfl, (follow_prism4_3 _).trans (congrArg some (funext fun p => place_corner _ _))⟩

theorem wf_prism5 : Wellformed .prism5 := by
  refine ⟨rfl, ?_, ?_⟩
  · intro s hs
    have hs : s < 2 := hs
    interval_cases s
    all_goals exact ⟨_, _, rfl, rfl, rfl, by decide⟩
  · intro s hs
    obtain ⟨k, rfl⟩ := Nat.exists_eq_add_of_le' hs
    have hk : ¬ k + 2 < 2 := by omega
    refine ⟨?_, ?_, fun p => ⟨?_, ?_, ?_⟩⟩ <;> first | rfl | simp [Name.table, Refine.prism5]

theorem wf_prism6 : Wellformed .prism6 := by
  refine ⟨rfl, ?_, ?_⟩
  · intro s hs
    have hs : s < 3 := hs
    interval_cases s
    all_goals exact ⟨_, _, rfl, rfl, rfl, by decide⟩
  · intro s hs
    obtain ⟨k, rfl⟩ := Nat.exists_eq_add_of_le' hs
    have hk : ¬ k + 3 < 3 := by omega
    refine ⟨?_, ?_, fun p => ⟨?_, ?_, ?_⟩⟩ <;> first | rfl | simp [Name.table, Refine.prism6]

theorem tiles_prism6 : Tiles .prism6 := by
  refine ⟨_, _, fun s hs => ?_, tiling_tower tiling_triangle5⟩
  have hs : s < 3 := hs
  interval_cases s
  · exact ⟨rfl, (follow_prism6_0 _).trans (congrArg some (funext fun p => place_corner _ _))⟩
  · exact ⟨rfl, (follow_prism6_1 _).trans (congrArg some (funext fun p => place_corner _ _))⟩
  · exact ⟨rfl, (follow_prism6_2 _).trans (congrArg some (funext fun p => place_corner _ _))⟩

theorem wf_prism7 : Wellformed .prism7 := by
  refine ⟨rfl, ?_, ?_⟩
  · intro s hs
    have hs : s < 2 := hs
    interval_cases s
    all_goals exact ⟨_, _, rfl, rfl, rfl, by decide⟩
  · intro s hs
    obtain ⟨k, rfl⟩ := Nat.exists_eq_add_of_le' hs
    have hk : ¬ k + 2 < 2 := by omega
    refine ⟨?_, ?_, fun p => ⟨?_, ?_, ?_⟩⟩ <;> first | rfl | simp [Name.table, Refine.prism7]

theorem tiles_prism7 : Tiles .prism7 := by
  refine ⟨_, _, fun s hs => ?_, tiling_tower tiling_triangle6⟩
  have hs : s < 2 := hs
  interval_cases s
  · exact ⟨rfl, (follow_prism7_0 _).trans (congrArg some (funext fun p => place_corner _ _))⟩
  · exact ⟨rfl, (follow_prism7_1 _).trans (congrArg some (funext fun p => place_corner _ _))⟩

theorem wf_prism8 : Wellformed .prism8 := by
  refine ⟨rfl, ?_, ?_⟩
  · intro s hs
    have hs : s < 2 := hs
    interval_cases s
    all_goals exact ⟨_, _, rfl, rfl, rfl, by decide⟩
  · intro s hs
    obtain ⟨k, rfl⟩ := Nat.exists_eq_add_of_le' hs
    have hk : ¬ k + 2 < 2 := by omega
    refine ⟨?_, ?_, fun p => ⟨?_, ?_, ?_⟩⟩ <;> first | rfl | simp [Name.table, Refine.prism8]

theorem tiles_prism8 : Tiles .prism8 := by
  refine ⟨_, _, fun s hs => ?_, tiling_tower tiling_triangle7⟩
  have hs : s < 2 := hs
  interval_cases s
  · exact ⟨rfl, (follow_prism8_0 _).trans (congrArg some (funext fun p => place_corner _ _))⟩
  · exact ⟨rfl, (follow_prism8_1 _).trans (congrArg some (funext fun p => place_corner _ _))⟩

theorem wf_prism9 : Wellformed .prism9 := by
  refine ⟨rfl, ?_, ?_⟩
  · intro s hs
    have hs : s < 2 := hs
    interval_cases s
    all_goals exact ⟨_, _, rfl, rfl, rfl, by decide⟩
  · intro s hs
    obtain ⟨k, rfl⟩ := Nat.exists_eq_add_of_le' hs
    have hk : ¬ k + 2 < 2 := by omega
    refine ⟨?_, ?_, fun p => ⟨?_, ?_, ?_⟩⟩ <;> first | rfl | simp [Name.table, Refine.prism9]

theorem tiles_prism9 : Tiles .prism9 := by
  refine ⟨_, _, fun s hs => ?_, tiling_tower tiling_triangle8⟩
  have hs : s < 2 := hs
  interval_cases s
  · exact ⟨rfl, (follow_prism9_0 _).trans (congrArg some (funext fun p => place_corner _ _))⟩
  · exact ⟨rfl, (follow_prism9_1 _).trans (congrArg some (funext fun p => place_corner _ _))⟩

end Verif.Refine
