import Verif.Refine.Spec
import Mathlib.Tactic.Module
import Mathlib.Tactic.FinCases
import Mathlib.Tactic.Ring
import Mathlib.Tactic.Linarith
import Mathlib.Tactic.FieldSimp

/-! # The maps to physical space as weighted sums -/
set_option linter.all false
namespace Verif.Refine
open Verif.RefGeometry (Pt Geom Face)

section
variable {V : Type*} [AddCommGroup V] [Module ℝ V]

theorem place_point (P : Nat → V) (p : Pt 0) : Shape.point.place P p = P 0 := rfl

theorem place_line (P : Nat → V) (p : Pt 1) : Shape.line.place P p = ((1 - p 0) / 2) • P 0 + ((1 + p 0) / 2) • P 1 := by
  show PhysMap.line P p = _
  simp only [PhysMap.line, PhysMap.mid, PhysMap.slope]
  norm_num
  module

theorem place_triangle (P : Nat → V) (p : Pt 2) :
    Shape.triangle.place P p = (1 - p 0 - p 1) • P 0 + p 0 • P 1 + p 1 • P 2 := by
  show PhysMap.simplex P p = _
  simp [PhysMap.simplex, PhysMap.simplexLoop]
  module

theorem place_tetrahedron (P : Nat → V) (p : Pt 3) :
    Shape.tetrahedron.place P p = (1 - p 0 - p 1 - p 2) • P 0 + p 0 • P 1 + p 1 • P 2 + p 2 • P 3 := by
  show PhysMap.simplex P p = _
  simp [PhysMap.simplex, PhysMap.simplexLoop]
  module

theorem place_square (P : Nat → V) (p : Pt 2) :
    Shape.square.place P p = ((1 - p 0) * (1 - p 1) / 4) • P 0 + ((1 + p 0) * (1 - p 1) / 4) • P 1 +
      ((1 - p 0) * (1 + p 1) / 4) • P 2 + ((1 + p 0) * (1 + p 1) / 4) • P 3 := by
  show PhysMap.square P p = _
  simp only [PhysMap.square, PhysMap.reinit2]
  norm_num
  module

theorem place_cube (P : Nat → V) (p : Pt 3) :
    Shape.cube.place P p = ((1 - p 0) * (1 - p 1) * (1 - p 2) / 8) • P 0 + ((1 + p 0) * (1 - p 1) * (1 - p 2) / 8) • P 1 +
      ((1 - p 0) * (1 + p 1) * (1 - p 2) / 8) • P 2 + ((1 + p 0) * (1 + p 1) * (1 - p 2) / 8) • P 3 +
      ((1 - p 0) * (1 - p 1) * (1 + p 2) / 8) • P 4 + ((1 + p 0) * (1 - p 1) * (1 + p 2) / 8) • P 5 +
      ((1 - p 0) * (1 + p 1) * (1 + p 2) / 8) • P 6 + ((1 + p 0) * (1 + p 1) * (1 + p 2) / 8) • P 7 := by
  show PhysMap.cube P p = _
  simp only [PhysMap.cube, PhysMap.reinit3]
  norm_num
  module

theorem place_prism (P : Nat → V) (p : Pt 3) :
    Shape.prism.place P p = ((1 - p 0 - p 1) * (1 - p 2) / 2) • P 0 + (p 0 * (1 - p 2) / 2) • P 1 + (p 1 * (1 - p 2) / 2) • P 2 +
      ((1 - p 0 - p 1) * (1 + p 2) / 2) • P 3 + (p 0 * (1 + p 2) / 2) • P 4 + (p 1 * (1 + p 2) / 2) • P 5 := by
  show PhysMap.prism P p = _
  simp [PhysMap.prism, PhysMap.weigh, PhysMap.prismWeights]
  norm_num
  module

theorem place_pyramid (P : Nat → V) (p : Pt 3) :
    Shape.pyramid.place P p = p 2 • P 0 +
      (0.25 * (1 - p 0 - p 1 + p 0 * p 1 - p 2 + p 0 * p 1 * p 2 / PhysMap.tipDenominator (p 2))) • P 1 +
      (0.25 * (1 + p 0 - p 1 - p 0 * p 1 - p 2 - p 0 * p 1 * p 2 / PhysMap.tipDenominator (p 2))) • P 2 +
      (0.25 * (1 - p 0 + p 1 - p 0 * p 1 - p 2 - p 0 * p 1 * p 2 / PhysMap.tipDenominator (p 2))) • P 3 +
      (0.25 * (1 + p 0 + p 1 + p 0 * p 1 - p 2 + p 0 * p 1 * p 2 / PhysMap.tipDenominator (p 2))) • P 4 := by
  show PhysMap.pyramid P p = _
  simp [PhysMap.pyramid, PhysMap.weigh, PhysMap.pyramidWeights]

end

/-! The positions of the corners in the reference shapes. -/

theorem place_corner {d : Nat} (sh : Shape d) (p : Pt d) : sh.place sh.corner p = p := by
  cases sh <;> ext i <;>
    simp only [place_point, place_line, place_triangle, place_square, place_tetrahedron, place_pyramid, place_prism, place_cube,
      Shape.corner, Shape.geom, RefGeometry.pointG, RefGeometry.lineG, RefGeometry.triangleG, RefGeometry.squareG,
      RefGeometry.tetrahedronG, RefGeometry.pyramidG, RefGeometry.prismG, RefGeometry.cubeG] <;>
    fin_cases i <;> simp <;> ring

theorem corners_length {d : Nat} (sh : Shape d) : sh.geom.nodes.length = sh.corners := by cases sh <;> rfl

end Verif.Refine
