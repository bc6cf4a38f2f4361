import Verif.Transform.LemmasFields
import Verif.PhysMap.Props

set_option linter.all false
namespace Verif.Transform
open Verif.RefGeometry (Pt)
open Matrix Topology

/-! ### The Jacobians of the elements -/

theorem jacobian_smooth (k : PhysMap.Kind) (p : Nat → Pt k.dim) (x : Pt k.dim) (hx : ∀ᶠ y in 𝓝 x, PhysMap.Regular k y)
    (i j : Fin k.dim) : DifferentiableAt ℝ (fun y => PhysMap.jacobian k p y i j) x := by
  cases k
  case line =>
    fin_cases j <;> simp [PhysMap.jacobian, PhysMap.cols]
  case triangle =>
    fin_cases j <;> simp [PhysMap.jacobian, PhysMap.cols, PhysMap.simplexCols]
  case tetrahedron =>
    fin_cases j <;> simp [PhysMap.jacobian, PhysMap.cols, PhysMap.simplexCols]
  case square =>
    fin_cases j <;> simp [PhysMap.jacobian, PhysMap.cols, PhysMap.squareCols] <;> fun_prop
  case cube =>
    fin_cases j <;> simp [PhysMap.jacobian, PhysMap.cols, PhysMap.cubeCols] <;> fun_prop
  case hypercube =>
    fin_cases j <;> simp [PhysMap.jacobian, PhysMap.cols, PhysMap.hypercubeCols]
  case triangle2 =>
    fin_cases j <;> simp [PhysMap.jacobian, PhysMap.cols, PhysMap.triangle2Cols, PhysMap.weigh, PhysMap.triangle2Derivs] <;> fun_prop
  case tetrahedron2 =>
    fin_cases j <;> simp [PhysMap.jacobian, PhysMap.cols, PhysMap.tetrahedron2Cols, PhysMap.weigh, PhysMap.tetrahedron2Derivs] <;> fun_prop
  case prism =>
    fin_cases j <;> simp [PhysMap.jacobian, PhysMap.cols, PhysMap.prismCols, PhysMap.weigh, PhysMap.prismDerivs] <;> fun_prop
  case pyramid =>
    have h1 : x 2 ≠ 1 := hx.self_of_nhds.2
    have h2 : (1 : ℝ) - x 2 ≠ 0 := fun h => h1 (by linarith)
    have e : (fun y => PhysMap.jacobian .pyramid p y i j) =ᶠ[𝓝 x]
        fun y => PhysMap.weigh (PhysMap.pyramidDerivs y j) p i := by
      filter_upwards [hx] with y hy
      show PhysMap.weigh (PhysMap.pyramidDerivs (PhysMap.awayFromTip y) j) p i = _
      rw [PhysMap.awayFromTip, if_neg hy.1]
    refine DifferentiableAt.congr_of_eventuallyEq ?_ e
    have hinv : DifferentiableAt ℝ (fun y : Pt 3 => ((1 : ℝ) - y 2)⁻¹) x := by
      refine DifferentiableAt.inv ?_ h2
      fun_prop
    have hinv2 : DifferentiableAt ℝ (fun y : Pt 3 => (((1 : ℝ) - y 2) * (1 - y 2))⁻¹) x := by
      refine DifferentiableAt.inv ?_ (mul_ne_zero h2 h2)
      fun_prop
    fin_cases j <;> simp only [PhysMap.weigh, PhysMap.pyramidDerivs, div_eq_mul_inv] <;> simp [-mul_inv] <;> fun_prop

end Verif.Transform
