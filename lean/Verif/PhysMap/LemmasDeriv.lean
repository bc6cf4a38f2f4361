import Verif.PhysMap.Lemmas
import Verif.RefGeometry.Spec
import Mathlib.Analysis.Calculus.Deriv.Prod
import Mathlib.Analysis.Calculus.Deriv.Mul
import Mathlib.Analysis.Calculus.Deriv.Add

set_option linter.all false
namespace Verif.PhysMap
open Verif.RefGeometry (Pt)
open Matrix

/-- A differentiable function with the right partial derivatives. -/
theorem hasFDerivAt_of_partials {m n : Nat} {f : Pt m → Pt n} {J : Matrix (Fin n) (Fin m) ℝ} {x : Pt m}
    (hd : DifferentiableAt ℝ f x)
    (h : ∀ i k, HasDerivAt (fun t => f (Function.update x k t) i) (J i k) (x k)) :
    HasFDerivAt f J.mulVecLin.toContinuousLinearMap x := by
  have hf := hd.hasFDerivAt
  have : fderiv ℝ f x = J.mulVecLin.toContinuousLinearMap := by
    apply ContinuousLinearMap.coe_injective
    apply LinearMap.pi_ext'
    intro k
    apply LinearMap.ext_ring
    ext i
    have h1 := HasFDerivAt.comp_hasDerivAt (x k) (f := Function.update x k) (l := f) (l' := fderiv ℝ f x)
      (by rw [Function.update_eq_self]; exact hf) (hasDerivAt_update x k (x k))
    have h2 := (hasDerivAt_pi.1 h1) i
    have h3 := h2.unique (h i k)
    simpa using h3
  rw [← this]; exact hf

theorem hasDerivAt_aff {f : ℝ → ℝ} {b t : ℝ} (h : ∀ s, f s = f 0 + s * b) : HasDerivAt f b t := by
  have : f = fun s => f 0 + s * b := funext h
  rw [this]
  exact (((hasDerivAt_id t).mul_const b).const_add (f 0)).congr_deriv (by simp)

theorem hasDerivAt_quad {f : ℝ → ℝ} {b c t : ℝ} (a : ℝ) (h : ∀ s, f s = f 0 + s * a + s ^ 2 * c)
    (hb : b = a + 2 * t * c) : HasDerivAt f b t := by
  have : f = fun s => f 0 + s * a + s ^ 2 * c := funext h
  rw [this, hb]
  have h1 := (((hasDerivAt_id t).mul_const a).const_add (f 0)).add (((hasDerivAt_id t).pow 2).mul_const c)
  exact h1.congr_deriv (by simp)

theorem square_deriv (p : Nat → Pt 2) (x : Pt 2) :
    HasFDerivAt (square p) (jacobian .square p x).mulVecLin.toContinuousLinearMap x := by
  apply hasFDerivAt_of_partials
  · have : square p = fun x => ((1 - x 0) * (1 - x 1) / 4) • p 0 + ((1 + x 0) * (1 - x 1) / 4) • p 1 +
      ((1 - x 0) * (1 + x 1) / 4) • p 2 + ((1 + x 0) * (1 + x 1) / 4) • p 3 := funext (square_eq p)
    rw [this]
    fun_prop
  · intro i k
    apply hasDerivAt_aff
    intro s
    fin_cases k <;>
      simp [square_eq, jacobian, cols, squareCols, reinit2, Function.update] <;> ring

theorem cube_deriv (p : Nat → Pt 3) (x : Pt 3) :
    HasFDerivAt (cube p) (jacobian .cube p x).mulVecLin.toContinuousLinearMap x := by
  apply hasFDerivAt_of_partials
  · rw [show cube p = _ from funext (cube_eq p)]
    fun_prop
  · intro i k
    apply hasDerivAt_aff
    intro s
    fin_cases k <;>
      simp [cube_eq, jacobian, cols, cubeCols, reinit3, Function.update] <;> ring

theorem line_deriv (p : Nat → Pt 1) (x : Pt 1) :
    HasFDerivAt (line p) (jacobian .line p x).mulVecLin.toContinuousLinearMap x := by
  apply hasFDerivAt_of_partials
  · rw [show line p = _ from funext (line_eq p)]
    fun_prop
  · intro i k
    apply hasDerivAt_aff
    intro s
    fin_cases k
    simp [line_eq, jacobian, cols, slope, Function.update]
    ring

theorem hypercube_deriv (p : Nat → Pt 4) (x : Pt 4) :
    HasFDerivAt (hypercube p) (jacobian .hypercube p x).mulVecLin.toContinuousLinearMap x := by
  apply hasFDerivAt_of_partials
  · unfold hypercube
    fun_prop
  · intro i k
    apply hasDerivAt_aff
    intro s
    fin_cases k <;>
      simp [hypercube, jacobian, cols, hypercubeCols, Function.update] <;> ring

theorem triangle_deriv (p : Nat → Pt 2) (x : Pt 2) :
    HasFDerivAt (simplex p) (jacobian .triangle p x).mulVecLin.toContinuousLinearMap x := by
  apply hasFDerivAt_of_partials
  · rw [show simplex p = _ from funext (triangle_eq p)]
    fun_prop
  · intro i k
    apply hasDerivAt_aff
    intro s
    fin_cases k <;>
      simp [triangle_eq, jacobian, cols, simplexCols, Function.update] <;> ring

theorem tetrahedron_deriv (p : Nat → Pt 3) (x : Pt 3) :
    HasFDerivAt (simplex p) (jacobian .tetrahedron p x).mulVecLin.toContinuousLinearMap x := by
  apply hasFDerivAt_of_partials
  · rw [show simplex p = _ from funext (tetrahedron_eq p)]
    fun_prop
  · intro i k
    apply hasDerivAt_aff
    intro s
    obtain rfl | rfl | rfl : k = 0 ∨ k = 1 ∨ k = 2 := by revert k; decide
    all_goals
      simp [tetrahedron_eq, jacobian, cols, simplexCols, Function.update]; ring

theorem prism_deriv (p : Nat → Pt 3) (x : Pt 3) :
    HasFDerivAt (prism p) (jacobian .prism p x).mulVecLin.toContinuousLinearMap x := by
  apply hasFDerivAt_of_partials
  · rw [show prism p = _ from funext (prism_eq p)]
    fun_prop
  · intro i k
    apply hasDerivAt_aff
    intro s
    fin_cases k <;>
      simp [prism_eq, jacobian, cols, prismCols, prismDerivs, weigh, Function.update] <;> ring

theorem triangle2_deriv (p : Nat → Pt 2) (x : Pt 2) :
    HasFDerivAt (triangle2 p) (jacobian .triangle2 p x).mulVecLin.toContinuousLinearMap x := by
  apply hasFDerivAt_of_partials
  · rw [show triangle2 p = _ from funext (triangle2_eq p)]
    fun_prop
  · intro i k
    fin_cases k
    · apply hasDerivAt_quad (c := 2 * p 0 i - 4 * p 1 i + 2 * p 2 i)
          ((-3 + 4 * x 1) * p 0 i + (4 - 4 * x 1) * p 1 i - p 2 i - 4 * x 1 * p 3 i + 4 * x 1 * p 4 i)
      · intro s
        simp [triangle2_eq, Function.update]; ring
      · simp [jacobian, cols, triangle2Cols, triangle2Derivs, weigh]; ring
    · apply hasDerivAt_quad (c := 2 * p 0 i - 4 * p 3 i + 2 * p 5 i)
          ((-3 + 4 * x 0) * p 0 i + (4 - 4 * x 0) * p 3 i - p 5 i - 4 * x 0 * p 1 i + 4 * x 0 * p 4 i)
      · intro s
        simp [triangle2_eq, Function.update]; ring
      · simp [jacobian, cols, triangle2Cols, triangle2Derivs, weigh]; ring

theorem tetrahedron2_deriv (p : Nat → Pt 3) (x : Pt 3) :
    HasFDerivAt (tetrahedron2 p) (jacobian .tetrahedron2 p x).mulVecLin.toContinuousLinearMap x := by
  apply hasFDerivAt_of_partials
  · rw [show tetrahedron2 p = _ from funext (tetrahedron2_eq p)]
    fun_prop
  · intro i k
    fin_cases k
    · apply hasDerivAt_quad (c := 2 * p 0 i - 4 * p 1 i + 2 * p 2 i)
          ((-3 + 4 * x 1 + 4 * x 2) * p 0 i + (4 - 4 * x 1 - 4 * x 2) * p 1 i - p 2 i
            - 4 * x 1 * p 3 i + 4 * x 1 * p 4 i - 4 * x 2 * p 6 i + 4 * x 2 * p 7 i)
      · intro s
        simp [tetrahedron2_eq, Function.update]; ring
      · simp [jacobian, cols, tetrahedron2Cols, tetrahedron2Derivs, weigh]; ring
    · apply hasDerivAt_quad (c := 2 * p 0 i - 4 * p 3 i + 2 * p 5 i)
          ((-3 + 4 * x 0 + 4 * x 2) * p 0 i + (4 - 4 * x 0 - 4 * x 2) * p 3 i - p 5 i
            - 4 * x 0 * p 1 i + 4 * x 0 * p 4 i - 4 * x 2 * p 6 i + 4 * x 2 * p 8 i)
      · intro s
        simp [tetrahedron2_eq, Function.update]; ring
      · simp [jacobian, cols, tetrahedron2Cols, tetrahedron2Derivs, weigh]; ring
    · apply hasDerivAt_quad (c := 2 * p 0 i - 4 * p 6 i + 2 * p 9 i)
          ((-3 + 4 * x 0 + 4 * x 1) * p 0 i + (4 - 4 * x 0 - 4 * x 1) * p 6 i - p 9 i
            - 4 * x 0 * p 1 i + 4 * x 0 * p 7 i - 4 * x 1 * p 3 i + 4 * x 1 * p 8 i)
      · intro s
        simp [tetrahedron2_eq, Function.update]; ring
      · simp [jacobian, cols, tetrahedron2Cols, tetrahedron2Derivs, weigh]; ring

end Verif.PhysMap
