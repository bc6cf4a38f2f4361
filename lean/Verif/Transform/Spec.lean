import Mathlib.Analysis.Calculus.FDeriv.Basic
import Mathlib.LinearAlgebra.Matrix.ToLin
import Mathlib.Topology.Algebra.Module.FiniteDimension
import Mathlib.Analysis.Normed.Module.FiniteDimension
import Verif.RefGeometry.Model

/-!
# What the transformations are about: gradient, curl and divergence
-/
namespace Verif.Transform
open Verif.RefGeometry (Pt)
open Matrix Topology

variable {d : Nat}

/-- The partial derivative in direction `j`. -/
noncomputable def pderiv {E : Type*} [NormedAddCommGroup E] [NormedSpace ℝ E] (j : Fin d) (f : Pt d → E) (x : Pt d) : E :=
  fderiv ℝ f x (Pi.single j 1)

/-- The gradient of a function. -/
noncomputable def grad (f : Pt d → ℝ) (x : Pt d) : Pt d := fun j => pderiv j f x

/-- The divergence of a field. -/
noncomputable def divergence (u : Pt d → Pt d) (x : Pt d) : ℝ := ∑ i, pderiv i (fun y => u y i) x

/-- The curl of a field in space. -/
noncomputable def curl (u : Pt 3 → Pt 3) (x : Pt 3) : Pt 3 :=
  ![pderiv 1 (fun y => u y 2) x - pderiv 2 (fun y => u y 1) x,
    pderiv 2 (fun y => u y 0) x - pderiv 0 (fun y => u y 2) x,
    pderiv 0 (fun y => u y 1) x - pderiv 1 (fun y => u y 0) x]

/-- The curl of a field in the plane, followed by zero. -/
noncomputable def curl2 (u : Pt 2 → Pt 2) (x : Pt 2) : Pt 2 :=
  ![pderiv 0 (fun y => u y 1) x - pderiv 1 (fun y => u y 0) x, 0]

/-- `F` maps a neighbourhood of `x` to the physical element, its Jacobian is `J` and is differentiable and invertible
at `x`. -/
structure ElementMap (F : Pt d → Pt d) (J : Pt d → Matrix (Fin d) (Fin d) ℝ) (x : Pt d) : Prop where
  deriv : ∀ᶠ y in 𝓝 x, HasFDerivAt F (J y).mulVecLin.toContinuousLinearMap y
  smooth : ∀ i j, DifferentiableAt ℝ (fun y => J y i j) x
  regular : (J x).det ≠ 0

end Verif.Transform
