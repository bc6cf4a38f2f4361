import Verif.OldViscous.Model
import Mathlib.Analysis.Calculus.LineDeriv.Basic

/-!
# Specification for the viscous tensor

The viscous stress of a Newtonian fluid without bulk viscosity, and what it means that a matrix is the gradient of
the conserved variables of a flow.
-/

namespace Verif.OldViscous

open scoped BigOperators

variable {d : ℕ}

/-- The viscous stress for the velocity gradient `du k a`, the derivative of component `k` in direction `a`. -/
noncomputable def stress (mu : ℝ) (du : Fin d → Fin d → ℝ) (k a : Fin d) : ℝ :=
  mu * (du k a + du a k) - if k = a then 2 / 3 * mu * ∑ b, du b b else 0

/-- A flow: density, velocity and energy per mass as functions of the point. -/
structure Flow (d : ℕ) where
  rho : (Fin d → ℝ) → ℝ
  u : Fin d → (Fin d → ℝ) → ℝ
  en : (Fin d → ℝ) → ℝ

/-- The flow at a point. -/
def Flow.at (f : Flow d) (x : Fin d → ℝ) : Prim d := ⟨f.rho x, fun k => f.u k x, f.en x⟩

/-- The conserved variables of a flow. -/
def Flow.conserved (f : Flow d) : Var d → (Fin d → ℝ) → ℝ
  | .rho => f.rho
  | .mom k => fun x => f.rho x * f.u k x
  | .en => fun x => f.rho x * f.en x

/-- The partial derivative of `f` in direction `b` at `x` is `c`. -/
def Partial (f : (Fin d → ℝ) → ℝ) (c : ℝ) (x : Fin d → ℝ) (b : Fin d) : Prop :=
  HasLineDerivAt ℝ f c x (Pi.single b 1)

end Verif.OldViscous
