import Verif.Euler.Spec
import Verif.NavierStokes.Model

/-!
# Viscous gases

What the terms of the Navier-Stokes application have to be, read off the physics.
-/

namespace Verif.NavierStokes.Spec

open Verif.Euler (State)
open Verif.Euler.Spec

variable {d : ℕ}

/-- The internal energy per mass. -/
noncomputable def internal (q : State d) : ℝ := q.en / q.rho - dot (vel q) (vel q) / 2

/-- The stress of a Newtonian fluid without bulk viscosity, for the velocity
gradient `dv i j = ∂ u_i / ∂ x_j`. -/
noncomputable def stress (mu : ℝ) (dv : Fin d → Fin d → ℝ) (i j : Fin d) : ℝ :=
  mu * (dv i j + dv j i - if i = j then 2 / 3 * ∑ k, dv k k else 0)

/-- The viscous flux of mass, momentum and energy in direction `k`: no mass is
carried, momentum by the stress, energy by the work of the stress and by the
conduction of heat, for the gradient `de` of the internal energy. -/
noncomputable def viscousFlux (mu ka : ℝ) (u : Fin d → ℝ) (dv : Fin d → Fin d → ℝ)
    (de : Fin d → ℝ) (k : Fin d) : State d :=
  ⟨0, fun j => stress mu dv j k, (∑ j, u j * stress mu dv j k) + ka * de k⟩

/-- The point at distance `t` from `x` in the direction of axis `k`. -/
def along (x : Fin d → ℝ) (k : Fin d) (t : ℝ) : Fin d → ℝ := fun i => x i + if i = k then t else 0

/-- The flux in direction `n` of a state `w` that moves with the speed `s` in this
direction under the pressure `p`. -/
def movingFlux (s p : ℝ) (w : State d) (n : Fin d → ℝ) : State d :=
  ⟨s * w.rho, fun i => s * w.mom i + p * n i, s * w.en + s * p⟩

end Verif.NavierStokes.Spec
