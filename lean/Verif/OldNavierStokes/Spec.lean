import Verif.OldNavierStokes.Model
import Verif.Euler.Spec

/-!
# Coefficients of a weak form
-/

namespace Verif.OldNavierStokes

open Verif.Euler (State)

variable {d : ℕ}

/-- The vector holds the numbers `x` for the density, the momentum and the energy, variable after variable, each
times the `n` test functions. -/
structure Tested (n : ℕ) (phi : ℕ → ℝ) (x : State d) (v : ℕ → ℝ) : Prop where
  density : ∀ i < n, v i = x.rho * phi i
  momentum : ∀ (j : Fin d), ∀ i < n, v ((j + 1) * n + i) = x.mom j * phi i
  energy : ∀ i < n, v ((d + 1) * n + i) = x.en * phi i

end Verif.OldNavierStokes
