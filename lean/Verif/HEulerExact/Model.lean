import Mathlib.Analysis.SpecialFunctions.Trigonometric.Deriv

/-!
# The exact solutions of the Hamiltonian Euler application

`applications/HamiltonianEuler/InitialConditions.cpp`, without `InitialVelocityConstructorTaylor` (a series
with coefficients from a file). Functions of `x y z t`; `double` is `ℝ`.
-/

namespace Verif.HEulerExact

open Real

/-- InitialConditions.cpp:44 `ExactSolutionBase::Pi`. -/
noncomputable def Pi : ℝ := 3.14159265

/-- InitialConditions.cpp:159-186 `Compressible3DPeriodic`. -/
noncomputable def periodicU (x _y _z t : ℝ) : ℝ := cos (2 * Pi * (t - x))
noncomputable def periodicV (_x y _z t : ℝ) : ℝ := cos (2 * Pi * (t - y))
noncomputable def periodicW (_x _y z t : ℝ) : ℝ := cos (2 * Pi * (t - z))
noncomputable def periodicP (x y z t : ℝ) : ℝ :=
  cos (2 * Pi * (t - x)) + cos (2 * Pi * (t - y)) + cos (2 * Pi * (t - z))

/-- InitialConditions.cpp:190-206 `Compressible3DWalls`. -/
noncomputable def wallsU (x _y _z t : ℝ) : ℝ := -cos (2 * Pi * t) * sin (2 * Pi * x)
noncomputable def wallsV (_x y _z t : ℝ) : ℝ := -cos (2 * Pi * t) * sin (2 * Pi * y)
noncomputable def wallsW (_x _y z t : ℝ) : ℝ := -cos (2 * Pi * t) * sin (2 * Pi * z)
noncomputable def wallsP (x y z t : ℝ) : ℝ :=
  cos (2 * Pi * x) * sin (2 * Pi * t) + cos (2 * Pi * y) * sin (2 * Pi * t) +
    cos (2 * Pi * z) * sin (2 * Pi * t)

/-- InitialConditions.cpp:210-243 `Incompressible3DPeriodic`: the phase. -/
noncomputable def phase (x y z t : ℝ) : ℝ := 2 * Pi * (x + y + z) + √3 * t / 3
noncomputable def waveU (x y z t : ℝ) : ℝ :=
  (√3 * cos (phase x y z t) + 3 * sin (phase x y z t)) / Pi / 2
noncomputable def waveV (x y z t : ℝ) : ℝ :=
  (√3 * cos (phase x y z t) - 3 * sin (phase x y z t)) / Pi / 2
noncomputable def waveW (x y z t : ℝ) : ℝ := -(2 * √3 * cos (phase x y z t)) / Pi / 2
noncomputable def waveP (x y z t : ℝ) : ℝ := 2 * cos (phase x y z t) / (4 * Pi * Pi)

/-- InitialConditions.cpp:46-56 `Compressible3DOneThirdPeriodic`, the constructor: `sigma_`. The wave numbers
`k_ = 2 Pi / lx` and `l_ = 2 Pi / ly` are arguments. -/
noncomputable def sigmaOf (k l : ℝ) : ℝ := 1 / √(k * k + l * l + 1)

/-- InitialConditions.cpp:58-155 `Compressible3DOneThirdPeriodic`, given `k_`, `l_`, `sigma_`, `lz_`. -/
noncomputable def thirdU (k l s lz : ℝ) (x y z t : ℝ) : ℝ :=
  k * (s * s * s) / (1 - s * s) * (1 + (l * l) / (s * k * s * k)) * sin (k * x) *
    (-sin (l * y - s * t)) * cos (2 * Pi * z / lz)
noncomputable def thirdV (k l s lz : ℝ) (x y z t : ℝ) : ℝ :=
  (-l * s * cos (k * x) + 1 / k * sin (k * x)) * cos (l * y - s * t) * cos (2 * Pi * z / lz)
noncomputable def thirdW (k l s lz : ℝ) (x y z t : ℝ) : ℝ :=
  s * (cos (k * x) + l / (k * s) * sin (k * x)) * sin (l * y - s * t) * sin (2 * Pi * z / lz)
noncomputable def thirdP (k l s lz : ℝ) (x y z t : ℝ) : ℝ :=
  -s * s * (cos (k * x) + l / (k * s) * sin (k * x)) * cos (l * y - s * t) * cos (2 * Pi * z / lz)

end Verif.HEulerExact
