import Mathlib.Analysis.SpecialFunctions.Pow.Real
import Mathlib.Analysis.SpecialFunctions.Sqrt

/-!
# The viscosity of the older compressible Navier-Stokes application

Models `Viscous::computeViscosity`,
`/repo/applications/NavierStokes/CompressibleNavierStokes/Viscous.cpp:58-67`. `double` is `ℝ`.
-/

namespace Verif.OldViscous

/-- `computeViscosity`, Viscous.cpp:58-67, for `temperatureRef_` and `viscosityRefInv_`
(CompressibleNavierStokes.h:262-265). `none`: division by zero or root of a negative number. -/
noncomputable def computeViscosity (temperatureRef_ viscosityRefInv_ temperature : ℝ) : Option ℝ :=
  let temperatureS : ℝ := 110
  let temperatureRef : ℝ := 288.16
  let muRef : ℝ := 0.000017894
  let tempScaled := temperature * temperatureRef_
  let temp := tempScaled / temperatureRef
  if temp < 0 ∨ temperature + temperatureS = 0 then none
  else some (muRef * temp * Real.sqrt temp * (temperatureRef + temperatureS) / (temperature + temperatureS)
    * viscosityRefInv_)

end Verif.OldViscous
