import Verif.OldNavierStokes.Model
import Mathlib.Analysis.SpecialFunctions.Exp

/-!
# The plates of the older compressible Navier-Stokes application

Models the state at the boundary of `/repo/applications/NavierStokes/CompressibleNavierStokes/CompressibleNavierStokes.cpp`
(`integrandRightHandSideOnFace`) and its inviscid flux. `double` is `ℝ`. There are at least two directions: `n + 2`.
-/

namespace Verif.CouettePlate

open Verif.Euler (State)

variable {n : ℕ}

/-- The plates and the gas, CompressibleNavierStokes.h:234-255. The constants of the header may be any numbers. -/
structure Setup where
  uTop : ℝ
  uBottom : ℝ
  tTop : ℝ
  tBottom : ℝ
  tc : ℝ
  cv : ℝ
  gamma : ℝ

/-- `velocityBoundary`, CompressibleNavierStokes.cpp:632-637 and 651-652. -/
noncomputable def velocityBoundary (s : Setup) (time y : ℝ) : ℝ :=
  let exponent := time * time / (s.tc * s.tc)
  if y > 0.8 then s.uTop - s.uTop * Real.exp (-exponent) else s.uBottom - s.uBottom * Real.exp (-exponent)

/-- `temperatureBoundary`, CompressibleNavierStokes.cpp:638 and 653. -/
noncomputable def temperatureBoundary (s : Setup) (y : ℝ) : ℝ := if y > 0.8 then s.tTop else s.tBottom

/-- `stateBoundary`, CompressibleNavierStokes.cpp:639-649 and 654-662. A component that is not assigned is zero. -/
noncomputable def stateBoundary (s : Setup) (time y : ℝ) (q : State (n + 2)) : State (n + 2) :=
  ⟨q.rho, fun i => if i = 0 then q.rho * velocityBoundary s time y else 0, q.en⟩

/-- `computePressure`, CompressibleNavierStokes.cpp:73-97. `none`: division by zero or exit. -/
noncomputable def computePressure (s : Setup) (q : State (n + 2)) : Option ℝ :=
  let inv := 1.0 / q.rho
  let m2 := ∑ i, q.mom i * q.mom i
  let p := (s.gamma - 1) * (q.en - 0.5 * inv * m2)
  if q.rho = 0 ∨ p < 0 then none else some p

/-- `Viscous::computeTemperature`, Viscous.cpp:52-56. The specific heat is not zero and `gamma_` is not one. -/
noncomputable def computeTemperature (s : Setup) (q : State (n + 2)) (p : ℝ) : ℝ :=
  p / ((s.gamma - 1) * s.cv * q.rho)

/-- The flux of the inviscid terms at a plate, CompressibleNavierStokes.cpp:666-668, 682-685 and Inviscid.cpp:341-342. -/
noncomputable def plateFlux (s : Setup) (time y : ℝ) (q : State (n + 2)) (normal : Fin (n + 2) → ℝ) :
    Option (State (n + 2)) := do
  let b := stateBoundary s time y q
  let p ← computePressure s b
  OldNavierStokes.fluxFunction b p normal

end Verif.CouettePlate
