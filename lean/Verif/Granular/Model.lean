import Verif.Shallow.Model
import Mathlib.Analysis.SpecialFunctions.Pow.Real
import Mathlib.Analysis.SpecialFunctions.Trigonometric.Basic

/-!
# Friction, sources and boundaries of the granular flow application

`applications/SavageHutter`: `SavageHutter1DBase.cpp`, `SavageHutter1DBasic.cpp`,
`SavageHutter1DBidispersed.cpp`, `SavageHutter1DWidthAveraged.cpp`,
`SavageHutter2DBase.cpp`, `SavageHutter2DBasic.cpp` and
`SavageHutter2DInteriorTest.cpp`.  `double` is `ℝ`.
-/

namespace Verif.Granular

open Verif.Shallow (Params root hllc1)

/-- `epsilon_`, `cos(chuteAngle_)`, `dryLimit_` and `sin(chuteAngle_)`. -/
structure Chute extends Params where
  sinAngle : ℝ

/-- `Helpers::sign`, `HelperFunctions.cpp` 44-47. -/
noncomputable def sign (x : ℝ) : ℝ :=
  if |x| < 1e-16 then 0 else if x < 0 then -1 else 1

/-- `std::tan` of an angle in degrees, `std::tan(x / 180 * M_PI)`. -/
noncomputable def tanDegrees (x : ℝ) : ℝ := Real.tan (x / 180 * Real.pi)

/-- The last statement of `SavageHutter1DBase::computeFriction` (334-346) and of
`SavageHutter2DBase::computeFriction` (374-393), for a positive height.  If
`F - gamma` vanishes the quotient is infinite and the answer is `tan(delta1)`; if the
denominator vanishes the answer is infinite: `none`. -/
noncomputable def pouliquen (h F : ℝ) : Option ℝ :=
  let t1 := tanDegrees 17.518
  let t2 := tanDegrees 29.712
  let s := F - (-0.080)
  if s = 0 then some t1
  else
    let q := 0.189 * h / (5.29 * 2 * s) + 1
    if q = 0 then none else some (t1 + (t2 - t1) / q)

/-- `SavageHutter1DBase::computeFriction`, lines 333-347. -/
noncomputable def friction1 (P : Chute) (h hu : ℝ) : Option ℝ :=
  if h < P.dry then some (tanDegrees 17.518)
  else
    let r := P.eps * P.cosAngle * h
    if r ≤ 0 then none else pouliquen h (hu / h / Real.sqrt r)

/-- `SavageHutter2DBase::computeFriction`, lines 374-393. -/
noncomputable def friction2 (P : Chute) (h hu hv : ℝ) : Option ℝ :=
  if h < P.dry then some (tanDegrees 17.518)
  else
    let u := hu / h
    let v := hv / h
    let r := P.eps * P.cosAngle * h
    if r ≤ 0 then none else pouliquen h (Real.sqrt (u * u + v * v) / Real.sqrt r)

/-- `SavageHutter1DBase::computeFrictionExponential`, lines 350-364; `std::pow` of a
negative number is NaN. -/
noncomputable def frictionExponential (P : Chute) (h hu : ℝ) : Option ℝ :=
  let t1 := tanDegrees 27
  let t2 := tanDegrees 37
  if h < P.dry then some t1
  else
    let u := hu / h
    if |u| < 1e-16 then some t1
    else if P.eps * h < 0 then none
    else some (t1 + (t2 - t1) * Real.exp (-0.136 * (P.eps * h) ^ (1.5 : ℝ) / (2 * |u|)))

/-- `SavageHutter1DBidispersed::computeFrictionExponentialBidispersed`, lines 243-267;
at rest the exponent is minus infinity. -/
noncomputable def frictionBidispersed (P : Chute) (h hu eta : ℝ) : Option ℝ :=
  if h ≤ 0 ∨ P.eps * h < 0 then none
  else
    let u := hu / h
    let phi := eta / h
    let e := if u = 0 then 0 else Real.exp (-(P.eps * h) ^ (1.5 : ℝ) / u)
    let small := tanDegrees 20 + (tanDegrees 30 - tanDegrees 20) * e
    let large := tanDegrees 27 + (tanDegrees 37 - tanDegrees 27) * e
    some (phi * small + (1 - phi) * large)

/-- Second entry of `SavageHutter1DBasic::computeSourceTerm`, lines 170-188. -/
noncomputable def source1 (P : Chute) (h hu : ℝ) : Option ℝ :=
  let u := if h > P.dry then hu / h else 0
  (friction1 P h hu).map fun mu =>
    h * P.sinAngle - h * mu * sign u * P.cosAngle

/-- Second and third entry of `SavageHutter2DBasic::computeSourceTerm`, lines
140-169. -/
noncomputable def source2 (P : Chute) (h hu hv : ℝ) : Option (ℝ × ℝ) :=
  let u := if h > P.dry then hu / h else 0
  let v := if h > P.dry then hv / h else 0
  let norm := Real.sqrt (u * u + v * v)
  let uN := if u * u + v * v > 1e-32 then u / norm else 0
  let vN := if u * u + v * v > 1e-32 then v / norm else 0
  (friction2 P h hu hv).map fun mu =>
    (h * P.sinAngle - h * mu * uN * P.cosAngle, -h * mu * vN * P.cosAngle)

/-- `SavageHutter1DBidispersed::computePhysicalFlux`, lines 165-185; `none` is the
failing `assert_debug`. -/
noncomputable def bidispersedFlux (P : Params) (alpha : ℝ) (w : Fin 3 → ℝ) :
    Option (Fin 3 → ℝ) :=
  if w 0 > -1e-16 then
    if w 0 > P.dry then
      let u := w 1 / w 0
      let phi := w 2 / w 0
      some ![w 1, w 1 * u + P.eps / 2 * P.cosAngle * w 0 * w 0,
        w 1 * phi * (alpha + (1 - alpha) * phi)]
    else some ![w 1, 0, 0]
  else none

/-- `SavageHutter1DWidthAveraged::getWidth`, lines 243-254. -/
noncomputable def width (x : ℝ) : ℝ := if x > 1 then 1 - 2 * (x - 1) / 25 else 1

noncomputable def widthDeriv (x : ℝ) : ℝ := if x > 1 then -2 / 25 else 0

/-- `SavageHutter1DWidthAveraged::computePhysicalFlux`, lines 172-195. -/
noncomputable def widthFlux (P : Chute) (x hW huW : ℝ) : Option (ℝ × ℝ) :=
  let h := hW / width x
  if h > -1e-16 then
    let u := if h > P.dry then huW / width x / h else 0
    some (huW, huW * u + P.eps / 2 * P.cosAngle * h * h * width x)
  else none

/-- Second entry of `SavageHutter1DWidthAveraged::computeSourceTerm`, lines 146-169;
its `computeFriction` (258-272) is that of the base class for `h` and `u`. -/
noncomputable def widthSource (P : Chute) (x hW huW : ℝ) : Option ℝ :=
  let h := hW / width x
  let u := if h > P.dry then huW / width x / h else 0
  (friction1 P h (h * u)).map fun mu =>
    hW * (P.sinAngle - mu * sign u * P.cosAngle) +
      P.eps / 2 * P.cosAngle * h * h * widthDeriv x

/-- A list of values as a state of the program; a list of another length is read past
its end or rejected. -/
def asState {m : ℕ} (l : List ℝ) : Option (Fin (m + 2) → ℝ) :=
  if h : l.length = m + 2 then some fun i => l.get (i.cast h.symm) else none

/-- The state outside a subcritical outflow, `SavageHutter1DBase.cpp` 196-215. -/
noncomputable def outflowState {m : ℕ} (P : Params) (w : Fin (m + 2) → ℝ) : List ℝ :=
  let uIn := w 1 / w 0
  let invariantIn := uIn + 2 * Real.sqrt (P.eps * P.cosAngle * w 0)
  let hOut := 1.35
  let uOut := invariantIn - 2 * Real.sqrt (P.eps * P.cosAngle * hOut)
  [hOut, hOut * uOut]

/-- The flux through a boundary face, `SavageHutter1DBase.cpp` 173-235; `normal` is the
first component of the normal, `F` the physical flux.  Of a state without height `0/0`
is compared (false) unless the discharge is negative: minus infinity, `none`. -/
noncomputable def boundaryFlux {m : ℕ} (P : Params)
    (F : (Fin (m + 2) → ℝ) → Option (Fin (m + 2) → ℝ)) (inflow w : Fin (m + 2) → ℝ)
    (normal : ℝ) : Option (Fin (m + 2) → ℝ) :=
  if normal > 0 then
    if w 0 = 0 then
      if w 1 < 0 then none else hllc1 P F w w 1
    else
      (root (w 0 * P.cosAngle * P.eps)).bind fun c =>
        if w 1 / w 0 < c then (asState (outflowState P w)).bind fun s => hllc1 P F w s 1
        else hllc1 P F w w 1
  else hllc1 P F inflow w 1

/-- `SavageHutter2DInteriorTest::getExactSolution`, lines 65-75. -/
noncomputable def testHeight (x y t : ℝ) : ℝ :=
  1 + 0.1 * Real.sin (2 * Real.pi * x) * Real.sin (2 * Real.pi * y) * Real.cos (2 * Real.pi * t)

noncomputable def testSolution (x y t : ℝ) : Fin 3 → ℝ :=
  ![testHeight x y t, testHeight x y t * 1, testHeight x y t * 1]

/-- `SavageHutter2DInteriorTest::computeSourceTerm`, lines 77-105. -/
noncomputable def testSource (P : Params) (x y t : ℝ) : Fin 3 → ℝ :=
  let sx := Real.sin (2 * Real.pi * x)
  let sy := Real.sin (2 * Real.pi * y)
  let st := Real.sin (2 * Real.pi * t)
  let cx := Real.cos (2 * Real.pi * x)
  let cy := Real.cos (2 * Real.pi * y)
  let ct := Real.cos (2 * Real.pi * t);
  ![-2 * Real.pi / 10 * (sx * sy * st - cx * sy * ct - sx * cy * ct),
    -2 * Real.pi / 10 * (sx * sy * st - cx * sy * ct -
      P.eps * P.cosAngle * (1 + 0.1 * sx * sy * ct) * cx * sy * ct - sx * cy * ct),
    -2 * Real.pi / 10 * (sx * sy * st - sx * cy * ct -
      P.eps * P.cosAngle * (1 + 0.1 * sx * sy * ct) * sx * cy * ct - cx * sy * ct)]

end Verif.Granular
