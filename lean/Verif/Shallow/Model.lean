import Mathlib.Analysis.Real.Sqrt
import Mathlib.Data.Fin.VecNotation

/-!
# Numerical fluxes of the shallow granular flow application

Models `applications/SavageHutter/SavageHutter1DBase.cpp`,
`SavageHutter1DBasic.cpp`, `SavageHutter2DBase.cpp` and
`SavageHutter2DBasic.cpp`.  `double` is modelled by `ℝ`.  A square root of a
negative number is NaN in the code; every function below answers `none` there.
-/

namespace Verif.Shallow

/-- The constants of the problem (`SavageHutterBase.h`: `epsilon_`,
`chuteAngle_`, `dryLimit_`); `cosAngle` stands for `std::cos(chuteAngle_)`. -/
structure Params where
  eps : ℝ
  cosAngle : ℝ
  dry : ℝ

/-- `std::sqrt`; `none` is NaN. -/
noncomputable def root (x : ℝ) : Option ℝ :=
  if x < 0 then none else some (Real.sqrt x)

/-- Lines 314-322 of `SavageHutter1DBase.cpp` and lines 363-371 of
`SavageHutter2DBase.cpp`: the answer from the two wave speeds, the two normal
fluxes and the two states. -/
noncomputable def combine {k : ℕ} (sl sr : ℝ) (fl fr ul ur : Fin k → ℝ) :
    Fin k → ℝ :=
  if 0 ≤ sl then fl
  else if sr ≤ 0 then fr
  else fun i => (sr * fl i - sl * fr i + sl * sr * (ur i - ul i)) / (sr - sl)

/-! ## One dimension -/

/-- `SavageHutter1DBase.cpp` 292-295: the velocity in the direction of the
normal, zero for a dry state.  A state has the height at `0` and the discharge
at `1`; there may be more variables. -/
noncomputable def normalSpeed1 {m : ℕ} (P : Params) (n : ℝ) (u : Fin (m + 2) → ℝ) : ℝ :=
  if P.dry < u 0 then n * u 1 / u 0 else 0

/-- `SavageHutter1DBase::hllcFlux`, lines 285-323.  `F` is the virtual function
`computePhysicalFlux` at the point of the face; `none` if it gives up or if a
square root is NaN. -/
noncomputable def hllc1 {m : ℕ} (P : Params)
    (F : (Fin (m + 2) → ℝ) → Option (Fin (m + 2) → ℝ))
    (ul ur : Fin (m + 2) → ℝ) (n : ℝ) : Option (Fin (m + 2) → ℝ) :=
  (F ul).bind fun fl => (F ur).bind fun fr =>
    (root (P.eps * P.cosAngle * ul 0)).bind fun cl =>
      (root (P.eps * P.cosAngle * ur 0)).bind fun cr =>
        some (combine
          (min (normalSpeed1 P n ul - cl) (normalSpeed1 P n ur - cr))
          (max (normalSpeed1 P n ul + cl) (normalSpeed1 P n ur + cr))
          (fun i => n * fl i) (fun i => n * fr i) ul ur)

/-- `SavageHutter1DBase::localLaxFriedrichsFlux`, lines 250-283.  The radicands
are products of `epsilon_` and a number that is not negative. -/
noncomputable def laxFriedrichs1 {m : ℕ} (P : Params)
    (F : (Fin (m + 2) → ℝ) → Option (Fin (m + 2) → ℝ))
    (ul ur : Fin (m + 2) → ℝ) : Option (Fin (m + 2) → ℝ) :=
  (root (P.eps * max 0 (ul 0))).bind fun cl =>
    (root (P.eps * max 0 (ur 0))).bind fun cr =>
      (F ul).bind fun fl => (F ur).bind fun fr =>
        let alpha := max (|if P.dry < ul 0 then ul 1 / ul 0 else 0| + cl)
          (|if P.dry < ur 0 then ur 1 / ur 0 else 0| + cr)
        some fun i => 0.5 * (fl i + fr i - alpha * (ur i - ul i))

/-- `SavageHutter1DBasic::computePhysicalFlux`, lines 192-207; `alpha` is
`alpha_`.  `none` is the failing `assert_always` of line 196. -/
noncomputable def basicFlux1 (P : Params) (alpha : ℝ) (u : Fin 2 → ℝ) :
    Option (Fin 2 → ℝ) :=
  if u 0 > -1e-16 then
    let v := if P.dry < u 0 then u 1 / u 0 else 0
    some ![u 1, u 1 * v * alpha + P.eps / 2 * P.cosAngle * u 0 * u 0]
  else none

/-- `SavageHutter1DBase::integrandsAtFace`, lines 119-166, for one test function
on either side.  `n` is the (unit) normal of the left element; the product of a
test function of the right element and the normal uses the normal of the right
element, `-n` (`PhysicalFace::basisFunctionNormal`). -/
noncomputable def integrands1 {m : ℕ} (P : Params)
    (F : (Fin (m + 2) → ℝ) → Option (Fin (m + 2) → ℝ))
    (ul ur : Fin (m + 2) → ℝ) (n phiL phiR : ℝ) :
    Option ((Fin (m + 2) → ℝ) × (Fin (m + 2) → ℝ)) :=
  (hllc1 P F ul ur n).map fun f =>
    (fun i => -f i * (phiL * n), fun i => -f i * (phiR * -n))

/-! ## Two dimensions -/

/-- A variable and a direction to the entry of the flux: `2 * i + d`. -/
def entry (i : Fin 3) (d : Fin 2) : Fin 6 := ⟨2 * i.1 + d.1, by omega⟩

/-- `SavageHutter2DBase.cpp` 350-353: the flux in the direction of the normal. -/
noncomputable def normalFlux2 (f : Fin 6 → ℝ) (n : Fin 2 → ℝ) : Fin 3 → ℝ :=
  fun i => f (entry i 0) * n 0 + f (entry i 1) * n 1

/-- `SavageHutter2DBase.cpp` 332-343 and 354-355: velocity in the direction of
the normal, zero for a dry state. -/
noncomputable def normalSpeed2 (P : Params) (n : Fin 2 → ℝ) (u : Fin 3 → ℝ) : ℝ :=
  (if P.dry < u 0 then u 1 / u 0 else 0) * n 0 +
    (if P.dry < u 0 then u 2 / u 0 else 0) * n 1

/-- `SavageHutter2DBase::hllcFlux`, lines 321-372.  (Line 326, an
`assert_debug` on the length of the normal, is a hypothesis where it matters.) -/
noncomputable def hllc2 (P : Params) (F : (Fin 3 → ℝ) → Option (Fin 6 → ℝ))
    (ul ur : Fin 3 → ℝ) (n : Fin 2 → ℝ) : Option (Fin 3 → ℝ) :=
  (F ul).bind fun fl => (F ur).bind fun fr =>
    (root (P.eps * P.cosAngle * ul 0)).bind fun cl =>
      (root (P.eps * P.cosAngle * ur 0)).bind fun cr =>
        some (combine
          (min (normalSpeed2 P n ul - cl) (normalSpeed2 P n ur - cr))
          (max (normalSpeed2 P n ul + cl) (normalSpeed2 P n ur + cr))
          (normalFlux2 fl n) (normalFlux2 fr n) ul ur)

/-- The number `alpha` of `SavageHutter2DBase::localLaxFriedrichsFlux`, lines
263-299, for states whose square roots exist. -/
noncomputable def alpha2 (P : Params) (ul ur : Fin 3 → ℝ) : ℝ :=
  let c := fun u : Fin 3 → ℝ => Real.sqrt (P.eps * P.cosAngle * u 0)
  let vx := fun u : Fin 3 → ℝ => if P.dry < u 0 then u 1 / u 0 else 0
  let vy := fun u : Fin 3 → ℝ => if P.dry < u 0 then u 2 / u 0 else 0
  let e1 := max |vx ul + c ul| |vx ul - c ul|
  let e2 := max |vy ul + c ul| |vy ul - c ul|
  let e3 := max |vx ur + c ur| |vx ur - c ur|
  let e4 := max |vy ur + c ur| |vy ur - c ur|
  max (max (max e1 e2) e3) e4

/-- `SavageHutter2DBase::localLaxFriedrichsFlux`, lines 257-319. -/
noncomputable def laxFriedrichs2 (P : Params) (F : (Fin 3 → ℝ) → Option (Fin 6 → ℝ))
    (ul ur : Fin 3 → ℝ) (n : Fin 2 → ℝ) : Option (Fin 3 → ℝ) :=
  (root (P.eps * P.cosAngle * ul 0)).bind fun _ =>
    (root (P.eps * P.cosAngle * ur 0)).bind fun _ =>
      (F ul).bind fun fl => (F ur).bind fun fr =>
        some fun i => 0.5 * (normalFlux2 fl n i + normalFlux2 fr n i -
          alpha2 P ul ur * (ur i - ul i))

/-- `SavageHutter2DBasic::computePhysicalFlux`, lines 171-192; `none` is the
failing `assert_debug` of line 174. -/
noncomputable def basicFlux2 (P : Params) (u : Fin 3 → ℝ) : Option (Fin 6 → ℝ) :=
  if u 0 > -1e-16 then
    let vx := if P.dry < u 0 then u 1 / u 0 else 0
    let vy := if P.dry < u 0 then u 2 / u 0 else 0
    some ![u 1, u 2,
      u 1 * vx + P.eps / 2 * P.cosAngle * u 0 * u 0, u 1 * vy,
      u 1 * vy, u 2 * vy + P.eps / 2 * P.cosAngle * u 0 * u 0]
  else none

/-- `SavageHutter2DBase.cpp` 120-166: the two integrands of an internal face for
one test function on either side. -/
noncomputable def integrands2 (P : Params) (F : (Fin 3 → ℝ) → Option (Fin 6 → ℝ))
    (ul ur : Fin 3 → ℝ) (n : Fin 2 → ℝ) (phiL phiR : ℝ) :
    Option ((Fin 3 → ℝ) × (Fin 3 → ℝ)) :=
  (hllc2 P F ul ur n).map fun f => (fun i => -f i * phiL, fun i => f i * phiR)

/-- `SavageHutter2DBase.cpp` 231-238: the state behind a solid wall.  A height
of zero is a division by zero in the code, hence `none`. -/
noncomputable def reflection (u : Fin 3 → ℝ) (n : Fin 2 → ℝ) : Option (Fin 3 → ℝ) :=
  if u 0 = 0 then none
  else
    let vx := u 1 / u 0
    let vy := u 2 / u 0
    let s := 2 * (vx * n 0 + vy * n 1)
    some ![u 0, (vx - s * n 0) * u 0, (vy - s * n 1) * u 0]

/-- `SavageHutter2DBase.cpp` 229-240: the flux through a solid wall. -/
noncomputable def wallFlux (P : Params) (F : (Fin 3 → ℝ) → Option (Fin 6 → ℝ))
    (u : Fin 3 → ℝ) (n : Fin 2 → ℝ) : Option (Fin 3 → ℝ) :=
  (reflection u n).bind fun r => hllc2 P F u r n

/-! ## A step for cells with one value each -/

/-- The height after one explicit Euler step of length `dt` in a cell of length
`dx` with a constant state in every cell: the right-hand side is the sum of the
face integrals of `integrands1` for the test function one (normal `1` for both
faces: the cell is left of its right face and right of its left face), divided
by the mass matrix `dx`. -/
noncomputable def stepHeight {m : ℕ} (P : Params)
    (F : (Fin (m + 2) → ℝ) → Option (Fin (m + 2) → ℝ)) (dt dx : ℝ)
    (w u e : Fin (m + 2) → ℝ) : Option ℝ :=
  (integrands1 P F w u 1 1 1).bind fun a =>
    (integrands1 P F u e 1 1 1).bind fun b =>
      some (u 0 + dt * ((a.2 0 + b.1 0) / dx))

end Verif.Shallow
