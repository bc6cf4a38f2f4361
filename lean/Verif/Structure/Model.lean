import Mathlib.Data.Real.Basic
import Mathlib.Algebra.Order.Floor.Ring
import Mathlib.Data.Real.Archimedean

/-!
# The predefined structures of DG-Max

`applications/DG-Max/Utils/PredefinedStructure.cpp` and
`Utils/Verification/EVConvergenceResult.cpp`.  Doubles are real numbers; where a NaN
matters it is `none`.
-/

namespace Verif.Structure

/-- The options `--epsbackground` and `--epsfeature`, lines 46-59; `none`: not used or
not registered. -/
structure Options where
  background : Option ℝ
  feature : Option ℝ

/-- `getEpsilonArg`, lines 61-67. -/
def getEpsilonArg (default : ℝ) (arg : Option ℝ) : ℝ :=
  match arg with
  | none => default
  | some v => v

/-- `PredefinedStructure`. -/
inductive Kind
  | vacuum | braggStack | cylinder | squareHole | woodpileOld | woodpileNew
  deriving DecidableEq

/-- `structureFromInt`, lines 94-113; the assertion makes other numbers fail. -/
def structureFromInt (value : ℕ) : Option Kind :=
  match value with
  | 0 => some .vacuum
  | 1 => some .braggStack
  | 2 => some .cylinder
  | 3 => some .squareHole
  | 4 => some .woodpileOld
  | 5 => some .woodpileNew
  | _ => none

/-- `insideIWPore`, lines 131-158, without the two debug assertions on the radius. -/
noncomputable def insideIWPore (xz y a c r : ℝ) : Prop :=
  let xz := xz - (⌊xz / c⌋ : ℝ) * c
  let y := y - (⌊y / a⌋ : ℝ) * a
  let r2 := r * r
  let y2 := y * y
  let xz2 := xz * xz
  let y2c := (a - y) * (a - y)
  let xz2c := (c - xz) * (c - xz)
  let ymid := y - a / 2
  let xzmid := xz - c / 2
  (y2 + xz2 < r2 ∨ y2 + xz2c < r2 ∨ y2c + xz2 < r2 ∨ y2c + xz2c < r2)
    ∨ ymid * ymid + xzmid * xzmid < r2

/-- The condition of the old woodpile, lines 203-226. -/
def insideOld (x y z : ℝ) : Prop :=
  (z - 707 / 2000) * (z - 707 / 2000) + (y - 1 / 2) * (y - 1 / 2) ≤ 19 / 100 * (19 / 100)
  ∨ (z - 707 / 1000) * (z - 707 / 1000) + y * y ≤ 19 / 100 * (19 / 100)
  ∨ (z - 707 / 1000) * (z - 707 / 1000) + (y - 1) * (y - 1) ≤ 19 / 100 * (19 / 100)
  ∨ z * z + y * y ≤ 19 / 100 * (19 / 100)
  ∨ z * z + (y - 1) * (y - 1) ≤ 19 / 100 * (19 / 100)
  ∨ (x - 707 / 2000) * (x - 707 / 2000) + (y - 3 / 4) * (y - 3 / 4) ≤ 19 / 100 * (19 / 100)
  ∨ x * x + (y - 1 / 4) * (y - 1 / 4) ≤ 19 / 100 * (19 / 100)
  ∨ (x - 707 / 1000) * (x - 707 / 1000) + (y - 1 / 4) * (y - 1 / 4) ≤ 19 / 100 * (19 / 100)

open Classical in
/-- `jelmerStructure`, lines 161-260.  The point is the list of its coordinates; a
coordinate it does not have gives `none` (the read is outside the point). -/
noncomputable def jelmerStructure (o : Options) (p : List ℝ) (k : Kind) : Option ℝ :=
  match k with
  | .vacuum => some (getEpsilonArg 1 o.background)
  | .braggStack => do
    let x ← p[0]?
    if x < 1 / 2 then some (getEpsilonArg 1 o.feature)
    else some (getEpsilonArg 1 o.background)
  | .cylinder => do
    let x ← p[0]?
    let y ← p[1]?
    if (x - 1 / 2) * (x - 1 / 2) + (y - 1 / 2) * (y - 1 / 2) ≤ 1 / 5 * (1 / 5) then
      some (getEpsilonArg 13 o.feature)
    else some (getEpsilonArg 1 o.background)
  | .squareHole => do
    let x ← p[0]?
    let y ← p[1]?
    if x < 1 / 10 ∨ x > 9 / 10 ∨ y < 1 / 10 ∨ y > 9 / 10 then
      some (getEpsilonArg 1 o.feature)
    else some (getEpsilonArg 13 o.background)
  | .woodpileOld => do
    let x ← p[0]?
    let y ← p[1]?
    let z ← p[2]?
    if insideOld x y z then some (getEpsilonArg 1 o.feature)
    else some (getEpsilonArg 1 o.background)
  | .woodpileNew => do
    let x ← p[0]?
    let y ← p[1]?
    let z ← p[2]?
    let a : ℝ := 1414 / 1000
    let c : ℝ := 1
    let r : ℝ := 3111 / 10000
    let a8 := a / 8
    let offXPores := 1 * a8
    let offZPores := -1 * a8
    if insideIWPore x (y + offZPores) a c r ∨ insideIWPore z (y + offXPores) a c r then
      some (getEpsilonArg 1 o.feature)
    else some (getEpsilonArg (121 / 10) o.background)

/-- `createElementInfo`, lines 69-92: the value at the image of the centre of the
reference element; `toPhysical` is the map of the element. -/
noncomputable def createElementInfo (o : Options) (k : Kind) (dimension : ℕ)
    (center : List ℝ) (toPhysical : List ℝ → List ℝ) : Option ℝ :=
  if dimension = 2 ∨ dimension = 3 then jelmerStructure o (toPhysical center) k else none

/-! ## `EVConvergenceResult` -/

open Classical in
/-- One test of `filterResults`, lines 188: a NaN is `none`; a comparison with it is
false. -/
noncomputable def dropped (minimum : ℝ) (removeNaN : Bool) (v : Option ℝ) : Bool :=
  match v with
  | some f => decide (f < minimum)
  | none => removeNaN

/-- The loop of `filterResults`, lines 186-193: `it` is the index, `erase` moves the
tail. -/
noncomputable def filterLoop (minimum : ℝ) (removeNaN : Bool) (frequencies : List (Option ℝ))
    (it : ℕ) : List (Option ℝ) :=
  if h : it < frequencies.length then
    if dropped minimum removeNaN frequencies[it] then
      filterLoop minimum removeNaN (frequencies.eraseIdx it) it
    else filterLoop minimum removeNaN frequencies (it + 1)
  else frequencies
termination_by frequencies.length - it
decreasing_by
  · rw [List.length_eraseIdx_of_lt h]; omega
  · omega

/-- `filterResults`, lines 184-195. -/
noncomputable def filterResults (minimum : ℝ) (removeNaN : Bool)
    (levels : List (List (Option ℝ))) : List (List (Option ℝ)) :=
  levels.map fun l => filterLoop minimum removeNaN l 0

/-- The errors of `printErrorTable`, lines 107-116: as many as there are both
frequencies and theoretical values. -/
noncomputable def errors (theoretical : List ℝ) (levels : List (List ℝ)) : List (List ℝ) :=
  levels.map fun l => List.zipWith (fun f t => |f - t|) l theoretical

/-- Column `j` of row `i` of the second kind, lines 144-155: `none` is the
placeholder. Division by an error zero is division by zero. -/
noncomputable def factor (errs : List (List ℝ)) (i j : ℕ) : Option ℝ :=
  if i = 0 then none
  else do
    let prev ← errs[i - 1]?
    let cur ← errs[i]?
    let e ← prev[j]?
    let e' ← cur[j]?
    some (e / e')

end Verif.Structure
