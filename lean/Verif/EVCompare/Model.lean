import Mathlib.Data.Rat.Defs
import Mathlib.Algebra.Order.Ring.Rat
import Mathlib.Algebra.Order.Ring.Abs

/-!
# Comparing computed with expected frequencies

`applications/DG-Max/Utils/Verification/AbstractEVConvergenceTest.cpp`.  A frequency is a
rational number or NaN (`none`); rounding of differences is not modelled.
-/

namespace Verif.EVCompare

abbrev Freq := Option ℚ

/-- `a < b`; false if one of them is NaN. -/
def less : Freq → Freq → Bool
  | some a, some b => a < b
  | _, _ => false

/-- `std::is_sorted`: no element is less than the one before. -/
def isSorted : List Freq → Bool
  | [] => true
  | [_] => true
  | a :: b :: l => !less b a && isSorted (b :: l)

/-- The virtual functions of the test: `expectNaNsOrNegative`,
`expectedNumericalZeroThreshold`, `minimumNumberOfResults(level)`, `getTolerance`. -/
structure Options where
  nanOrNegative : Bool
  zero : ℚ
  minimum : ℕ
  tol : ℚ

/-- `std::isnan(x) || x < 0.0`. -/
def bad : Freq → Bool
  | none => true
  | some x => x < 0

/-- `x >= 0.0 && x < threshold`. -/
def numericalZero (thr : ℚ) : Freq → Bool
  | none => false
  | some x => 0 ≤ x && x < thr

/-- Lines 76-84: skip leading NaNs and negative values if they are expected. -/
def skipBad (o : Options) (l : List Freq) : List Freq :=
  if o.nanOrNegative then l.dropWhile bad else l

/-- `std::abs(diff) >= tolerance`; false if the difference is NaN. -/
def differs (tol : ℚ) : Freq → Freq → Bool
  | some a, some b => |a - b| ≥ tol
  | _, _ => false

/-- Lines 114-126, the loop over both. -/
def same (tol : ℚ) : List Freq → List Freq → Bool
  | a :: l, b :: m => if differs tol a b then false else same tol l m
  | _, _ => true

/-- `compareWithExpected`, lines 64-146.  `none`: the program ends, by a failing
`assert_always` or, if the error handler does not return (`errorEnds`, as the standard
one), by a message at level `ERROR`. -/
def compareWithExpected (errorEnds : Bool) (o : Options) (expected : Option (List (List Freq)))
    (level : ℕ) (result : List Freq) : Option Bool :=
  match expected.bind (·[level]?) with
  | none => some true
  | some expectedLevel =>
    let r := skipBad o result
    let e := skipBad o expectedLevel
    if isSorted r = false then (if errorEnds then none else some false)
    else if isSorted e = false then none
    else
      let r := r.dropWhile (numericalZero o.zero)
      let e := e.dropWhile (numericalZero o.zero)
      if e.length < o.minimum then none
      else if r.length < o.minimum then (if errorEnds then none else some false)
      else if same o.tol r e then some true
      else (if errorEnds then none else some false)

/-- `run`, lines 44-62, for the results of the levels from `level` on (`driver` runs
are inputs); the options may depend on the level.  `none`: the program ends. -/
def runFrom (errorEnds failOnDifference : Bool) (o : ℕ → Options)
    (expected : Option (List (List Freq))) : ℕ → List (List Freq) → Option (List (List Freq))
  | _, [] => some []
  | level, result :: rest =>
    match expected with
    | none => (runFrom errorEnds failOnDifference o expected (level + 1) rest).map (result :: ·)
    | some _ =>
      match compareWithExpected errorEnds (o level) expected level result with
      | none => none
      | some correct =>
        if correct || !failOnDifference then
          (runFrom errorEnds failOnDifference o expected (level + 1) rest).map (result :: ·)
        else none

end Verif.EVCompare
