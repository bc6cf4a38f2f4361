import Mathlib.LinearAlgebra.Matrix.NonsingularInverse
import Mathlib.Data.Fin.VecNotation
import Mathlib.Data.Real.Basic

/-!
# Limiters of the shallow granular flow application

Models the one-dimensional height and slope limiters in `applications/SavageHutter/HeightLimiters`
and `applications/SavageHutter/SlopeLimiters`, `HelperFunctions.h`, and the loop over the elements in
`SavageHutterBase_Impl.h`. `double` is `ℝ`. An element is a line of positive width with the reference
line `[-1, 1]`; its Jacobian is half of the width. The solution of an element has one vector of
coefficients for each variable: height (0), discharge (1) and possibly others. `none` is the failure
of an assertion, a singular mass matrix or a solution with infinities or not-a-numbers.

The argument `solutionCoefficients` of the limiters is the vector that `element->getSolution(0, ⋅)`
uses: `limitSolutionOuterLoop` passes a reference to it.
-/
namespace Verif.Limiters

/-- The basis functions of an element on the reference line, and the weights and points of its
quadrature rule. -/
structure Space (n : ℕ) where
  phi : Fin n → ℝ → ℝ
  rule : List (ℝ × ℝ)

variable {n v : ℕ}

/-- `Element::getSolution` and Helpers::getSolution (HelperFunctions.h:57-92), for one variable. -/
noncomputable def Space.value (S : Space n) (c : Fin n → ℝ) (x : ℝ) : ℝ := ∑ i, c i * S.phi i x

/-- `ElementIntegral::integrate` on an element with Jacobian `jac`. -/
noncomputable def Space.integrate (S : Space n) (jac : ℝ) (f : ℝ → ℝ) : ℝ :=
  (S.rule.map fun q => f q.2 * (q.1 * jac)).sum

/-- HelperFunctions.h:94-117 `computeAverageOfSolution`, for one variable: the integral divided by
the width of the element. -/
noncomputable def Space.average (S : Space n) (width : ℝ) (c : Fin n → ℝ) : ℝ :=
  S.integrate (width / 2) (S.value c) / width

/-- HelperFunctions.h:94-130 `computeAverageOfSolution`: the averages of all variables, with the
assertion that the average height is not negative. -/
noncomputable def Space.averages (S : Space n) (width : ℝ) (u : Fin (v + 2) → Fin n → ℝ) :
    Option (Fin (v + 2) → ℝ) :=
  if S.average width (u 0) > -(1 / 10 ^ 16) then some fun i => S.average width (u i) else none

/-- HelperFunctions.h:132-162 `projectOnBasisFuns` -/
noncomputable def Space.project (S : Space n) (width : ℝ) (f : ℝ → ℝ) : Option (Fin n → ℝ) :=
  let projection : Fin n → ℝ := fun i => S.integrate (width / 2) fun x => f x * S.phi i x
  let massMatrix : Matrix (Fin n) (Fin n) ℝ :=
    Matrix.of fun i j => S.integrate (width / 2) fun x => S.phi j x * S.phi i x
  if massMatrix.det = 0 then none else some (massMatrix⁻¹.mulVec projection)

/-- SavageHutterBase_Impl.h:217-244 (repeated in the limiters, PositiveLayerLimiter_Impl.h:108-132):
`getMinimumHeight` -/
noncomputable def Space.minimum (S : Space n) (c : Fin n → ℝ) : ℝ :=
  let minimum := S.value c (-1)
  let minimum := min minimum (S.value c 1)
  S.rule.foldl (fun m q => min m (S.value c q.2)) minimum

/-- PositiveLayerLimiter_Impl.h:45-106 `PositiveLayerLimiter<1>::limit` -/
noncomputable def positiveLayer (S : Space n) (minH width : ℝ) (u : Fin (v + 2) → Fin n → ℝ) :
    Option (Fin (v + 2) → Fin n → ℝ) :=
  if S.minimum (u 0) ≥ minH then some u else do
    let averages ← S.averages width u
    let averageHeight := averages 0
    let averageDischarge := averages 1
    if averageHeight < minH then
      let heightCoefficients ← S.project width fun _ => averageHeight
      let dischargeCoefficients ← S.project width fun _ => 0
      return Function.update (Function.update u 0 heightCoefficients) 1 dischargeCoefficients
    else
      let solutionLeft := S.value (u 0) (-1)
      let solutionRight := S.value (u 0) 1
      let slopeDischarge := averageDischarge
      let slopeHeight := min ((solutionLeft + solutionRight - 2 * minH) / 2) (averageHeight - minH)
      let factor : ℝ := if solutionRight < solutionLeft then -1 else 1
      let slopeHeight := slopeHeight * factor
      let slopeDischarge := slopeDischarge * factor
      let heightCoefficients ← S.project width fun x => averageHeight + slopeHeight * x
      let dischargeCoefficients ← S.project width fun x => averageDischarge + slopeDischarge * x
      return Function.update (Function.update u 0 heightCoefficients) 1 dischargeCoefficients

/-- SqueezeLimiterWithLayer_Impl.h:141-171 `getMinimumHeightPoint`. The variable named
`solutionRight` holds the discharge in the left node. -/
noncomputable def minimumPoint (S : Space n) (u : Fin (v + 2) → Fin n → ℝ) : ℝ :=
  let solutionLeft := S.value (u 0) (-1)
  let solutionRight := S.value (u 1) (-1)
  let start : ℝ × ℝ := if solutionRight < solutionLeft then (solutionRight, 1) else (solutionLeft, -1)
  (S.rule.foldl (fun (m : ℝ × ℝ) q =>
    if m.1 > S.value (u 0) q.2 then (S.value (u 0) q.2, q.2) else m) start).2

/-- SqueezeLimiterWithLayer_Impl.h:77-79: `min(1, average / (average - q))`. Division by zero gives
infinity or not-a-number, for which `std::min` answers 1, or minus infinity, for which the new
discharge is not finite (`none`). -/
noncomputable def dischargeFactor (average q : ℝ) : Option ℝ :=
  if average - q = 0 then (if average < 0 then none else some 1)
  else some (min 1 (average / (average - q)))

/-- SqueezeLimiterWithLayer_Impl.h:43-112 `SqueezeLimiterWithLayer::limit` -/
noncomputable def squeezeLimiter (S : Space n) (minH width : ℝ) (u : Fin (v + 2) → Fin n → ℝ) :
    Option (Fin (v + 2) → Fin n → ℝ) :=
  let minimumHeight := S.minimum (u 0)
  if minimumHeight ≥ minH then some u else do
    let averages ← S.averages width u
    let averageHeight := averages 0
    let averageDischarge := averages 1
    if averageHeight < minH then
      let heightCoefficients ← S.project width fun _ => averageHeight
      let dischargeCoefficients ← S.project width fun _ => 0
      return Function.update (Function.update u 0 heightCoefficients) 1 dischargeCoefficients
    else
      let squeezeFactorH := (averageHeight - minH) / (averageHeight - minimumHeight)
      let pRef := minimumPoint S u
      let squeezeFactorHu ← dischargeFactor averageDischarge (S.value (u 1) pRef)
      let heightCoefficients ← S.project width fun x =>
        averageHeight + squeezeFactorH * (S.value (u 0) x - averageHeight)
      let dischargeCoefficients ← S.project width fun x =>
        averageDischarge + squeezeFactorHu * (S.value (u 1) x - averageDischarge)
      return Function.update (Function.update u 0 heightCoefficients) 1 dischargeCoefficients

/-- AverageValuesNonNegativeLimiter_Impl.h:43-93 `AverageValuesNonNegativeLimiter<1>::limit` -/
noncomputable def averageLimiter (S : Space n) (minH width : ℝ) (u : Fin (v + 2) → Fin n → ℝ) :
    Option (Fin (v + 2) → Fin n → ℝ) :=
  if S.minimum (u 0) ≥ minH then some u else do
    let averages ← S.averages width u
    let heightCoefficients ← S.project width fun _ => averages 0
    let dischargeCoefficients ← S.project width fun _ => averages 1
    return Function.update (Function.update u 0 heightCoefficients) 1 dischargeCoefficients

/-- BidispersedLimiter1D.cpp:110-135 `smallHeightDoesNotFitBetweenHeightAndZero` -/
noncomputable def smallDoesNotFit (S : Space n) (minH : ℝ) (u : Fin (v + 3) → Fin n → ℝ) : Prop :=
  (∃ x ∈ [-1, 1], S.value (u 0) x + minH < S.value (u 2) x ∨ S.value (u 2) x < -minH) ∨
  ∃ q ∈ S.rule, S.value (u 0) q.2 + minH < S.value (u 2) q.2 ∨ S.value (u 2) q.2 < -minH

open Classical in
/-- BidispersedLimiter1D.cpp:45-108 `BidispersedLimiter::limit` with `limitHeight`,
`setSmallHeigthToHeight`, `setSmallHeightToZero` and `squeezeSmallHeight`. -/
noncomputable def bidispersedLimiter (S : Space n) (minH width : ℝ) (u : Fin (v + 3) → Fin n → ℝ) :
    Option (Fin (v + 3) → Fin n → ℝ) := do
  let u ← positiveLayer (v := v + 1) S minH width u
  let averages ← S.averages (v := v + 1) width u
  if averages 0 + minH < averages 2 then
    return Function.update u 2 (u 0)
  else if averages 2 < -minH then
    return Function.update u 2 fun _ => 0
  else if smallDoesNotFit S minH u then
    let smallHeightCoefficients ← S.project width fun _ => averages 2
    return Function.update u 2 smallHeightCoefficients
  else
    return u

/-- HelperFunctions.cpp:43-46 `sign` -/
noncomputable def sign (x : ℝ) : ℤ := if |x| < 1 / 10 ^ 16 then 0 else if x < 0 then -1 else 1

/-- `a / b < 1`; if `b` is zero the quotient is infinite or not-a-number, and less than 1 only if it
is minus infinity. -/
def ratioBelowOne (a b : ℝ) : Prop := if b = 0 then a < 0 else a / b < 1

open Classical in
/-- TvbLimiter1D.cpp:92-111: the new coefficients from the averages of the left neighbour, the
element and the right neighbour. -/
noncomputable def minmodCoeffs (n : ℕ) (uL u0 uR : ℝ) : Fin n → ℝ :=
  let (c0, c1) : ℝ × ℝ :=
    if sign (uR - u0) ≠ sign (u0 - uL) then (u0, u0)
    else if ratioBelowOne (u0 - uL) (uR - u0) then
      (1 / 2 * u0 + 1 / 2 * uL, 3 / 2 * u0 - 1 / 2 * uL)
    else (3 / 2 * u0 - 1 / 2 * uR, 1 / 2 * u0 + 1 / 2 * uR)
  fun i => if i.val = 0 then c0 else if i.val = 1 then c1 else 0

/-- TvbLimiter1D.cpp:116-129 (`M = 1`), TvbLimiterWithDetector1D.cpp:164-178 (`M = 10`):
`hasSmallSlope`; `2 * calcJacobian(pRefL).determinant()` is the width. -/
def smallSlope (S : Space n) (M width : ℝ) (c : Fin n → ℝ) : Prop :=
  |S.value c 1 - S.value c (-1)| < M * width * width

/-- A one-dimensional mesh: widths of the elements, and for each element the left element of its face
0 and the right element of its face 1, if these faces are internal. The identifiers of the elements
are their numbers. -/
structure Mesh where
  width : ℕ → ℝ
  left : ℕ → Option ℕ
  right : ℕ → Option ℕ

/-- The coefficients of all elements. -/
abbrev State (n v : ℕ) := ℕ → Fin (v + 2) → Fin n → ℝ

/-- TvbLimiter1D.cpp:60-114 `TvbLimiter1D::limitWithMinMod` -/
noncomputable def tvbVariable (S : Space n) (mesh : Mesh) (st : State n v) (e : ℕ)
    (i : Fin (v + 2)) : Option (State n v) :=
  match mesh.left e, mesh.right e with
  | some l, some r =>
    if r = e + 1 ∧ e = l + 1 then do
      let a0 ← S.averages (mesh.width e) (st e)
      let aR ← S.averages (mesh.width r) (st r)
      let aL ← S.averages (mesh.width l) (st l)
      return Function.update st e (Function.update (st e) i (minmodCoeffs n (aL i) (a0 i) (aR i)))
    else none
  | _, _ => some st

open Classical in
/-- TvbLimiter1D.cpp:47-53 `TvbLimiter1D::limitSlope` -/
noncomputable def tvbLimiter (S : Space n) (mesh : Mesh) (st : State n v) (e : ℕ) :
    Option (State n v) :=
  (List.finRange (v + 2)).foldlM (fun st i =>
    if smallSlope S 1 (mesh.width e) (st e i) then some st else tvbVariable S mesh st e i) st

/-- TvbLimiterWithDetector1D.cpp:180-257 `limitWithMinMod`, for an element with two internal faces.
The condition of the slope begins with `false &&`. -/
noncomputable def detectorMinmod (S : Space n) (width : ℝ) (uElemL uElemR : ℝ)
    (u : Fin (v + 2) → Fin n → ℝ) (i : Fin (v + 2)) : Option (Fin (v + 2) → Fin n → ℝ) := do
  let uPlus := S.value (u i) 1
  let uMinus := S.value (u i) (-1)
  let averages ← S.averages width u
  let u0 := averages i
  let slope : ℝ :=
    if false ∧ sign (uElemR - u0) = sign (u0 - uElemL) ∧ sign (uElemR - u0) = sign (uPlus - uMinus) then
      (sign (uElemR - u0) : ℝ) * min |uPlus - uMinus| (min |uElemR - u0| |u0 - uElemL|)
    else 0
  if |(|slope| - |uPlus - uMinus|)| > 1 / 10 ^ 16 then
    let newCoeffs ← S.project width fun x => u0 + slope * x
    return Function.update u i newCoeffs
  else return u

/-- SavageHutterBase_Impl.h:195-213: what `limitSolutionOuterLoop` does to one element, with the
limiters of SavageHutter1DWidthHAndU.cpp:86-102. The layer thickness `minH` and `dryLimit` are both
1e-5 in the code. -/
noncomputable def limitElement (S : Space n) (mesh : Mesh) (minH dryLimit : ℝ) (st : State n v)
    (e : ℕ) : Option (State n v) :=
  if S.minimum (st e 0) < dryLimit then
    (positiveLayer S minH (mesh.width e) (st e)).map (Function.update st e)
  else if n > 1 then tvbLimiter S mesh st e
  else some st

/-- SavageHutterBase_Impl.h:191-215 `limitSolutionOuterLoop` over the elements of one process. -/
noncomputable def limitLoop (S : Space n) (mesh : Mesh) (minH dryLimit : ℝ) (elements : List ℕ)
    (st : State n v) : Option (State n v) :=
  elements.foldlM (limitElement S mesh minH dryLimit) st

end Verif.Limiters
