import Mathlib.Data.Real.Basic
import Mathlib.Algebra.Module.Basic
import Mathlib.Algebra.Order.Floor.Semiring
import Mathlib.Algebra.Order.Archimedean.Real.Basic

/-!
# Model of kernel/Base/TimeIntegration and of the time stepping in kernel/Base/HpgemAPISimplified

`double` is modelled by `ℚ` for stored tableau coefficients (so `1.0/6.0` is the exact rational) and
by `ℝ` for time and solution coefficients.
-/
namespace Verif.RungeKutta

/-- ButcherTableau.h:56-78: the data behind the virtual getters. `err = none` stands for
`hasErrorEstimate() == false`. -/
structure Tableau where
  name : String
  order : Nat
  stages : Nat
  tvd : Bool
  a : List (List ℚ)
  b : List ℚ
  c : List ℚ
  err : Option (List ℚ)

/-- `getA(i, j)`, e.g. ForwardEuler.cpp:67-76: `a_[i][j]`. Out of range (undefined behaviour in
C++) is totalised to 0; `WellFormed` below excludes it for the accesses that are made. -/
def Tableau.getA (T : Tableau) (i j : Nat) : ℚ := (T.a.getD i []).getD j 0
/-- `getB(i)`, e.g. ForwardEuler.cpp:78-83. -/
def Tableau.getB (T : Tableau) (i : Nat) : ℚ := T.b.getD i 0
/-- `getC(i)`, e.g. ForwardEuler.cpp:85-90. -/
def Tableau.getC (T : Tableau) (i : Nat) : ℚ := T.c.getD i 0
/-- `getErrorCoefficient(i)`, e.g. DormandPrince.cpp:117-122; the default of ButcherTableau.h:69-76
is a fatal error: here `none`. -/
def Tableau.getErr (T : Tableau) (i : Nat) : Option ℚ := T.err.bind (fun e => e[i]?)

/-- ForwardEuler.cpp:45-57 -/
def forwardEuler : Tableau where
  name := "ForwardEuler"
  order := 1
  stages := 1
  tvd := true
  a := [[]]
  b := [1]
  c := [0]
  err := none

/-- MidPoint.cpp:45-59 -/
def midPoint : Tableau where
  name := "MidPoint"
  order := 2
  stages := 2
  tvd := false
  a := [[], [1/2]]
  b := [0, 1]
  c := [0, 1/2]
  err := none

/-- RK2TVD.cpp:46-63 -/
def rk2tvd : Tableau where
  name := "RK2TVD"
  order := 2
  stages := 2
  tvd := true
  a := [[], [1]]
  b := [1/2, 1/2]
  c := [0, 0]
  err := some [-1/2, 1/2]

/-- RK3TVD.cpp:46-63 -/
def rk3tvd : Tableau where
  name := "RK3TVD"
  order := 3
  stages := 3
  tvd := true
  a := [[], [1], [1/4, 1/4]]
  b := [1/6, 1/6, 2/3]
  c := [0, 0, 0]
  err := none

/-- RK4Methods.cpp:45-63 -/
def rk4 : Tableau where
  name := "RK4_4"
  order := 4
  stages := 4
  tvd := false
  a := [[], [1/2], [0, 1/2], [0, 0, 1]]
  b := [1/6, 1/3, 1/3, 1/6]
  c := [0, 1/2, 1/2, 1]
  err := none

/-- DormandPrince.cpp:45-82 -/
def dormandPrince : Tableau where
  name := "DormandPrince"
  order := 5
  stages := 7
  tvd := false
  a := [[], [1/5], [3/40, 9/40], [44/45, -56/15, 32/9],
        [19372/6561, -25360/2187, 64448/6561, -212/729],
        [9017/3168, -355/33, 46732/5247, 49/176, -5103/18656],
        [35/384, 0, 500/1113, 125/192, -2187/6784, 11/84]]
  b := [35/384, 0, 500/1113, 125/192, -2187/6784, 11/84, 0]
  c := [0, 1/5, 3/10, 4/5, 8/9, 1, 1]
  err := some [35/384 - 5179/57600, 0 - 0, 500/1113 - 7571/16695, 125/192 - 393/640,
               -2187/6784 - -92097/339200, 11/84 - 187/2100, 0 - 1/40]

/-- BogackiShampine.cpp:43-69 (the vector `c_` indeed has seven entries there). -/
def bogackiShampine : Tableau where
  name := "BogackiShampine"
  order := 3
  stages := 4
  tvd := false
  a := [[], [1/2], [0, 3/4], [2/9, 1/3, 4/9]]
  b := [2/9, 1/3, 4/9, 0]
  c := [0, 1/5, 3/10, 4/5, 8/9, 1, 1]
  err := some [2/9 - 7/24, 1/3 - 1/4, 4/9 - 1/3, 0 - 1/8]

/-- AllTimeIntegrators.cpp:53-61: `vecOfIntegrators_` in registration order. -/
def registry : List Tableau :=
  [forwardEuler, midPoint, rk2tvd, rk3tvd, rk4, dormandPrince, bogackiShampine]

/-- AllTimeIntegrators.cpp:68-97 `getRule`: first pass exact, second pass with the opposite TVD flag
(with a warning), otherwise a fatal error (`none`). The result is paired with "a warning was
logged". -/
def getRule (reg : List Tableau) (order stages : Nat) (tvd : Bool) : Option (Tableau × Bool) :=
  match reg.find? (fun r => r.order == order && r.stages == stages && r.tvd == tvd) with
  | some r => some (r, false)
  | none =>
    match reg.find? (fun r => r.order == order && r.stages == stages && r.tvd != tvd) with
    | some r => some (r, true)
    | none => none

section Stepping
variable {V : Type*} [AddCommGroup V] [Module ℝ V]

/-- The time integration vectors of the whole mesh: `mem id` collects
`element->getTimeIntegrationVector(id)` over all elements. -/
abbrev Mem (V : Type*) := Nat → V

/-- HpgemAPISimplified_Impl.h:599-620 `getLinearCombinationOfVectors`, for all elements at once. The
two parallel vectors (ids, coefficients) are a list of pairs. The code needs at least one entry
(assert_debug at 608); the empty list is totalised to 0 and never passed. -/
def linComb (m : Mem V) : List (Nat × ℝ) → V
  | [] => 0
  | (id, c) :: rest => rest.foldl (fun acc p => acc + p.2 • m p.1) (c • m id)

/-- HpgemAPISimplified_Impl.h:778-786 `computeTimeDerivative`: right-hand side of the linear
combination followed by the mass matrix solve. Both together are the parameter
`f : time → coefficients → coefficients`; the result is stored under `res`. `synchronize` (ghost
exchange) has no effect on the modelled global vector. -/
def computeTimeDerivative (f : ℝ → V → V) (m : Mem V) (inputs : List (Nat × ℝ)) (res : Nat)
    (time : ℝ) : Mem V :=
  Function.update m res (f time (linComb m inputs))

/-- HpgemAPISimplified_Impl.h:707-717 `scaleAndAddVector`. -/
def scaleAndAdd (m : Mem V) (change add : Nat) (scale : ℝ) : Mem V :=
  Function.update m change (m change + scale • m add)

/-- HpgemAPISimplified_Impl.h:95: `solutionVectorId_ = 0`. -/
def solId : Nat := 0
/-- HpgemAPISimplified_Impl.h:96-99: `auxiliaryVectorIds_[j] = j + 1`. -/
def auxId (j : Nat) : Nat := j + 1

/-- HpgemAPISimplified_Impl.h:797-806: ids and coefficients of stage `i`. -/
def stageInputs (T : Tableau) (dt : ℝ) (i : Nat) : List (Nat × ℝ) :=
  (solId, 1) :: (List.range i).map (fun j => (auxId j, dt * (T.getA i j : ℝ)))

/-- HpgemAPISimplified_Impl.h:794-810: the body of the loop over the stages. -/
def stage (T : Tableau) (f : ℝ → V → V) (time dt : ℝ) (m : Mem V) (i : Nat) : Mem V :=
  computeTimeDerivative f m (stageInputs T dt i) (auxId i) (time + (T.getC i : ℝ) * dt)

/-- HpgemAPISimplified_Impl.h:788-820 `computeOneTimeStep(time, dt)`; returns the new vectors and
the new time. -/
def computeOneTimeStep (T : Tableau) (f : ℝ → V → V) (m : Mem V) (time dt : ℝ) : Mem V × ℝ :=
  let m1 := (List.range T.stages).foldl (stage T f time dt) m
  let m2 := (List.range T.stages).foldl
    (fun m j => scaleAndAdd m solId (auxId j) (dt * (T.getB j : ℝ))) m1
  (m2, time + dt)

/-- HpgemAPISimplified_Impl.h:845-850: undoing a rejected step. -/
def rollback (T : Tableau) (m : Mem V) (dt : ℝ) : Mem V :=
  (List.range T.stages).foldl
    (fun m j => scaleAndAdd m solId (auxId j) (-dt * (T.getB j : ℝ))) m

/-- HpgemAPISimplified_Impl.h:822-861, the adaptive `computeOneTimeStep`. The error estimate, the
rejection test (lines 840-842) and the new step size (851-853) only read the vectors; they are the
parameters `reject` and `shrink`. The `while` loop gets `fuel` iterations; `none` means that it has
not ended by then. Returns the vectors, the new time and the accepted step size. -/
def adaptiveStep (T : Tableau) (f : ℝ → V → V) (reject : Mem V → ℝ → Bool)
    (shrink : Mem V → ℝ → ℝ) (time : ℝ) : (fuel : Nat) → Mem V → (dt : ℝ) →
    Option (Mem V × ℝ × ℝ)
  | 0, _, _ => none
  | fuel + 1, m, dt =>
    let m' := (computeOneTimeStep T f m time dt).1
    if reject m' dt then
      adaptiveStep T f reject shrink time fuel (rollback T m' dt) (shrink m' dt)
    else some (m', time + dt, dt)

end Stepping

section Solve

/-- HpgemAPISimplified_Impl.h:981-992: the number of time steps, rounded up to a multiple of the
number of output frames (for `frames > 0`). -/
noncomputable def numberOfTimeSteps (T dt : ℝ) (frames : Nat) : Nat :=
  let n := ⌈T / dt⌉₊
  if frames > 0 then n + (frames - n % frames) % frames else n

/-- HpgemAPISimplified_Impl.h:983-992: the step size actually used. -/
noncomputable def effectiveDt (T dt : ℝ) (frames : Nat) : ℝ :=
  if frames > 0 then T / (numberOfTimeSteps T dt frames : ℝ) else dt

/-- State of the fixed step loop of `solve`, HpgemAPISimplified_Impl.h:1027-1045. `outputTime` is
`none` when there are no frames (division by zero gives `+∞`, which never triggers). `frames` counts
the snapshots written in the loop. -/
structure SolveState where
  time : ℝ
  outputTime : Option ℝ
  steps : Nat
  frames : Nat
  /-- the times at which frames were written, latest first -/
  written : List ℝ

open Classical in
/-- One round of HpgemAPISimplified_Impl.h:1028-1045 with a fixed step size (`error` not used). -/
noncomputable def solveRound (outputDt dt : ℝ) (s : SolveState) : SolveState :=
  let time := s.time + dt
  match s.outputTime with
  | none => { s with time := time, steps := s.steps + 1 }
  | some o =>
    if time > o - (1e-12 : ℝ) then
      { time := time, outputTime := some (o + outputDt), steps := s.steps + 1,
        frames := s.frames + 1, written := time :: s.written }
    else { s with time := time, steps := s.steps + 1 }

open Classical in
/-- HpgemAPISimplified_Impl.h:1028: `while (time < finalTime - 1e-14)`, with fuel. -/
noncomputable def solveLoop (finalTime outputDt dt : ℝ) : (fuel : Nat) → SolveState →
    Option SolveState
  | 0, s => if s.time < finalTime - (1e-14 : ℝ) then none else some s
  | fuel + 1, s =>
    if s.time < finalTime - (1e-14 : ℝ) then
      solveLoop finalTime outputDt dt fuel (solveRound outputDt dt s)
    else some s

/-- HpgemAPISimplified_Impl.h:975-1045: the fixed step size path of `solve`. -/
noncomputable def solve (initialTime finalTime dt : ℝ) (frames fuel : Nat) : Option SolveState :=
  let T := finalTime - initialTime
  let outputDt := T / (frames : ℝ)
  solveLoop finalTime outputDt (effectiveDt T dt frames) fuel
    { time := initialTime, outputTime := if frames > 0 then some (outputDt + initialTime) else none,
      steps := 0, frames := 0, written := [] }

end Solve
end Verif.RungeKutta
