import Mathlib.Algebra.Module.LinearMap.Defs
import Mathlib.Analysis.Real.Sqrt
import Mathlib.Algebra.Order.Floor.Ring

/-!
# Model of the time integration of the Maxwell application

applications/DG-Max/Algorithms/DGMaxTimeIntegration.{h,cpp}. A global vector is an element of a real vector space, a global matrix a linear map. The PETSc
operations are: `VecAXPY(y,a,x)`: `y + a x`, `VecAYPX(y,a,x)`: `x + a y`, `VecScale`, `VecCopy`, `MatMult`. Time and coefficients are real numbers.
-/
namespace Verif.MaxTime

variable {V : Type*} [AddCommGroup V] [Module ℝ V]

/-- What `solve` works with after the assembly (DGMaxTimeIntegration.cpp:112-135). `massInv` is the matrix with id `MASS_MATRIX_ID`; the discretisation was told to
invert it (line 101). `eb` and `es` are `timeScalingBoundary` and `timeScalingSource`, `tau` is the step and `sigma` the conductivity. -/
structure Problem (V : Type*) [AddCommGroup V] [Module ℝ V] where
  massInv : V →ₗ[ℝ] V
  stiff : V →ₗ[ℝ] V
  boundary : V
  source : V
  eb : ℝ → ℝ
  es : ℝ → ℝ
  tau : ℝ
  sigma : ℝ

/-- The variables that live from one step to the next: `resultVector`, `derivative`, `t` and the auxiliary vector `dummy2`, which the step of fourth order reads before it
writes it. -/
@[ext] structure State (V : Type*) where
  u : V
  v : V
  t : ℝ
  w : V

/-- DGMaxTimeIntegration.cpp:143-157: the vectors of the initial condition are multiplied with the inverse of the mass matrix. `b` and `b'` are the assembled vectors
`INITIAL_CONDITION_VECTOR_ID` and `INITIAL_CONDITION_DERIVATIVE_VECTOR_ID`; `w` is the content `VecDuplicate` leaves in `dummy2`, except that the last product
goes to `dummy`, not to it. -/
def start (P : Problem V) (b b' w : V) : State V := ⟨P.massInv b, P.massInv b', 0, w⟩

/-- DGMaxTimeIntegration.cpp:196-203 and 210-217: the right hand side at time `t`. -/
def load (P : Problem V) (t : ℝ) : V := P.es t • P.source + P.eb t • P.boundary

/-- DGMaxTimeIntegration.cpp:163-166. -/
noncomputable def scale0 (P : Problem V) : ℝ := 1 - P.sigma * P.tau / 2

/-- DGMaxTimeIntegration.cpp:163-166. The quotient is not a number when the denominator is zero; the theorems exclude that. -/
noncomputable def scale1 (P : Problem V) : ℝ := 1 / (1 + P.sigma * P.tau / 2)

/-- DGMaxTimeIntegration.cpp:186-231: a step of the method `CO2`. -/
noncomputable def co2 (P : Problem V) (x : State V) : State V :=
  let u1 := x.u + (P.tau / 2) • x.v
  let dummy := P.stiff u1
  let dummy2 := (0.5 * P.tau) • load P x.t
  let dummy := dummy2 + (-P.tau) • dummy
  let dummy2 := load P (x.t + P.tau)
  let dummy := dummy + (0.5 * P.tau) • dummy2
  let dummy := scale1 P • dummy
  let dummy2 := P.massInv dummy
  let v1 := dummy2 + (scale0 P * scale1 P) • x.v
  ⟨u1 + (P.tau / 2) • v1, v1, x.t + P.tau, dummy2⟩

/-- DGMaxTimeIntegration.cpp:287-326 `getCoeffCO4`, the array `alpha`. -/
noncomputable def alpha : Nat → ℝ
  | 1 => (146 + 5 * √19) / 540
  | 2 => (-2 + 10 * √19) / 135
  | 3 => 1 / 5
  | 4 => (-23 - 20 * √19) / 270
  | 5 => (14 - √19) / 108
  | _ => 0

/-- DGMaxTimeIntegration.cpp:287-326 `getCoeffCO4`, the array `beta`. -/
noncomputable def beta : Nat → ℝ
  | 1 => alpha 5
  | 2 => alpha 4
  | 3 => alpha 3
  | 4 => alpha 2
  | 5 => alpha 1
  | _ => 0

/-- DGMaxTimeIntegration.cpp:314-320 `alpha_sum`, `beta_sum`. -/
noncomputable def sumUpTo (a : Nat → ℝ) (i : Nat) : ℝ := ((List.range (i + 1)).map a).sum

/-- DGMaxTimeIntegration.cpp:234-266: stage `k` of the method `CO4`. The statements that would copy the right hand side into `dummy2` are commented out (lines 244 and
253). The scales are one (lines 321-322), the conductivity is not used. -/
noncomputable def co4Stage (P : Problem V) (k : Nat) (x : State V) : State V :=
  let u1 := x.u + (P.tau * (alpha (k - 1) + beta k)) • x.v
  let dummy := P.stiff u1
  let eta := P.eb (x.t + (sumUpTo alpha (k - 1) + sumUpTo beta (k - 1)) * P.tau)
  let dummy2 := (beta k * P.tau * eta) • x.w
  let dummy := dummy2 + (-(beta k + alpha k) * P.tau) • dummy
  let eta := P.eb (x.t + (sumUpTo alpha k + sumUpTo beta k) * P.tau)
  let dummy2 := (alpha k * P.tau * eta) • dummy2
  let dummy := dummy + (1 : ℝ) • dummy2
  let dummy3 := P.massInv ((1 : ℝ) • dummy)
  ⟨u1, dummy3 + ((1 : ℝ) * 1) • x.v, x.t, dummy2⟩

/-- DGMaxTimeIntegration.cpp:233-270: a step of the method `CO4`. -/
noncomputable def co4 (P : Problem V) (x : State V) : State V :=
  let y := [1, 2, 3, 4, 5].foldl (fun y k => co4Stage P k y) x
  ⟨y.u + (P.tau * alpha 5) • y.v, y.v, y.t + P.tau, y.w⟩

/-- DGMaxTimeIntegration.h:56 -/
inductive Method | co2 | co4
  deriving DecidableEq

/-- One pass of the loop without the writing of the snapshot. -/
noncomputable def step (P : Problem V) : Method → State V → State V
  | .co2 => co2 P
  | .co4 => co4 P

/-- A snapshot as it is kept: the number of the time integration vector, the entry of `snapshotTime` and the vector. -/
structure Snapshot (V : Type*) where
  index : Nat
  time : ℝ
  field : V

/-- DGMaxTimeIntegration.h:140-147 `numberOfSnapshots`, the length of `snapshotTime` and the number of time integration vectors. -/
def numberOfSnapshots (steps stride : Nat) : Nat :=
  if steps % stride = 0 then 1 + steps / stride else 2 + steps / stride

/-- DGMaxTimeIntegration.cpp:182-184 and 276-281: a snapshot. `none`: beyond the memory that was reserved. -/
def snapshot (reserved : Nat) (x : State V) (shots : List (Snapshot V)) : Option (List (Snapshot V)) :=
  if shots.length < reserved then some (shots ++ [⟨shots.length, x.t, x.u⟩]) else none

/-- DGMaxTimeIntegration.cpp:179-273: the passes `i`, …, `i + n - 1` of the loop. -/
noncomputable def loop (P : Problem V) (m : Method) (reserved stride : Nat) : (n i : Nat) → State V → List (Snapshot V) → Option (State V × List (Snapshot V))
  | 0, _, x, shots => some (x, shots)
  | n + 1, i, x, shots => do
    let shots ← if i % stride = 0 then snapshot reserved x shots else some shots
    loop P m reserved stride n (i + 1) (step P m x) shots

/-- DGMaxTimeIntegration.cpp:62-284 `solve`, with the snapshots that are left. `none`: a division by zero when the stride is zero, or a write beyond the memory. The
counter `i` is an `int` in the code; here it has no bound. -/
noncomputable def solve (P : Problem V) (m : Method) (steps stride : Nat) (b b' w : V) : Option (List (Snapshot V)) :=
  if stride = 0 then none else do
    let (x, shots) ← loop P m (numberOfSnapshots steps stride) stride steps 0 (start P b b' w) []
    if steps % stride = 0 then snapshot (numberOfSnapshots steps stride) x shots else some shots

/-- DGMaxTimeIntegration.h:119-138 `configureTraditional`: the step and the number of steps. -/
noncomputable def configureTraditional (m : Method) (endTime : ℝ) (order elements : Nat) : ℝ × Nat :=
  let tau : ℝ := match m with
    | .co2 => 0.05 / ((2 * order + 1) * elements)
    | .co4 => 0.3 / ((2 * order + 1) * elements)
  (tau, ⌈endTime / tau⌉₊)

end Verif.MaxTime
