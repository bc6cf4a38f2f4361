import Mathlib.Analysis.Real.Sqrt
import Mathlib.Algebra.BigOperators.Group.List.Basic

/-!
# Model of the initial solution and of the errors of `HpgemAPISimplified`

kernel/Base/HpgemAPISimplified_Impl.h:162-291 (mass matrix, initial solution), 293-530 (total and maximal error), 719-749 (estimate of the error of a
time step). An element is given by what the integration of C51 and C64 provides: its quadrature points, with the weight times the absolute value of the
determinant of the Jacobian, the values of the basis functions and the value of the solution that is to be represented. All unknowns have the same basis functions, as
`getNumberOfBasisFunctions()` requires. Vectors and matrices are functions of the index.
-/
namespace Verif.Projection

/-- A quadrature point. `exact v` is component `v` of `getInitialSolution` or `getExactSolution` there. -/
structure Point where
  weight : ℝ
  basis : Nat → ℝ
  exact : Nat → ℝ

/-- `convertToSingleIndex(basisFunction, unknown)` (ElementData.h:209-224) for unknowns with `nB` functions each. -/
def index (nB b v : Nat) : Nat := v * nB + b

/-- Assignment to an entry. -/
def assign {K : Type} [DecidableEq K] (m : K → ℝ) (k : K) (x : ℝ) : K → ℝ := Function.update m k x

/-- HpgemAPISimplified_Impl.h:164-188 `computeIntegrandMassMatrix`, on a result matrix that is zero (C64: it is cleared when the point changes). -/
def massIntegrand (nV nB : Nat) (p : Point) : Nat × Nat → ℝ :=
  (List.range nV).foldl (fun m v => (List.range nB).foldl (fun m i => (List.range nB).foldl (fun m j =>
    assign m (index nB i v, index nB j v) (p.basis i * p.basis j)) m) m) fun _ => 0

/-- HpgemAPISimplified_Impl.h:192-203 `computeMassMatrixAtElement`: the integral is the weighted sum over the points. -/
def massMatrix (nV nB : Nat) (points : List Point) : Nat × Nat → ℝ :=
  points.foldl (fun M p k => M k + p.weight * massIntegrand nV nB p k) fun _ => 0

/-- HpgemAPISimplified_Impl.h:227-257 `computeIntegrandInitialSolution`. -/
def initialIntegrand (nV nB : Nat) (p : Point) : Nat → ℝ :=
  (List.range nV).foldl (fun m v => (List.range nB).foldl (fun m i => assign m (index nB i v) (p.basis i * p.exact v)) m) fun _ => 0

/-- HpgemAPISimplified_Impl.h:262-277 `integrateInitialSolutionAtElement`. -/
def initialVector (nV nB : Nat) (points : List Point) : Nat → ℝ :=
  points.foldl (fun r p k => r k + p.weight * initialIntegrand nV nB p k) fun _ => 0

/-- HpgemAPISimplified_Impl.h:751-758 `setInitialSolution` on an element: `c` is a possible result. The system is solved by LAPACK, of which only this is
assumed: the result solves it. -/
def IsInitialSolution (nV nB : Nat) (points : List Point) (c : Nat → ℝ) : Prop :=
  ∀ k < nV * nB, ((List.range (nV * nB)).map fun l => massMatrix nV nB points (k, l) * c l).sum = initialVector nV nB points k

/-- HpgemAPISimplified_Impl.h:313-324 and 435-451: the numerical solution at a point, with loops over functions and unknowns. -/
def numericalSolution (nV nB : Nat) (p : Point) (c : Nat → ℝ) : Nat → ℝ :=
  (List.range nB).foldl (fun u j => (List.range nV).foldl (fun u v => assign u v (u v + p.basis j * c (index nB j v))) u) fun _ => 0

/-- HpgemAPISimplified_Impl.h:293-336 `computeIntegrandTotalError`. -/
def errorIntegrand (nV nB : Nat) (p : Point) (c : Nat → ℝ) : ℝ :=
  (List.range nV).foldl (fun s v => s + (p.exact v - numericalSolution nV nB p c v) * (p.exact v - numericalSolution nV nB p c v)) 0

/-- HpgemAPISimplified_Impl.h:339-362 `integrateErrorAtElement`; the points are those of the rule of order `2 p + 2`. -/
def errorAtElement (nV nB : Nat) (points : List Point) (c : Nat → ℝ) : ℝ :=
  points.foldl (fun s p => s + p.weight * errorIntegrand nV nB p c) 0

/-- HpgemAPISimplified_Impl.h:370-401 `computeTotalError`: `procs` has the own elements of every process, which are added and then reduced in some order. The second
component says whether the warning about a negative error was given. -/
noncomputable def totalError (nV nB : Nat) (points : Nat → List Point) (c : Nat → Nat → ℝ) (procs : List (List Nat)) : ℝ × Bool :=
  let all := procs.foldl (fun s own => s + own.foldl (fun s e => s + errorAtElement nV nB (points e) (c e)) 0) 0
  if 0 ≤ all then (√all, false) else (√(-all), true)

/-- HpgemAPISimplified_Impl.h:405-464 `computeMaxErrorAtElement`. -/
noncomputable def maxErrorAtElement (nV nB : Nat) (points : List Point) (c : Nat → ℝ) : Nat → ℝ :=
  points.foldl (fun m p => (List.range nV).foldl (fun m v =>
    if |numericalSolution nV nB p c v - p.exact v| > m v then assign m v |numericalSolution nV nB p c v - p.exact v| else m) m) fun _ => 0

/-- HpgemAPISimplified_Impl.h:499-530 `computeMaxError`. `computeMPIMaximum` (468-494) joins the processes in some order. -/
noncomputable def maxError (nV nB : Nat) (points : Nat → List Point) (c : Nat → Nat → ℝ) (procs : List (List Nat)) : Nat → ℝ :=
  let one (own : List Nat) : Nat → ℝ := own.foldl (fun m e => (List.range nV).foldl (fun m v =>
    if maxErrorAtElement nV nB (points e) (c e) v > m v then assign m v (maxErrorAtElement nV nB (points e) (c e) v) else m) m) fun _ => 0
  procs.foldl (fun m own v => max (m v) (one own v)) fun _ => 0

/-- `l2NormSquared()` of a vector of length `n`. -/
def normSq (n : Nat) (x : Nat → ℝ) : ℝ := (List.range n).foldl (fun s i => s + x i * x i) 0

/-- HpgemAPISimplified_Impl.h:719-749 `computeErrorAndNormOfUpdate`. `sol e` are the coefficients of the solution on element `e`, `size e` their number,
`stage e i` those of stage `i` and `err i` the error coefficients. -/
noncomputable def errorAndNorm (size : Nat → Nat) (sol : Nat → Nat → ℝ) (stage : Nat → Nat → Nat → ℝ) (stages : Nat) (err : Nat → ℝ) (dt : ℝ)
    (procs : List (List Nat)) : ℝ × ℝ :=
  let deviation (e : Nat) : Nat → ℝ := (List.range stages).foldl (fun d i k => d k + stage e i k * dt * err i) fun _ => 0
  let error := procs.foldl (fun s own => s + own.foldl (fun s e => s + normSq (size e) (deviation e)) 0) 0
  let norm := procs.foldl (fun s own => s + own.foldl (fun s e => s + √(normSq (size e) (sol e))) 0) 0
  (√error, norm)

end Verif.Projection
