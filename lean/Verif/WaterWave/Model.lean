import Mathlib.Analysis.SpecialFunctions.Sqrt
import Mathlib.Analysis.SpecialFunctions.Trigonometric.DerivHyp
import Mathlib.LinearAlgebra.Matrix.NonsingularInverse
import Mathlib.Logic.Equiv.Fin.Basic

/-!
# Linear water waves

`applications/DG-Wave_linear/main.cpp`.  `double` is `ℝ`.  The solvers of PETSc are
not modelled: their results are any vectors that solve the systems.  There is one
process.

The unknowns are the elevation (0) and the potential (1).  The stiffness matrix has
entries only for the potential (`stifnessIntegrand`, lines 79-102), so that the rows
of the elevation inside the domain are zero and not modelled.
-/

namespace Verif.WaterWave

variable {n N : ℕ} {I : Type} [Fintype I]

/-- The assembled matrices by basis function: the mass matrix of the free surface
(`massIntegrand`, lines 104-136, the same for both unknowns) and the blocks of the
stiffness matrix of the potential; `Fin n` are the functions at the surface, `I` the
others. -/
structure System (n : ℕ) (I : Type) where
  mass : Matrix (Fin n) (Fin n) ℝ
  ss : Matrix (Fin n) (Fin n) ℝ
  sr : Matrix (Fin n) I ℝ
  rs : Matrix I (Fin n) ℝ
  rr : Matrix I I ℝ

/-- The rows of the surface, in increasing order (`getSurfaceIS`, lines 284-303): the
row of a function and an unknown. -/
abbrev Rows (n N : ℕ) := Fin n × Fin 2 ≃ Fin N

/-- Rows of the layout `SEQUENTIAL` if every object has one function: the unknowns of
a function next to each other. -/
def interleaved (n : ℕ) : Rows n (n * 2) := finProdFinEquiv

/-- Rows of the layout `BLOCKED_PROCESSOR`, the default of `GlobalIndexing`
(`GlobalIndexing.h` 123-125) that the program uses (line 354): all functions of the
elevation, then all of the potential (`GlobalIndexing.unknowns_blocked_on_rank`). -/
def blocked (n : ℕ) : Rows n (2 * n) := (Equiv.prodComm (Fin n) (Fin 2)).trans finProdFinEquiv

/-- `surfaceMass`, lines 377-378. -/
def System.surfaceMass (s : System n I) (L : Rows n N) : Matrix (Fin N) (Fin N) ℝ :=
  Matrix.of fun r r' => if (L.symm r).2 = (L.symm r').2 then
    s.mass (L.symm r).1 (L.symm r').1 else 0

/-- `surfaceStifness`, lines 383-384. -/
def System.surfaceStiffness (s : System n I) (L : Rows n N) : Matrix (Fin N) (Fin N) ℝ :=
  Matrix.of fun r r' => if (L.symm r).2 = 1 ∧ (L.symm r').2 = 1 then
    s.ss (L.symm r).1 (L.symm r').1 else 0

/-- `mixStifness`, line 385. -/
def System.mixStiffness (s : System n I) (L : Rows n N) : Matrix I (Fin N) ℝ :=
  Matrix.of fun i r => if (L.symm r).2 = 1 then s.rs i (L.symm r).1 else 0

/-- `backStiffness`, lines 386-387. -/
def System.backStiffness (s : System n I) (L : Rows n N) : Matrix (Fin N) I ℝ :=
  Matrix.of fun r i => if (L.symm r).2 = 1 then s.sr (L.symm r).1 i else 0

/-- `setUpSwap`, lines 335-347: ones at `(i, i + 1)` and `(i + 1, i)` for every even
`i` with `i + 1 < N`. -/
def swap (N : ℕ) : Matrix (Fin N) (Fin N) ℝ :=
  Matrix.of fun r r' => if r.val % 2 = 0 ∧ r'.val = r.val + 1 ∨
    r'.val % 2 = 0 ∧ r.val = r'.val + 1 then 1 else 0

/-- `etaActually`, `phiS` and `phiOther`. -/
structure State (N : ℕ) (I : Type) where
  eta : Fin N → ℝ
  phiS : Fin N → ℝ
  phiOther : I → ℝ

/-- One time step, lines 451-478, with `KSPSolve` as relation. -/
def Step (s : System n I) (L : Rows n N) (g dt : ℝ) (x y : State N I) : Prop :=
  ∃ phiS extra : Fin N → ℝ,
    phiS = x.phiS + (-g * dt / 2) • (swap N).mulVec x.eta ∧
    s.rr.mulVec y.phiOther = (-1 : ℝ) • (s.mixStiffness L).mulVec phiS ∧
    extra = (s.surfaceStiffness L).mulVec phiS + (s.backStiffness L).mulVec y.phiOther ∧
    (s.surfaceMass L).mulVec y.eta =
      (s.surfaceMass L).mulVec x.eta + dt • (swap N).mulVec extra ∧
    y.phiS = phiS + (-g * dt / 2) • (swap N).mulVec y.eta

/-- Any number of time steps. -/
inductive Run (s : System n I) (L : Rows n N) (g dt : ℝ) (x : State N I) : State N I → Prop
  | refl : Run s L g dt x x
  | step {y z : State N I} : Run s L g dt x y → Step s L g dt y z → Run s L g dt x z

/-- `exactSolution`, lines 138-150, elevation. -/
noncomputable def exactEta (t x z : ℝ) : ℝ :=
  let k := 2 * Real.pi
  Real.cosh (k * (z + 1)) * Real.sin (Real.sqrt (k * Real.tanh k) * t - k * x) *
    Real.sqrt (k * Real.tanh k) / Real.cosh k * (1 / 1000)

/-- `exactSolution`, potential. -/
noncomputable def exactPhi (t x z : ℝ) : ℝ :=
  let k := 2 * Real.pi
  Real.cosh (k * (z + 1)) * Real.cos (Real.sqrt (k * Real.tanh k) * t - k * x) / Real.cosh k *
    (1 / 1000)

end Verif.WaterWave
