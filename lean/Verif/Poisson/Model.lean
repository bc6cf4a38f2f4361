import Verif.DgMesh.Model
import Mathlib.Analysis.SpecialFunctions.Trigonometric.Basic

/-!
# The Poisson equation

`applications/TutorialPoisson/main.cpp` and `applications/PoissonTest/main.cpp`, with
`HpgemAPILinearSteadyState::solveSteadyStateWithPetsc`.  `double` is `ℝ`.  The solver
of PETSc is not modelled: its result is any vector that solves the system.
`PoissonTest` uses conforming functions, for which rows of several elements are
added; here each element has its own functions, as in the tutorial.
-/

namespace Verif.Poisson

open DgMesh

variable {d : ℕ} {E F G : Type}

/-- `v * w` of `SmallVector`. -/
def dot (v w : Fin d → ℝ) : ℝ := ∑ k, v k * w k

/-- The penalty of the constructor, `TutorialPoisson/main.cpp` 83, from the arguments
of the command line: elements per direction `n` and order `p`. -/
def penalty (dim n p : ℕ) : ℕ := 3 * n * p * (p + dim - 1) + 1

/-- `computeIntegrandStiffnessMatrixAtElement`, `TutorialPoisson/main.cpp` 97-119. -/
def elementIntegrand (p : ElemPoint d) (j i : ℕ) : ℝ := dot (p.grad i) (p.grad j)

/-- `computeIntegrandStiffnessMatrixAtFace`, lines 136-196, inner face. -/
noncomputable def innerIntegrand (penalty : ℝ) (p : InnerPoint d) (s s' : Side) (j i : ℕ) : ℝ :=
  let phiNormalI := p.phiNormal s' i
  let phiNormalJ := p.phiNormal s j
  let phiDerivI := (p.trace s').grad i
  let phiDerivJ := (p.trace s).grad j;
  -(dot phiNormalI phiDerivJ + dot phiNormalJ phiDerivI) / 2 +
    penalty * dot phiNormalI phiNormalJ

/-- The test for the boundary with given values. -/
def isDirichlet (x : Fin (d + 1) → ℝ) : Prop := |x 0| < 1 / 10 ^ 9 ∨ |x 0 - 1| < 1 / 10 ^ 9

/-- The same at a boundary face.  `factor` is 1 in the tutorial (line 186) and 2 in
`PoissonTest/main.cpp` (line 212). -/
noncomputable def boundaryIntegrand (penalty factor : ℝ) (p : BoundaryPoint (d + 1))
    (j i : ℕ) : ℝ :=
  open Classical in
  if isDirichlet p.position then
    -(dot (p.phiNormal i) (p.grad j) + dot (p.phiNormal j) (p.grad i)) +
      penalty * dot (p.phiNormal i) (p.phiNormal j) * factor
  else 0

/-- The matrices of the programs. -/
noncomputable def integrands (penalty factor : ℝ) : Integrands (d + 1) where
  elem := elementIntegrand
  inner := innerIntegrand penalty
  boundary := boundaryIntegrand penalty factor

/-- `integrateSourceTermAtElement`, `HpgemAPILinear_Impl.h` 201-248. -/
noncomputable def source (m : Mesh d E F G) (f : (Fin d → ℝ) → ℝ) : Vec E := fun e i =>
  ∑ q, (m.elem e q).weight * ((m.elem e q).phi i * f (m.elem e q).position)

/-- `solveSteadyStateWithPetsc`, `HpgemAPILinearSteadyState_Impl.h` 141-175: `A x = b`
with `A = -S`; the source terms of the faces are zero (`computeIntegrandSourceTermAtFace`,
see `faceSource`). -/
def Solves [Fintype F] [Fintype G] [DecidableEq E] (m : Mesh (d + 1) E F G)
    (penalty factor : ℝ) (f : (Fin (d + 1) → ℝ) → ℝ) (U : Vec E) : Prop :=
  ∀ e j, j < m.nb e → -1 * multiply m (integrands penalty factor) U e j = source m f e j

/-- `computeIntegrandSourceTermAtFace` of `PoissonTest`, lines 262-285, every entry. -/
noncomputable def faceSource (x : Fin (d + 1) → ℝ) : ℝ :=
  open Classical in
  if |x 0 + 1000| < 1 / 10 ^ 9 then -1 else if |x 0 - 1000| < 1 / 10 ^ 9 then 1 else 0

/-- `getExactSolution` of the tutorial, lines 201-207. -/
noncomputable def exact2 (x : Fin 2 → ℝ) : ℝ :=
  Real.sin (2 * Real.pi * x 0) * Real.cos (2 * Real.pi * x 1)

/-- `getSourceTerm` of the tutorial, lines 213-219. -/
noncomputable def source2 (x : Fin 2 → ℝ) : ℝ :=
  -8 * Real.pi * Real.pi * Real.sin (2 * Real.pi * x 0) * Real.cos (2 * Real.pi * x 1)

/-- `getExactSolution` of `PoissonTest`, lines 227-234. -/
noncomputable def exact3 (x : Fin 3 → ℝ) : ℝ :=
  Real.sin (2 * Real.pi * x 0) * Real.cos (2 * Real.pi * x 1) * Real.cos (2 * Real.pi * x 2)

/-- `getSourceTerm` of `PoissonTest`, lines 240-248. -/
noncomputable def source3 (x : Fin 3 → ℝ) : ℝ :=
  -12 * Real.pi * Real.pi * Real.sin (2 * Real.pi * x 0) * Real.cos (2 * Real.pi * x 1) *
    Real.cos (2 * Real.pi * x 2)

end Verif.Poisson
