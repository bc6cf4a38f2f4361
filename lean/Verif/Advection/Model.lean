import Verif.DgMesh.Model
import Mathlib.Analysis.SpecialFunctions.Trigonometric.Basic

/-!
# Linear advection

`applications/TutorialAdvection/main.cpp` and `applications/AdvectionTest/main.cpp`
(the same matrices).  `double` is `ℝ`.
-/

namespace Verif.Advection

open DgMesh

variable {d : ℕ}

/-- `a * v`. -/
def dot (a v : Fin d → ℝ) : ℝ := ∑ k, a k * v k

/-- The threshold `1e-12` of the direction of the wind. -/
noncomputable def tolerance : ℝ := 1 / 10 ^ 12

/-- `computeIntegrandStiffnessMatrixAtElement`, `AdvectionTest/main.cpp` 106-121. -/
def elementIntegrand (a : Fin d → ℝ) (p : ElemPoint d) (j i : ℕ) : ℝ := p.phi i * dot a (p.grad j)

/-- `computeIntegrandStiffnessMatrixAtFace`, lines 139-185, inner face.  Entries no
branch sets are zero. -/
noncomputable def innerIntegrand (a : Fin d → ℝ) (p : InnerPoint d) (s s' : Side) (j i : ℕ) : ℝ :=
  open Classical in
  let A := dot a p.normal
  let entry := -dot a (p.phiNormal s j) * (p.trace s').phi i
  if A > tolerance ∧ s' = .left then entry
  else if A < -tolerance ∧ s' = .right then entry
  else if |A| < tolerance then entry / 2
  else 0

/-- The same at a boundary face, where all functions are on the left side. -/
noncomputable def boundaryIntegrand (a : Fin d → ℝ) (p : BoundaryPoint d) (j i : ℕ) : ℝ :=
  open Classical in
  let A := dot a p.normal
  let entry := -dot a (p.phiNormal j) * p.phi i
  if A > tolerance then entry
  else if |A| < tolerance then entry / 2
  else 0

/-- The matrices of the program. -/
noncomputable def integrands (a : Fin d → ℝ) : Integrands d where
  elem := elementIntegrand a
  inner := innerIntegrand a
  boundary := boundaryIntegrand a

/-- `getSolutionAtTimeZero` of `TutorialAdvection`, `main.cpp` 156-158. -/
noncomputable def initial (x : Fin 2 → ℝ) : ℝ :=
  Real.sin (2 * Real.pi * x 0) * Real.sin (2 * Real.pi * x 1)

/-- `getExactSolution` of `TutorialAdvection`, lines 165-174; derivatives in time are
refused. -/
noncomputable def exact (a : Fin 2 → ℝ) (x : Fin 2 → ℝ) (t : ℝ) (order : ℕ) : Option ℝ :=
  if order = 0 then some (initial fun k => x k - a k * t) else none

/-- The direction of `TutorialAdvection`, constructor, lines 63-71. -/
noncomputable def direction (k : Fin 2) : ℝ := 1 / 10 + 1 / 10 * k.val

/-- `SmallVector::operator[]`; `none`: the index is beyond the end. -/
def entry? (x : Fin d → ℝ) (i : ℕ) : Option ℝ := if h : i < d then some (x ⟨i, h⟩) else none

/-- Writing to `SmallVector::operator[]`. -/
def setEntry? (x : Fin d → ℝ) (i : ℕ) (y : ℝ) : Option (Fin d → ℝ) :=
  if h : i < d then some (Function.update x ⟨i, h⟩ y) else none

/-- The constructor of `AdvectionTest`, lines 66-77, for dimension `d` (there 2): the
entries 0 and 2 of the direction are set. -/
noncomputable def testDirection (a : Fin d → ℝ) : Option (Fin d → ℝ) := do
  let a ← setEntry? a 0 (1 / 10)
  setEntry? a 2 (3 / 10)

/-- `getSolutionAtTimeZero` of `AdvectionTest`, lines 188-191. -/
noncomputable def testInitial (x : Fin d → ℝ) : Option ℝ := do
  let x0 ← entry? x 0
  let x1 ← entry? x 1
  let x2 ← entry? x 2
  return Real.sin (2 * Real.pi * x0) * Real.sin (2 * Real.pi * x1) * Real.sin (2 * Real.pi * x2)

end Verif.Advection
