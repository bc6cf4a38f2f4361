import Mathlib.Algebra.BigOperators.Fin
import Mathlib.Algebra.BigOperators.Ring.Finset
import Mathlib.Data.Fintype.Option
import Mathlib.Analysis.SpecialFunctions.Trigonometric.Basic
import Mathlib.Analysis.Real.Sqrt

/-!
# Acoustic waves

`applications/ExampleMultipleVariableProblem/AcousticWave_Impl.h` (right-hand side as
a vector) and `AcousticWaveLinear_Impl.h` (stored matrices).  The unknowns are a
scalar `u` and a vector `s`; `convertToSingleIndex(iB, iV)` is the pair of the
indices (see `LocalIndexing`).  `double` is `ℝ`, and integrals are sums over the
points of any quadrature rule.  Loops over elements and faces that only add are
sums.  The synchronisation between processes is not modelled here (see `Parallel`).
-/

namespace Verif.Acoustic

/-- The variables: `none` is the scalar (0), `some k` the component `k` of the vector
(`k + 1`). -/
abbrev Var (d : ℕ) := Option (Fin d)

/-- A quadrature point of an element: weight, `getJacobianAbsDet`, values and
gradients of the basis functions. -/
structure ElemPoint (d : ℕ) where
  weight : ℝ
  jac : ℝ
  phi : ℕ → ℝ
  grad : ℕ → Fin d → ℝ

/-- A quadrature point of an inner face: the normal is outward for the left element
and has the length of the face scale. -/
structure InnerPoint (d : ℕ) where
  weight : ℝ
  normal : Fin d → ℝ
  phiLeft : ℕ → ℝ
  phiRight : ℕ → ℝ

/-- A quadrature point of a boundary face. -/
structure BoundaryPoint (d : ℕ) where
  weight : ℝ
  normal : Fin d → ℝ
  phi : ℕ → ℝ

/-- A mesh with elements `E`, inner faces `F` and boundary faces `G`.  `nb` is
`getNumberOfBasisFunctions` of the element. -/
structure Mesh (d : ℕ) (E F G : Type) where
  nb : E → ℕ
  elemPoints : E → ℕ
  elem : (e : E) → Fin (elemPoints e) → ElemPoint d
  left : F → E
  right : F → E
  innerPoints : F → ℕ
  inner : (f : F) → Fin (innerPoints f) → InnerPoint d
  inside : G → E
  boundaryPoints : G → ℕ
  boundary : (g : G) → Fin (boundaryPoints g) → BoundaryPoint d

/-- Coefficients of the solution (a time integration vector) by element, variable and
basis function. -/
abbrev Vec (d : ℕ) (E : Type) := E → Var d → ℕ → ℝ

/-- The value of an expansion: the loops over `jB`, `AcousticWave_Impl.h` 257-264 and
315-331. -/
def value (nb : ℕ) (phi c : ℕ → ℝ) : ℝ := ∑ b ∈ Finset.range nb, phi b * c b

variable {d : ℕ} {E F G : Type}

/-- `gradientScalarFunction`, lines 183-201. -/
def gradient (nb : ℕ) (grad : ℕ → Fin d → ℝ) (c : ℕ → ℝ) (k : Fin d) : ℝ :=
  ∑ b ∈ Finset.range nb, grad b k * c b

/-- `divergenceVectorFunction`, lines 178 and 203-206. -/
def divergence (nb : ℕ) (grad : ℕ → Fin d → ℝ) (c : Var d → ℕ → ℝ) : ℝ :=
  ∑ b ∈ Finset.range nb, ∑ k, grad b k * c (some k) b

/-- `integrandRightHandSideOnRefElement`, lines 165-229, integrated over the
element. -/
def elementRhs (m : Mesh d E F G) (U : Vec d E) (e : E) (v : Var d) (i : ℕ) : ℝ :=
  ∑ q, let p := m.elem e q
    p.weight * (p.phi i * (match v with
      | none => divergence (m.nb e) p.grad (U e)
      | some k => gradient (m.nb e) p.grad (U e none) k) * p.jac)

/-- `Base::Side`. -/
inductive Side where
  | left | right
  deriving DecidableEq

/-- The basis functions of one side, `face.basisFunction(side, i)`. -/
def InnerPoint.phi (p : InnerPoint d) : Side → ℕ → ℝ
  | .left => p.phiLeft
  | .right => p.phiRight

/-- The second `integrandRightHandSideOnRefFace`, lines 290-361, integrated over the
face. -/
noncomputable def innerRhs (m : Mesh d E F G) (U : Vec d E) (f : F) (side : Side) (v : Var d)
    (i : ℕ) : ℝ :=
  ∑ q, let p := m.inner f q
    let solLeft := fun w => value (m.nb (m.left f)) p.phiLeft (U (m.left f) w)
    let solRight := fun w => value (m.nb (m.right f)) p.phiRight (U (m.right f) w)
    p.weight * (match v with
      | none => -(1 / 2) * p.phi side i *
          ∑ k, p.normal k * (solLeft (some k) - solRight (some k))
      | some k => -(1 / 2) * p.phi side i * (p.normal k * (solLeft none - solRight none)))

/-- The first `integrandRightHandSideOnRefFace`, lines 237-288, integrated over a
boundary face. -/
def boundaryRhs (m : Mesh d E F G) (U : Vec d E) (g : G) (v : Var d) (i : ℕ) : ℝ :=
  ∑ q, let p := m.boundary g q
    let sol := fun w => value (m.nb (m.inside g)) p.phi (U (m.inside g) w)
    p.weight * (match v with
      | none => -p.phi i * ∑ k, p.normal k * sol (some k)
      | some _ => 0)

variable [Fintype F] [Fintype G] [DecidableEq E]

/-- `HpgemAPISimplified::computeRightHandSide`, `HpgemAPISimplified_Impl.h` 533-597:
the vector of element `e` gets its own term and those of all faces of which it is the
left or the right element. -/
noncomputable def rhs (m : Mesh d E F G) (U : Vec d E) : Vec d E := fun e v i =>
  elementRhs m U e v i +
  (∑ f, ((if m.left f = e then innerRhs m U f .left v i else 0) +
    if m.right f = e then innerRhs m U f .right v i else 0)) +
  ∑ g, if m.inside g = e then boundaryRhs m U g v i else 0

/-- `integrandMassMatrixOnRefElement`, lines 98-127, integrated over the element.
Entries between different variables are zero. -/
noncomputable def mass (cInv : ℝ) (m : Mesh d E F G) (e : E) (v : Var d) (i j : ℕ) : ℝ :=
  ∑ q, let p := m.elem e q
    p.weight * (p.phi i * p.phi j * (if v ≠ none then cInv else 1) * p.jac)

/-! ### The version with matrices -/

/-- `integrandStiffnessMatrixOnRefElement`, `AcousticWaveLinear_Impl.h` 167-207,
integrated over the element. -/
def elementMatrix (m : Mesh d E F G) (e : E) (v w : Var d) (i j : ℕ) : ℝ :=
  ∑ q, let p := m.elem e q
    p.weight * ((match v, w with
      | none, some k => p.grad j k * p.phi i
      | some k, none => p.grad j k * p.phi i
      | _, _ => 0) * p.jac)

/-- `integrandStiffnessMatrixOnRefFace` for an inner face, lines 215-285. -/
noncomputable def innerMatrix (m : Mesh d E F G) (f : F) (iSide jSide : Side) (v w : Var d)
    (i j : ℕ) : ℝ :=
  ∑ q, let p := m.inner f q
    let normal := fun k => if jSide = .right then -p.normal k else p.normal k
    p.weight * (match v, w with
      | none, some k => -(1 / 2) * normal k * p.phi jSide j * p.phi iSide i
      | some k, none => -(1 / 2) * normal k * p.phi jSide j * p.phi iSide i
      | _, _ => 0)

/-- The same for a boundary face. -/
def boundaryMatrix (m : Mesh d E F G) (g : G) (v w : Var d) (i j : ℕ) : ℝ :=
  ∑ q, let p := m.boundary g q
    p.weight * (match v, w with
      | none, some k => -p.normal k * p.phi j * p.phi i
      | _, _ => 0)

/-- One block of a matrix times the coefficients of an element. -/
def apply (nb : ℕ) (a : Var d → Var d → ℕ → ℕ → ℝ) (c : Var d → ℕ → ℝ) (v : Var d) (i : ℕ) : ℝ :=
  ∑ w, ∑ j ∈ Finset.range nb, a v w i j * c w j

/-- `HpgemAPILinear::computeRightHandSide`, `HpgemAPILinear_Impl.h` 472-484: the
stored matrices (`computeStiffnessMatrixAtElement`, `computeStiffnessMatrixAtFace`)
times the coefficients. -/
noncomputable def rhsLinear (m : Mesh d E F G) (U : Vec d E) : Vec d E := fun e v i =>
  apply (m.nb e) (elementMatrix m e) (U e) v i +
  (∑ f, ((if m.left f = e then
      apply (m.nb (m.left f)) (innerMatrix m f .left .left) (U (m.left f)) v i +
      apply (m.nb (m.right f)) (innerMatrix m f .left .right) (U (m.right f)) v i else 0) +
    if m.right f = e then
      apply (m.nb (m.left f)) (innerMatrix m f .right .left) (U (m.left f)) v i +
      apply (m.nb (m.right f)) (innerMatrix m f .right .right) (U (m.right f)) v i else 0)) +
  ∑ g, if m.inside g = e then
    apply (m.nb (m.inside g)) (boundaryMatrix m g) (U (m.inside g)) v i else 0

/-! ### Exact solution and error -/

/-- `getExactSolution`, `AcousticWave_Impl.h` 59-89, for dimension `n + 1`. -/
noncomputable def exactSolution {n : ℕ} (cInv : ℝ) (x : Fin (n + 1) → ℝ) (t : ℝ) :
    Var (n + 1) → ℝ :=
  let c := Real.sqrt (1 / cInv)
  let dim : ℝ := (n : ℝ) + 1
  let x0 := x 0
  let x1 := ∑ i : Fin n, x i.succ
  let phase := 2 * Real.pi * (x1 - Real.sqrt dim * c * t)
  fun v => match v with
    | none => -Real.sqrt dim * c * (2 * Real.pi) * Real.cos (2 * Real.pi * x0) * Real.cos phase
    | some k => if k = 0 then
        -(2 * Real.pi) * Real.sin (2 * Real.pi * x0) * Real.sin phase / cInv
      else 2 * Real.pi * Real.cos (2 * Real.pi * x0) * Real.cos phase / cInv

/-- `setMaterialParameter`, `AcousticWave.h` 124; `none`: division by zero. -/
noncomputable def materialParameter (c : ℝ) : Option ℝ :=
  open Classical in if c = 0 then none else some (1 / c)

/-- `integrandErrorOnRefElement`, `AcousticWave_Impl.h` 368-394, for the difference
`w` of the solutions and without the scaling. -/
def errorIntegrand (cInv : ℝ) (w : Var d → ℝ) : ℝ :=
  ∑ v, if v ≠ none then w v ^ 2 else cInv * w v ^ 2

end Verif.Acoustic
