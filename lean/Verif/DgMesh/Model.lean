import Mathlib.Algebra.BigOperators.Fin
import Mathlib.Algebra.BigOperators.Ring.Finset
import Mathlib.Data.Real.Basic

/-!
# Meshes and stored matrices of linear programs

What `Base::HpgemAPILinear` does with the matrices of elements and faces, for one
unknown per basis function.  The mesh is given by its quadrature points: values and
derivatives of the basis functions of each element on a point of the element, and on
both sides of a point of a face.  `double` is `ℝ`.  The exchange between processes is
not modelled here (see `Parallel`).
-/

namespace Verif.DgMesh

/-- Values and physical gradients of the basis functions of an element at a point. -/
structure Trace (d : ℕ) where
  phi : ℕ → ℝ
  grad : ℕ → Fin d → ℝ

/-- A quadrature point of an element; the weight includes the Jacobian
(`ElementIntegral::integrate`). -/
structure ElemPoint (d : ℕ) extends Trace d where
  weight : ℝ
  position : Fin d → ℝ

/-- A quadrature point of an inner face; the weight includes the surface scale
(`FaceIntegral::integrate`), the unit normal points out of the left element. -/
structure InnerPoint (d : ℕ) where
  weight : ℝ
  normal : Fin d → ℝ
  left : Trace d
  right : Trace d

/-- A quadrature point of a boundary face. -/
structure BoundaryPoint (d : ℕ) extends Trace d where
  weight : ℝ
  normal : Fin d → ℝ
  position : Fin d → ℝ

/-- A mesh with elements `E`, inner faces `F` and boundary faces `G`. -/
structure Mesh (d : ℕ) (E F G : Type) where
  nb : E → ℕ
  elemPoints : E → ℕ
  elem : (e : E) → Fin (elemPoints e) → ElemPoint d
  left : F → E
  right : F → E
  innerPoints : F → ℕ
  inner : (f : F) → Fin (innerPoints f) → InnerPoint d
  inside : G → E
  boundaryPoints : G → ℕ
  boundary : (g : G) → Fin (boundaryPoints g) → BoundaryPoint d

/-- Coefficients: a time integration vector of each element. -/
abbrev Vec (E : Type) := E → ℕ → ℝ

/-- `Base::Side`. -/
inductive Side where
  | left | right
  deriving DecidableEq

variable {d : ℕ} {E F G : Type}

/-- Traces by side, `face.basisFunction(side, i)`. -/
def InnerPoint.trace (p : InnerPoint d) : Side → Trace d
  | .left => p.left
  | .right => p.right

/-- `PhysicalFace::basisFunctionUnitNormal`: the value times the outward unit normal
of the element the function belongs to (see `PhysFace`). -/
def InnerPoint.phiNormal (p : InnerPoint d) (s : Side) (i : ℕ) (k : Fin d) : ℝ :=
  match s with
  | .left => p.left.phi i * p.normal k
  | .right => -(p.right.phi i * p.normal k)

/-- The same on a boundary face, which has only a left side. -/
def BoundaryPoint.phiNormal (p : BoundaryPoint d) (i : ℕ) (k : Fin d) : ℝ := p.phi i * p.normal k

/-- The element on a side of an inner face. -/
def Mesh.side (m : Mesh d E F G) (f : F) : Side → E
  | .left => m.left f
  | .right => m.right f

/-- The integrands of the stiffness matrices (row: test function, column: solution). -/
structure Integrands (d : ℕ) where
  elem : ElemPoint d → ℕ → ℕ → ℝ
  inner : InnerPoint d → Side → Side → ℕ → ℕ → ℝ
  boundary : BoundaryPoint d → ℕ → ℕ → ℝ

/-- `computeStiffnessMatrixAtElement`, `HpgemAPILinear_Impl.h` 158-171. -/
def elementMatrix (m : Mesh d E F G) (K : Integrands d) (e : E) (j i : ℕ) : ℝ :=
  ∑ q, (m.elem e q).weight * K.elem (m.elem e q) j i

/-- `computeStiffnessMatrixAtFace`, lines 173-184, inner face. -/
def innerMatrix (m : Mesh d E F G) (K : Integrands d) (f : F) (s s' : Side) (j i : ℕ) : ℝ :=
  ∑ q, (m.inner f q).weight * K.inner (m.inner f q) s s' j i

/-- The same for a boundary face. -/
def boundaryMatrix (m : Mesh d E F G) (K : Integrands d) (g : G) (j i : ℕ) : ℝ :=
  ∑ q, (m.boundary g q).weight * K.boundary (m.boundary g q) j i

/-- A matrix times a vector. -/
def times (n : ℕ) (a : ℕ → ℕ → ℝ) (u : ℕ → ℝ) (j : ℕ) : ℝ := ∑ i ∈ Finset.range n, a j i * u i

/-- `HpgemAPILinear::multiplyStiffnessMatrices`, lines 290-355: the element matrix
times the vector of the element, then for each face the four blocks. -/
def multiply [Fintype F] [Fintype G] [DecidableEq E] (m : Mesh d E F G) (K : Integrands d)
    (U : Vec E) : Vec E := fun e j =>
  times (m.nb e) (elementMatrix m K e) (U e) j +
  (∑ f, ((if m.left f = e then
      times (m.nb (m.left f)) (innerMatrix m K f .left .left) (U (m.left f)) j +
      times (m.nb (m.right f)) (innerMatrix m K f .left .right) (U (m.right f)) j else 0) +
    if m.right f = e then
      times (m.nb (m.left f)) (innerMatrix m K f .right .left) (U (m.left f)) j +
      times (m.nb (m.right f)) (innerMatrix m K f .right .right) (U (m.right f)) j else 0)) +
  ∑ g, if m.inside g = e then
    times (m.nb (m.inside g)) (boundaryMatrix m K g) (U (m.inside g)) j else 0

/-- The default mass matrix, `HpgemAPISimplified::computeMassMatrixAtElement`:
integrals of products of basis functions. -/
def mass (m : Mesh d E F G) (e : E) (i j : ℕ) : ℝ :=
  ∑ q, (m.elem e q).weight * ((m.elem e q).phi i * (m.elem e q).phi j)

/-- The value of an expansion at a point. -/
def value (n : ℕ) (t : Trace d) (u : ℕ → ℝ) : ℝ := ∑ i ∈ Finset.range n, t.phi i * u i

/-- The derivative of an expansion at a point. -/
def gradient (n : ℕ) (t : Trace d) (u : ℕ → ℝ) (k : Fin d) : ℝ :=
  ∑ i ∈ Finset.range n, t.grad i k * u i

end Verif.DgMesh
