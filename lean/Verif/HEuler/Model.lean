import Mathlib.Data.Real.Basic
import Mathlib.Data.Matrix.Mul
import Mathlib.Data.Matrix.Block
import Mathlib.Data.Matrix.ColumnRowPartitioned
import Mathlib.Data.Matrix.Basis
import Mathlib.LinearAlgebra.Matrix.Notation
import Mathlib.Algebra.BigOperators.Fin

/-!
# The Hamiltonian discretisation of the linear Euler equations (`applications/HamiltonianEuler`)

`HEuler.cpp` assembles a discrete gradient and a discrete divergence and advances the fields with the
implicit midpoint rule. Rows and columns are addressed here by (component, element, basis function);
`numbering` is the number that the code uses instead. `MatSetValue(…, ADD_VALUES)` is the addition of a
matrix with one entry. `double` is `ℝ`, `KSPSolve` is an exact solution of the system.
-/

namespace Verif.HEuler

open Finset Matrix

set_option linter.all false

/-- A quadrature point of an element: weight (times Jacobian), values and gradients of the basis
functions. -/
structure EPoint (nb : Nat) where
  w : ℝ
  phi : Fin nb → ℝ
  grad : Fin nb → Fin 3 → ℝ

/-- A quadrature point of an internal face: weight, unit normal `normal / magn`, and the values of the
basis functions of both elements. -/
structure FPoint (nb : Nat) where
  w : ℝ
  n : Fin 3 → ℝ
  phiL : Fin nb → ℝ
  phiR : Fin nb → ℝ

/-- A face with two elements. Boundary faces contribute nothing (HEuler.cpp:811-813, 1339-1341). -/
structure Face (E nb : Nat) where
  left : Fin E
  right : Fin E
  pts : List (FPoint nb)

/-- Elements and internal faces, with their quadrature points. -/
structure Mesh (E nb : Nat) where
  elem : Fin E → List (EPoint nb)
  faces : List (Face E nb)

variable {E nb : Nat}

/-- The index of a pressure or density coefficient: `pos + i` with `pos = getID() * nb`. -/
abbrev PIdx (E nb : Nat) := Fin E × Fin nb

/-- The index of a velocity coefficient: `pos + i`, `Nu + pos + i`, `Nu + Nv + pos + i`. -/
abbrev VIdx (E nb : Nat) := Fin 3 × Fin E × Fin nb

/-- HEuler.cpp:645, 664-672: the row number of a velocity coefficient. -/
def numbering (x : VIdx E nb) : Nat := x.1.val * (E * nb) + (x.2.1.val * nb + x.2.2.val)

/-- HEuler.cpp:156-177 `elementIntegrand`, mass matrix, integrated over the element. -/
def mass (m : Mesh E nb) (e : Fin E) (i j : Fin nb) : ℝ :=
  ((m.elem e).map fun q => q.w * (q.phi j * q.phi i)).sum

/-- HEuler.cpp:198-228 `elementIntegrand`: `xGrad_`, `yGrad_`, `zGrad_` (component `k`), integrated. -/
def gradMass (m : Mesh E nb) (e : Fin E) (k : Fin 3) (i j : Fin nb) : ℝ :=
  ((m.elem e).map fun q => q.w * (q.phi j * q.grad i k)).sum

/-- HEuler.cpp:242: the constant. -/
noncomputable def theta : ℝ := 0.5

/-- HEuler.cpp:269-285 `left_[j](row, i)`: rows `k`, `3 + k`, `6 + k`, `9 + k` for component `k`, given
as block `b` of the row number `3 b + k`. -/
noncomputable def leftData (q : FPoint nb) (b : Fin 4) (k : Fin 3) (j i : Fin nb) : ℝ :=
  match b with
  | 0 => q.phiL i * q.n k * (1 - theta) * q.phiL j
  | 1 => q.phiR i * q.n k * theta * q.phiL j
  | 2 => q.phiL j * q.n k * (1 - theta) * q.phiL i
  | 3 => q.phiL j * q.n k * theta * q.phiR i

/-- HEuler.cpp:287-300 `right_[j](row, i)`. -/
noncomputable def rightData (q : FPoint nb) (b : Fin 4) (k : Fin 3) (j i : Fin nb) : ℝ :=
  match b with
  | 0 => q.phiL i * q.n k * (1 - theta) * q.phiR j
  | 1 => q.phiR i * q.n k * theta * q.phiR j
  | 2 => q.phiR j * q.n k * (1 - theta) * q.phiL i
  | 3 => q.phiR j * q.n k * theta * q.phiR i

/-- The integral of the data over the face. -/
noncomputable def fInt (f : Face E nb) (g : FPoint nb → ℝ) : ℝ := (f.pts.map fun q => q.w * g q).sum

/-- HEuler.cpp:733-738, 1290-1296: what an element adds to `BF`. -/
noncomputable def elemBF (m : Mesh E nb) (e : Fin E) : Matrix (VIdx E nb) (PIdx E nb) ℝ :=
  ∑ j, ∑ i, ∑ k, single (k, e, j) (e, i) (-gradMass m e k i j)

/-- HEuler.cpp:740-747, 1298-1306: what an element adds to `globalDIV`. -/
noncomputable def elemDIV (m : Mesh E nb) (e : Fin E) : Matrix (PIdx E nb) (VIdx E nb) ℝ :=
  ∑ j, ∑ i, ∑ k, single (e, j) (k, e, i) (gradMass m e k j i)

/-- HEuler.cpp:826-857, 1353-1385: what a face adds to `BF`. -/
noncomputable def faceBF (f : Face E nb) : Matrix (VIdx E nb) (PIdx E nb) ℝ :=
  ∑ j, ∑ i, ∑ k,
    (single (k, f.right, j) (f.left, i) (fInt f fun q => rightData q 0 k j i) +
     single (k, f.right, j) (f.right, i) (-fInt f fun q => rightData q 1 k j i) +
     single (k, f.left, j) (f.left, i) (fInt f fun q => leftData q 0 k j i) +
     single (k, f.left, j) (f.right, i) (-fInt f fun q => leftData q 1 k j i))

/-- HEuler.cpp:859-894, 1387-1422: what a face adds to `globalDIV`. -/
noncomputable def faceDIV (f : Face E nb) : Matrix (PIdx E nb) (VIdx E nb) ℝ :=
  ∑ j, ∑ i, ∑ k,
    (single (f.right, j) (k, f.left, i) (fInt f fun q => rightData q 2 k j i) +
     single (f.left, j) (k, f.left, i) (-fInt f fun q => leftData q 2 k j i) +
     single (f.right, j) (k, f.right, i) (fInt f fun q => rightData q 3 k j i) +
     single (f.left, j) (k, f.right, i) (-fInt f fun q => leftData q 3 k j i))

/-- HEuler.cpp:686-896, 1266-1424: the discrete gradient `BF`. -/
noncomputable def BF (m : Mesh E nb) : Matrix (VIdx E nb) (PIdx E nb) ℝ :=
  ∑ e, elemBF m e + (m.faces.map faceBF).sum

/-- HEuler.cpp:686-896, 1266-1424: the discrete divergence `globalDIV`. -/
noncomputable def DIV (m : Mesh E nb) : Matrix (PIdx E nb) (VIdx E nb) ℝ :=
  ∑ e, elemDIV m e + (m.faces.map faceDIV).sum

/-- HEuler.cpp:723-728, 1281-1286: the inverse mass matrices of the elements on the diagonal, once for each
velocity component. `inv e` is `massMatrix.inverse()` of element `e` (HEuler.cpp:1593). -/
noncomputable def MInv (inv : Fin E → Matrix (Fin nb) (Fin nb) ℝ) : Matrix (VIdx E nb) (VIdx E nb) ℝ :=
  ∑ e, ∑ j, ∑ i, ∑ k, single (k, e, j) (k, e, i) (inv e j i)

/-- HEuler.cpp:730-731, 1288-1289: `MInvSm`, for the density. -/
noncomputable def MInvSm (inv : Fin E → Matrix (Fin nb) (Fin nb) ℝ) :
    Matrix (PIdx E nb) (PIdx E nb) ℝ :=
  ∑ e, ∑ j, ∑ i, single (e, j) (e, i) (inv e j i)

/-- HEuler.cpp:705-719: the rotation matrix `C`, with `omega1 = omega2 = 0` and `omega3 = 1`. -/
noncomputable def C (m : Mesh E nb) : Matrix (VIdx E nb) (VIdx E nb) ℝ :=
  ∑ e, ∑ j, ∑ i, (single (0, e, j) (1, e, i) (mass m e j i * 1) +
    single (1, e, j) (0, e, i) (mass m e j i * (-1)))

/-! ### Compressible flow -/

/-- HEuler.cpp:1456-1545: `P_` of the compressible system. -/
noncomputable def cP (m : Mesh E nb) (inv : Fin E → Matrix (Fin nb) (Fin nb) ℝ) (dt : ℝ) :
    Matrix (VIdx E nb ⊕ PIdx E nb) (VIdx E nb ⊕ PIdx E nb) ℝ :=
  fromBlocks 1 ((-0.5 * dt) • (MInv inv * BF m)) ((-0.5 * dt) • (MInvSm inv * DIV m)) 1

/-- HEuler.cpp:1456-1545: `Q_` of the compressible system. -/
noncomputable def cQ (m : Mesh E nb) (inv : Fin E → Matrix (Fin nb) (Fin nb) ℝ) (dt : ℝ) :
    Matrix (VIdx E nb ⊕ PIdx E nb) (VIdx E nb ⊕ PIdx E nb) ℝ :=
  fromBlocks 1 ((0.5 * dt) • (MInv inv * BF m)) ((0.5 * dt) • (MInvSm inv * DIV m)) 1

/-- HEuler.cpp:1744-1833: one time step of `solve` for compressible flow, from `x` to `y`. -/
def CStep (m : Mesh E nb) (inv : Fin E → Matrix (Fin nb) (Fin nb) ℝ) (dt : ℝ)
    (x y : VIdx E nb ⊕ PIdx E nb → ℝ) : Prop :=
  cP m inv dt *ᵥ y = cQ m inv dt *ᵥ x

/-! ### Incompressible flow -/

/-- HEuler.cpp:1116-1176: `P_` of the incompressible system. -/
noncomputable def iP (m : Mesh E nb) (inv : Fin E → Matrix (Fin nb) (Fin nb) ℝ) (dt : ℝ) :
    Matrix (VIdx E nb ⊕ PIdx E nb) (VIdx E nb ⊕ PIdx E nb) ℝ :=
  fromBlocks (1 + (-0.5 * dt) • (MInv inv * C m)) ((-dt) • (MInv inv * BF m))
    ((0.5 : ℝ) • (DIV m * (MInv inv * C m))) (DIV m * (MInv inv * BF m))

/-- HEuler.cpp:1116-1176: `Q_` of the incompressible system; it has no columns for the pressure. -/
noncomputable def iQ (m : Mesh E nb) (inv : Fin E → Matrix (Fin nb) (Fin nb) ℝ) (dt : ℝ) :
    Matrix (VIdx E nb ⊕ PIdx E nb) (VIdx E nb) ℝ :=
  fromRows (1 + (0.5 * dt) • (MInv inv * C m)) ((-0.5 : ℝ) • (DIV m * (MInv inv * C m)))

/-- HEuler.cpp:1744-1833: one time step of `solve` for incompressible flow, from `u` to `v` with the
pressure `l`. -/
def IStep (m : Mesh E nb) (inv : Fin E → Matrix (Fin nb) (Fin nb) ℝ) (dt : ℝ)
    (u : VIdx E nb → ℝ) (v : VIdx E nb → ℝ) (l : PIdx E nb → ℝ) : Prop :=
  iP m inv dt *ᵥ Sum.elim v l = iQ m inv dt *ᵥ u

open Classical in
/-- HEuler.cpp:305-437 `correctInitialProjectionOfVelocity`: `VecMax` is the largest entry, so the test is
whether some entry of `-DIV u` exceeds the tolerance. `solve b` is the result of `KSPLSQR`. -/
noncomputable def correct (m : Mesh E nb) (solve : (PIdx E nb → ℝ) → VIdx E nb → ℝ)
    (u : VIdx E nb → ℝ) : VIdx E nb → ℝ :=
  let rhs := -(DIV m *ᵥ u)
  if ∃ r, rhs r > 1e-13 then solve rhs + u else u

/-! ### The time loop -/

/-- HEuler.cpp:1742-1842: the loop `while (currTime <= endTime)`; the plots are left out. The result is the
state and the time. -/
def timeLoop {α : Type} (step : α → α) (dt endTime : ℚ) (t : ℚ) (x : α) : Option (α × ℚ) :=
  if t ≤ endTime then timeLoop step dt endTime (t + dt) (step x) else some (x, t)
partial_fixpoint

/-- HEuler.cpp:151, 1657: the time step and the end time from the configuration. -/
def timeStep (onePeriod : ℚ) (numOfTimeStepInOnePeriod : Nat) : ℚ := onePeriod / numOfTimeStepInOnePeriod
def endTime (onePeriod : ℚ) (numOfPeriods : Nat) : ℚ := numOfPeriods * onePeriod

end Verif.HEuler
