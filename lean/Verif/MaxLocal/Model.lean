import Mathlib.Analysis.Complex.Basic
import Mathlib.LinearAlgebra.Matrix.ConjTranspose
import Mathlib.LinearAlgebra.Matrix.NonsingularInverse
import Mathlib.Analysis.Real.Sqrt
import Mathlib.Algebra.BigOperators.Fin

/-!
# Model of the local integrals of DG-Max

applications/DG-Max/Algorithms/DGMaxDiscretization.cpp with MaterialTensor.h, Material.h, ElementInfos.h and the boundary values of ProblemTypes/HarmonicProblem.h. An integral is the
sum over the points of a quadrature rule; a point has the weight of the rule times the factor of the transformation, and the values of the basis functions after the
transformation for curl-conforming functions. Arithmetic is exact.
-/
namespace Verif.MaxLocal

open scoped ComplexConjugate

/-- Vectors with real entries as complex vectors (the converting constructor of SmallVector.h). -/
def cast {d : Nat} (v : Fin d → ℝ) : Fin d → ℂ := fun i => (v i : ℂ)

/-- SmallVector.h:237-243: the product of two vectors, the second is conjugated. -/
def dot {d : Nat} (a b : Fin d → ℂ) : ℂ := ∑ i, a i * conj (b i)

/-- SmallVector.h:494-514 `computeCrossProduct` for two and three dimensions, and the same from SmallMatrix_impl.h:196-219 `computeWedgeStuffVector` as it is used in
PhysicalFace_Impl.h:466-482. -/
def cross {R : Type} [CommRing R] : {d : Nat} → (Fin d → R) → (Fin d → R) → Fin d → R
  | 2, a, b => ![a 0 * b 1 - a 1 * b 0, 0]
  | 3, a, b => ![a 1 * b 2 - a 2 * b 1, a 2 * b 0 - a 0 * b 2, a 0 * b 1 - a 1 * b 0]
  | _, _, _ => fun _ => 0

/-- MaterialTensor.h:48-96: a scalar or a diagonal tensor. The default constructor, which leaves the type undefined, is not modelled. -/
inductive Tensor
  | scalar (z : ℂ)
  | diag (z : Fin 3 → ℂ)

/-- MaterialTensor.h:98-107 `adjoint`. -/
def Tensor.adjoint : Tensor → Tensor
  | .scalar z => .scalar (conj z)
  | .diag z => .diag fun i => conj (z i)

/-- MaterialTensor.h:114-138 `applyDiv`. -/
def Tensor.applyDiv : Tensor → {d : Nat} → (Fin d → ℂ) → Fin d → ℂ
  | .scalar z, _, v => fun i => v i * z
  | .diag z, _, v => fun i => v i * z (Fin.ofNat 3 i)

/-- MaterialTensor.h:149-177 `applyCurl`: for two dimensions only the first component counts, and it is divided by the third entry of the tensor. -/
noncomputable def Tensor.applyCurl : Tensor → {d : Nat} → (Fin d → ℂ) → Fin d → ℂ
  | .scalar z, 2, v => ![v 0 / z, v 1]
  | .diag z, 2, v => ![v 0 / z 2, v 1]
  | .scalar z, 3, v => fun i => v i / z
  | .diag z, 3, v => fun i => v i / z i
  | _, _, v => v

/-- A quadrature point of an element with `n` basis functions: the values and curls of the functions and the two tensors of the material there
(`getMaterialConstantDiv`, `getMaterialConstantCurl`). -/
structure ElementPoint (d n : Nat) where
  weight : ℝ
  value : Fin n → Fin d → ℝ
  curl : Fin n → Fin d → ℝ
  div : Tensor
  mu : Tensor

/-- DGMaxDiscretization.cpp:199-219: the mass matrix. -/
noncomputable def massMatrix {d n : Nat} (points : List (ElementPoint d n)) : Matrix (Fin n) (Fin n) ℂ :=
  Matrix.of fun j i => (points.map fun q => (q.weight : ℂ) * dot (q.div.applyDiv (cast (q.value i))) (cast (q.value j))).sum

/-- DGMaxDiscretization.cpp:221-244: the stiffness matrix. -/
noncomputable def stiffnessMatrix {d n : Nat} (points : List (ElementPoint d n)) : Matrix (Fin n) (Fin n) ℂ :=
  Matrix.of fun j i => (points.map fun q => (q.weight : ℂ) * dot (q.mu.applyCurl (cast (q.curl i))) (cast (q.curl j))).sum

/-- DGMaxDiscretization.cpp:327-341 `elementInnerProduct`, integrated, for a function given by its values at the points. -/
noncomputable def elementVector {d n : Nat} (points : List (ElementPoint d n × (Fin d → ℂ))) : Fin n → ℂ :=
  fun i => (points.map fun q => (q.1.weight : ℂ) * dot q.2 (cast (q.1.value i))).sum

/-- BoundaryConditionType.h. -/
inductive BC
  | dirichlet
  | neumann
  | silverMuller
  | internal
  deriving DecidableEq

/-- BoundaryConditionType.h:82-96 `isNaturalBoundary`. The type `internal` is an error there; no face on the boundary has it. -/
def BC.natural : BC → Bool
  | .neumann | .silverMuller => true
  | _ => false

/-- A quadrature point of a face. The normal is the unit normal out of the left element. A boundary face has `nR = 0`. -/
structure FacePoint (d nL nR : Nat) where
  weight : ℝ
  normal : Fin d → ℝ
  value : Fin nL ⊕ Fin nR → Fin d → ℝ
  curl : Fin nL ⊕ Fin nR → Fin d → ℝ
  muL : Tensor
  muR : Tensor

/-- PhysicalFace_Impl.h:484-548 `basisFunctionUnitNormalCross`: with the normal out of the element of the function. -/
def FacePoint.normalCross {d nL nR : Nat} (q : FacePoint d nL nR) : Fin nL ⊕ Fin nR → Fin d → ℝ
  | .inl i => cross q.normal (q.value (.inl i))
  | .inr i => fun k => -cross q.normal (q.value (.inr i)) k

/-- DGMaxDiscretization.cpp:388-399: the tensor on the side of a function. -/
def FacePoint.mu {d nL nR : Nat} (q : FacePoint d nL nR) : Fin nL ⊕ Fin nR → Tensor
  | .inl _ => q.muL
  | .inr _ => q.muR

/-- DGMaxDiscretization.cpp:355-404: one entry of the integrand, in row `j` and column `i`. -/
noncomputable def FacePoint.entry {d nL nR : Nat} (q : FacePoint d nL nR) (internal : Bool) (localStab : ℝ) (j i : Fin nL ⊕ Fin nR) : ℂ :=
  let factor : ℂ := -(if internal then 1 / 2 else 1)
  let phiCi := (q.mu i).applyCurl (cast (q.curl i))
  let phiNi := cast (q.normalCross i)
  let phiCj := (q.mu j).adjoint.applyCurl (cast (q.curl j))
  let phiNj := cast (q.normalCross j)
  factor * (dot phiCi phiNj + dot phiNi phiCj) + (localStab : ℂ) * dot phiNi phiNj

/-- DGMaxDiscretization.cpp:343-410: the matrix of a face for the stiffness. The type of an internal face is `INTERNAL`. -/
noncomputable def faceMatrix {d nL nR : Nat} (internal : Bool) (bc : BC) (stab diameter : ℝ) (points : List (FacePoint d nL nR)) :
    Matrix (Fin nL ⊕ Fin nR) (Fin nL ⊕ Fin nR) ℂ :=
  let bct := if internal then BC.internal else bc
  if !internal && bct.natural then 0
  else if bct = .internal ∨ bct = .dirichlet then
    Matrix.of fun j i => (points.map fun q => (q.weight : ℂ) * q.entry internal (stab / diameter) j i).sum
  else 0

/-- DGMaxDiscretization.cpp:411-436: the matrix of a face for the impedance, `z` is the impedance of the material on the left. -/
noncomputable def impedanceMatrix {d nL nR : Nat} (internal : Bool) (bc : BC) (z : ℝ) (points : List (FacePoint d nL nR)) :
    Matrix (Fin nL ⊕ Fin nR) (Fin nL ⊕ Fin nR) ℂ :=
  let bct := if internal then BC.internal else bc
  if bct = .silverMuller then
    Matrix.of fun j i => (points.map fun q => (q.weight : ℂ) * (-(Complex.I * z) * dot (cast (q.normalCross i)) (cast (q.normalCross j)))).sum
  else 0

/-- DGMaxDiscretization.cpp:475-521 `faceVector`, integrated, for boundary values given at the points. `none`: the error for other types. -/
noncomputable def faceVector {d nL nR : Nat} (internal : Bool) (bc : BC) (stab diameter : ℝ) (points : List (FacePoint d nL nR × (Fin d → ℂ))) :
    Option (Fin nL ⊕ Fin nR → ℂ) :=
  if internal then some 0
  else match bc with
  | .dirichlet => some fun i => (points.map fun q => (q.1.weight : ℂ) *
      (-(dot q.2 (q.1.muL.adjoint.applyCurl (cast (q.1.curl i)))) + (stab / diameter : ℝ) * dot q.2 (cast (q.1.normalCross i)))).sum
  | .neumann | .silverMuller => some fun i => (points.map fun q => (q.1.weight : ℂ) * dot q.2 (cast (q.1.normalCross i))).sum
  | .internal => none

/-- Material.h:55-57 `getImpedance`. -/
noncomputable def impedance (eps mu : ℝ) : ℝ := Real.sqrt (eps / mu)

/-- HarmonicProblem.h:151-190 `ExactHarmonicProblem::boundaryCondition`: the boundary value at a point for the field `e` with the curl `c`. `none`: the error. -/
noncomputable def exactBoundary {d nL nR : Nat} (bc : BC) (omega z : ℝ) (q : FacePoint d nL nR) (e c : Fin d → ℂ) : Option (Fin d → ℂ) :=
  match bc with
  | .dirichlet => some (cross (cast q.normal) e)
  | .neumann => some (q.muL.applyCurl c)
  | .silverMuller => some fun i => q.muL.applyCurl c i + Complex.I * (omega * z) * cross e (cast q.normal) i
  | .internal => none

end Verif.MaxLocal
