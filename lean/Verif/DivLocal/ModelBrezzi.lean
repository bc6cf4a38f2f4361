import Verif.DivLocal.Model

/-!
# Model of the terms of the Brezzi flux

applications/DG-Max/Algorithms/DivDGMaxDiscretization.cpp. The factors that `cholesky` leaves are arguments.
-/
namespace Verif.DivLocal

open scoped ComplexConjugate Matrix
open MaxLocal (Tensor cross dot BC Side)

variable {d nL nR mL mR : Nat}

/-- The elements at a face: the quadrature points inside them and their numbers of faces. A boundary face has no functions on the right. -/
structure Neighbours (d nL nR mL mR : Nat) where
  left : List (ElementPoint d nL mL)
  right : List (ElementPoint d nR mR)
  facesL : Nat
  facesR : Nat

/-- DivDGMaxDiscretization.cpp:792-842 `computeFaceVectorMassMatrix`. -/
noncomputable def vectorMass (b : Neighbours d nL nR mL mR) : Matrix (Fin nL ⊕ Fin nR) (Fin nL ⊕ Fin nR) ℂ := Matrix.of fun
  | .inl i, .inl j => (b.left.map fun q => (q.weight : ℂ) * dot (MaxLocal.cast (q.value i)) (MaxLocal.cast (q.value j))).sum
  | .inr i, .inr j => (b.right.map fun q => (q.weight : ℂ) * dot (MaxLocal.cast (q.value i)) (MaxLocal.cast (q.value j))).sum
  | _, _ => 0

/-- DivDGMaxDiscretization.cpp:844-895 `computeFaceScalarMassMatrix`. -/
noncomputable def scalarMass (b : Neighbours d nL nR mL mR) : Matrix (Fin mL ⊕ Fin mR) (Fin mL ⊕ Fin mR) ℂ := Matrix.of fun
  | .inl i, .inl j => (b.left.map fun q => (q.weight : ℂ) * (q.pvalue i * q.pvalue j : ℝ)).sum
  | .inr i, .inr j => (b.right.map fun q => (q.weight : ℂ) * (q.pvalue i * q.pvalue j : ℝ)).sum
  | _, _ => 0

/-- DivDGMaxDiscretization.cpp:897-921 `computeScalarLiftProjector`. -/
noncomputable def scalarLift (internal : Bool) (points : List (FacePoint d nL nR mL mR)) : Matrix (Fin nL ⊕ Fin nR) (Fin mL ⊕ Fin mR) ℂ :=
  Matrix.of fun j i => (points.map fun q => (q.weight : ℂ) *
    (let factor : ℂ := if internal then 1 / 2 else 1
    (q.pvalue i * normalSign i : ℝ) * factor * dot (MaxLocal.cast q.normal) (MaxLocal.cast (q.value j)))).sum

/-- DivDGMaxDiscretization.cpp:923-945 `computeVectorLiftProjector`. -/
noncomputable def vectorLift (internal : Bool) (points : List (FacePoint d nL nR mL mR)) : Matrix (Fin nL ⊕ Fin nR) (Fin nL ⊕ Fin nR) ℂ :=
  Matrix.of fun i j => (points.map fun q => (q.weight : ℂ) *
    (let factor : ℂ := if internal then 1 / 2 else 1
    factor * dot (MaxLocal.cast (q.normalCross j)) (MaxLocal.cast (q.value i)))).sum

/-- DivDGMaxDiscretization.cpp:972-983: a function times the tensor, with the sign of its side. The tensor on the right is that for the curl. -/
noncomputable def FacePoint.liftedValue (q : FacePoint d nL nR mL mR) : Fin nL ⊕ Fin nR → Fin d → ℂ
  | .inl j => q.divL.applyDiv (MaxLocal.cast (q.value (.inl j)))
  | .inr j => fun k => -q.muR.applyDiv (MaxLocal.cast (q.value (.inr j))) k

/-- DivDGMaxDiscretization.cpp:947-990 `computeVectorNormalLiftProjector`. -/
noncomputable def normalLift (internal : Bool) (points : List (FacePoint d nL nR mL mR)) : Matrix (Fin mL ⊕ Fin mR) (Fin nL ⊕ Fin nR) ℂ :=
  Matrix.of fun i j => (points.map fun q => (q.weight : ℂ) *
    (let factor : ℂ := if internal then 1 / 2 else 1
    factor * dot (q.liftedValue j) (MaxLocal.cast q.normal) * (q.pvalue i : ℂ))).sum

/-- DivDGMaxDiscretization.cpp:997-1028 `distributeFaceMatrix`: where the row `i` of a matrix for one unknown goes. -/
def distributeIndex (leftUDoFs rightUDoFs leftPDoFs : Nat) (vector : Bool) (i : Nat) : Nat :=
  let leftOffset := if vector then 0 else leftUDoFs
  let rightOffset := if vector then leftPDoFs else leftUDoFs + rightUDoFs
  let leftDimension := if vector then leftUDoFs else leftPDoFs
  if i < leftDimension then i + leftOffset else i + rightOffset

/-- DivDGMaxDiscretization.cpp:1072-1092: the factor of a column. -/
def columnFactor (lfactor rfactor : ℝ) : Fin nL ⊕ Fin nR → ℂ
  | .inl _ => (lfactor : ℂ)
  | .inr _ => (rfactor : ℂ)

/-- DivDGMaxDiscretization.cpp:1059-1092: the term for the tangential part. Columns are scaled by the square root of a factor for their side; the number of faces on the right
is taken from the left element. `none`: the root of a negative number. -/
noncomputable def tangentialTerm (internal : Bool) (stab1 : ℝ) (b : Neighbours d nL nR mL mR) (L : Matrix (Fin nL ⊕ Fin nR) (Fin nL ⊕ Fin nR) ℂ)
    (points : List (FacePoint d nL nR mL mR)) : Option (Matrix (Fin nL ⊕ Fin nR) (Fin nL ⊕ Fin nR) ℂ) :=
  let leftFaces : Nat := b.facesL
  let rightFaces : Nat := if internal then b.facesL else 0
  if stab1 + leftFaces < 0 ∨ (internal ∧ stab1 + rightFaces < 0) then none
  else
    let lfactor := Real.sqrt (stab1 + leftFaces)
    let rfactor := if internal then Real.sqrt (stab1 + rightFaces) else 1
    let X := L⁻¹ * vectorLift internal points
    let X : Matrix (Fin nL ⊕ Fin nR) (Fin nL ⊕ Fin nR) ℂ := Matrix.of fun i j => X i j * columnFactor lfactor rfactor j
    some (Xᵀ * X)

/-- DivDGMaxDiscretization.cpp:1094-1110: the term for the normal part. -/
noncomputable def normalTerm (internal : Bool) (stab2 : ℝ) (P : Matrix (Fin mL ⊕ Fin mR) (Fin mL ⊕ Fin mR) ℂ) (points : List (FacePoint d nL nR mL mR)) :
    Matrix (Fin nL ⊕ Fin nR) (Fin nL ⊕ Fin nR) ℂ :=
  let X := P⁻¹ * normalLift internal points
  (stab2 : ℂ) • (Xᵀ * X)

/-- DivDGMaxDiscretization.cpp:1112-1129: the term for the potential. -/
noncomputable def scalarTerm (internal : Bool) (stab3 : ℝ) (L : Matrix (Fin nL ⊕ Fin nR) (Fin nL ⊕ Fin nR) ℂ) (points : List (FacePoint d nL nR mL mR)) :
    Matrix (Fin mL ⊕ Fin mR) (Fin mL ⊕ Fin mR) ℂ :=
  let X := L⁻¹ * scalarLift internal points
  (-stab3 : ℂ) • (Xᵀ * X)

/-- DivDGMaxDiscretization.cpp:1037-1134 `brezziFluxBilinearTerm`; `L` and `P` are the factors of the mass matrices. -/
noncomputable def brezziMatrix (internal : Bool) (bc : BC) (s : Stab) (b : Neighbours d nL nR mL mR) (L : Matrix (Fin nL ⊕ Fin nR) (Fin nL ⊕ Fin nR) ℂ)
    (P : Matrix (Fin mL ⊕ Fin mR) (Fin mL ⊕ Fin mR) ℂ) (points : List (FacePoint d nL nR mL mR)) :
    Option (Matrix ((Fin nL ⊕ Fin nR) ⊕ (Fin mL ⊕ Fin mR)) ((Fin nL ⊕ Fin nR) ⊕ (Fin mL ⊕ Fin mR)) ℂ) := do
  let bct := if internal then BC.internal else bc
  let isNaturalBCT := !internal && bct.natural
  if isNaturalBCT && s.flux3 ≠ .brezzi then return 0
  else
    let t1 ← if s.flux1 = .brezzi && !isNaturalBCT then tangentialTerm internal s.stab1 b L points else some 0
    let t2 := if internal && s.flux2 = .brezzi && !isNaturalBCT then normalTerm internal s.stab2 P points else 0
    let t3 := if s.flux3 = .brezzi then scalarTerm internal s.stab3 L points else 0
    return Matrix.fromBlocks (t1 + t2) 0 0 t3

/-- DivDGMaxDiscretization.cpp:171-186: the matrix of a face. -/
noncomputable def fullFaceMatrix (internal : Bool) (bc : BC) (s : Stab) (diameter : ℝ) (b : Neighbours d nL nR mL mR) (L : Matrix (Fin nL ⊕ Fin nR) (Fin nL ⊕ Fin nR) ℂ)
    (P : Matrix (Fin mL ⊕ Fin mR) (Fin mL ⊕ Fin mR) ℂ) (points : List (FacePoint d nL nR mL mR)) :
    Option (Matrix ((Fin nL ⊕ Fin nR) ⊕ (Fin mL ⊕ Fin mR)) ((Fin nL ⊕ Fin nR) ⊕ (Fin mL ⊕ Fin mR)) ℂ) := do
  let faceMatrix := faceMatrix internal bc s diameter points
  if s.hasFlux .brezzi then
    let t ← brezziMatrix internal bc s b L P points
    return faceMatrix + t
  else return faceMatrix

/-- DivDGMaxDiscretization.cpp:1207-1263 `brezziFluxBoundaryVector`. -/
noncomputable def brezziVector (internal : Bool) (s : Stab) (b : Neighbours d nL nR mL mR) (points : List (FacePoint d nL nR mL mR × (Fin d → ℂ))) :
    (Fin nL ⊕ Fin nR) ⊕ (Fin mL ⊕ Fin mR) → ℂ :=
  if internal then 0
  else
    let rvector : Fin nL ⊕ Fin nR → ℂ := fun i => (points.map fun q => (q.1.weight : ℂ) * dot q.2 (MaxLocal.cast (q.1.value i))).sum
    let rvector := ((s.stab1 + (b.facesL : ℝ) : ℝ) : ℂ) • rvector
    let rvector := ((vectorMass b)ᵀ)⁻¹ *ᵥ rvector
    Sum.elim ((vectorLift internal (points.map Prod.fst))ᵀ *ᵥ rvector) 0

/-- DivDGMaxDiscretization.cpp:203-217: the vector of a face. -/
noncomputable def fullFaceVector (internal : Bool) (bc : BC) (s : Stab) (diameter : ℝ) (b : Neighbours d nL nR mL mR) (points : List (FacePoint d nL nR mL mR × (Fin d → ℂ))) :
    Option ((Fin nL ⊕ Fin nR) ⊕ (Fin mL ⊕ Fin mR) → ℂ) := do
  let bct := if internal then BC.internal else bc
  let vec ← faceVector internal bc s diameter points
  if s.hasFlux .brezzi && bct = .dirichlet then return vec + brezziVector internal s b points else return vec

end Verif.DivLocal
