import Verif.PhysMap.Model

/-!
# Model of the transformations of function values to physical elements

kernel/Base/{H1,HCurl,HDiv}ConformingTransformation.h, kernel/Base/PhysGradientOfBasisFunction_Impl.h.
A transformation gets the value on the reference element and the Jacobian of the map to the physical
element; `getTransposeJacobian` and `getJacobianDet` are computed from it
(CoordinateTransformationData.h:107-111, PhysicalElement_Impl.h:531-567). `double` is `ℝ`. The functions a
transformation does not override end the program with an error
(CoordinateTransformation.h:60-111); they are not modelled.
-/
namespace Verif.Transform
open Verif.RefGeometry (Pt)
open Verif.PhysMap (solve)
open Matrix

variable {d : Nat}

/-- H1ConformingTransformation.h:56-60 -/
def h1Value (referenceData : ℝ) (_J : Matrix (Fin d) (Fin d) ℝ) : ℝ := referenceData

/-- H1ConformingTransformation.h:64-69 -/
noncomputable def h1Deriv (referenceData : Pt d) (J : Matrix (Fin d) (Fin d) ℝ) : Pt d := solve Jᵀ referenceData

/-- HCurlConformingTransformation.h:55-60 -/
noncomputable def hcurlValue (referenceData : Pt d) (J : Matrix (Fin d) (Fin d) ℝ) : Pt d := solve Jᵀ referenceData

/-- HCurlConformingTransformation.h:63-67, for all dimensions but two -/
noncomputable def hcurlCurl (referenceData : Pt d) (J : Matrix (Fin d) (Fin d) ℝ) : Pt d :=
  fun i => (J *ᵥ referenceData) i / J.det

/-- HCurlConformingTransformation.h:70-76: in two dimensions. The curl is in the first of two numbers, the
second is zero (BasisFunctions2DNedelec.cpp:120-160). -/
noncomputable def hcurlCurl2 (referenceData : Pt 2) (J : Matrix (Fin 2) (Fin 2) ℝ) : Pt 2 :=
  fun i => referenceData i / J.det

/-- HDivConformingTransformation.h:55-59 -/
noncomputable def hdivValue (referenceData : Pt d) (J : Matrix (Fin d) (Fin d) ℝ) : Pt d :=
  fun i => (J *ᵥ referenceData) i / J.det

/-- HDivConformingTransformation.h:62-66 -/
noncomputable def hdivDiv (referenceData : ℝ) (J : Matrix (Fin d) (Fin d) ℝ) : ℝ := referenceData / J.det

/-- `std::swap(jac(i, j), jac(j, i))` -/
def swapEntry (M : Matrix (Fin d) (Fin d) ℝ) (ij : Fin d × Fin d) : Matrix (Fin d) (Fin d) ℝ :=
  Matrix.of fun a b =>
    if (a, b) = (ij.1, ij.2) then M ij.2 ij.1
    else if (a, b) = (ij.2, ij.1) then M ij.1 ij.2
    else M a b

/-- PhysGradientOfBasisFunction_Impl.h:52-56: the pairs the two loops visit. -/
def lowerPairs (d : Nat) : List (Fin d × Fin d) :=
  (List.finRange d).flatMap fun i => ((List.finRange d).filter fun j => j < i).map fun j => (i, j)

/-- PhysGradientOfBasisFunction_Impl.h:47-60 -/
noncomputable def physGradient (r : Pt d) (jac : Matrix (Fin d) (Fin d) ℝ) : Pt d :=
  solve ((lowerPairs d).foldl swapEntry jac) r

end Verif.Transform
