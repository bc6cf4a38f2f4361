import Verif.MaxLocal.ModelUse
import Mathlib.Data.Matrix.Block

/-!
# Model of the local integrals of the mixed discretization of DG-Max

applications/DG-Max/Algorithms/DivDGMaxDiscretization.{h,cpp}. Unknown 0 is the field, unknown 1 the potential. The functions of unknown 0 on a face are those of the left element
followed by those of the right element, and so for unknown 1. The rows of a matrix are given by the function, `inl` for the field and `inr` for the potential; the numbers that
`ElementLocalIndexing` and `FaceLocalIndexing` give them are the subject of C51. An integral is a sum over quadrature points; arithmetic is exact.
-/
namespace Verif.DivLocal

open scoped ComplexConjugate Matrix
open MaxLocal (Tensor cross dot BC Side)

variable {d n m nL nR mL mR : Nat}

/-- DivDGMaxDiscretization.h:79. -/
inductive Flux
  | ip
  | brezzi
  deriving DecidableEq

/-- DivDGMaxDiscretization.h:81-106 `Stab`. -/
structure Stab where
  stab1 : ℝ
  stab2 : ℝ
  stab3 : ℝ
  flux1 : Flux
  flux2 : Flux
  flux3 : Flux

/-- DivDGMaxDiscretization.h:97-99 `hasFlux`. -/
def Stab.hasFlux (s : Stab) (f : Flux) : Bool := s.flux1 = f || s.flux2 = f || s.flux3 = f

/-- A quadrature point of an element with `n` functions for the field and `m` for the potential: besides those of `MaxLocal` the values and gradients of the latter. -/
structure ElementPoint (d n m : Nat) extends MaxLocal.ElementPoint d n where
  pvalue : Fin m → ℝ
  pgrad : Fin m → Fin d → ℝ

/-- DivDGMaxDiscretization.cpp:458-481: the mass matrix. -/
noncomputable def massMatrix (points : List (ElementPoint d n m)) : Matrix (Fin n ⊕ Fin m) (Fin n ⊕ Fin m) ℂ := Matrix.of fun
  | .inl i, .inl j => (points.map fun q => (q.weight : ℂ) * dot (q.div.applyDiv (MaxLocal.cast (q.value j))) (MaxLocal.cast (q.value i))).sum
  | _, _ => 0

/-- DivDGMaxDiscretization.cpp:510-518: the coupling of the function `i` of the field and `j` of the potential at a point. -/
noncomputable def ElementPoint.coupling (q : ElementPoint d n m) (i : Fin n) (j : Fin m) : ℂ := dot (fun k => -q.div.applyDiv (MaxLocal.cast (q.value i)) k) (MaxLocal.cast (q.pgrad j))

/-- DivDGMaxDiscretization.cpp:483-524: the stiffness matrix. -/
noncomputable def stiffnessMatrix (points : List (ElementPoint d n m)) : Matrix (Fin n ⊕ Fin m) (Fin n ⊕ Fin m) ℂ := Matrix.of fun
  | .inl i, .inl j => (points.map fun q => (q.weight : ℂ) * dot (q.mu.applyCurl (MaxLocal.cast (q.curl i))) (MaxLocal.cast (q.curl j))).sum
  | .inr j, .inl i => (points.map fun q => (q.weight : ℂ) * q.coupling i j).sum
  | .inl i, .inr j => (points.map fun q => (q.weight : ℂ) * conj (q.coupling i j)).sum
  | .inr _, .inr _ => 0

/-- DivDGMaxDiscretization.cpp:527-543 `elementSourceVector`, integrated, for a source given at the points. -/
noncomputable def elementVector (points : List (ElementPoint d n m × (Fin d → ℂ))) : Fin n ⊕ Fin m → ℂ
  | .inl i => (points.map fun q => (q.1.weight : ℂ) * dot q.2 (MaxLocal.cast (q.1.value i))).sum
  | .inr _ => 0

/-- A quadrature point of a face: besides those of `MaxLocal` the tensors for the divergence on both sides and the values of the functions of the potential. -/
structure FacePoint (d nL nR mL mR : Nat) extends MaxLocal.FacePoint d nL nR where
  divL : Tensor
  divR : Tensor
  pvalue : Fin mL ⊕ Fin mR → ℝ

/-- The tensor on the side of a function (`i < leftUDoFs ? materialDivLeft : materialDivRight`). -/
def FacePoint.div (q : FacePoint d nL nR mL mR) : Fin nL ⊕ Fin nR → Tensor
  | .inl _ => q.divL
  | .inr _ => q.divR

/-- The number of a function of the field on a face. -/
def position : Fin nL ⊕ Fin nR → Nat
  | .inl i => i
  | .inr i => nL + i

/-- DivDGMaxDiscretization.cpp:581-609: an entry for the tangential parts. -/
noncomputable def FacePoint.fieldEntry (q : FacePoint d nL nR mL mR) (internal : Bool) (s : Stab) (diameter : ℝ) (j i : Fin nL ⊕ Fin nR) : ℂ :=
  let factor : ℂ := if internal then -1 / 2 else -1
  let phiCi := (q.mu i).applyCurl (MaxLocal.cast (q.curl i))
  let phiNi := MaxLocal.cast (q.normalCross i)
  let phiCj := (q.mu j).adjoint.applyCurl (MaxLocal.cast (q.curl j))
  let phiNj := MaxLocal.cast (q.normalCross j)
  let entry := factor * (dot phiCi phiNj + dot phiNi phiCj)
  if s.flux1 = .ip then entry + (s.stab1 / diameter : ℝ) * dot phiNi phiNj else entry

/-- The sign of the side of a function (`i >= leftUDoFs`). -/
def sideSign : Fin nL ⊕ Fin nR → ℂ
  | .inl _ => 1
  | .inr _ => -1

/-- DivDGMaxDiscretization.cpp:625-632: the normal part of a function, with the sign of its side. -/
noncomputable def FacePoint.normalPart (q : FacePoint d nL nR mL mR) (i : Fin nL ⊕ Fin nR) : ℂ :=
  dot ((q.div i).applyDiv (MaxLocal.cast (q.value i))) (MaxLocal.cast q.normal) * sideSign i

/-- DivDGMaxDiscretization.cpp:612-656: an entry for the normal parts, in row `r` and column `c`. The loop takes `i ≤ j` and sets `phiUj = conj(phiUi)`; the value is added in row
`j` and column `i`, and its conjugate in row `i` and column `j` if they differ. -/
noncomputable def FacePoint.normalEntry (q : FacePoint d nL nR mL mR) (s : Stab) (diameter : ℝ) (r c : Fin nL ⊕ Fin nR) : ℂ :=
  let value (i : Fin nL ⊕ Fin nR) : ℂ :=
    let phiUi := q.normalPart i
    let phiUj := conj phiUi
    (s.stab2 * diameter : ℝ) * phiUi * phiUj
  if position c ≤ position r then value c else conj (value r)

open Classical in
/-- DivDGMaxDiscretization.cpp:545-657 `faceStiffnessMatrixFieldIntegrand`. -/
noncomputable def FacePoint.fieldIntegrand (q : FacePoint d nL nR mL mR) (internal : Bool) (s : Stab) (diameter : ℝ) (r c : Fin nL ⊕ Fin nR) : ℂ :=
  q.fieldEntry internal s diameter r c + (if internal ∧ s.flux2 = .ip ∧ s.stab2 ≠ 0 then q.normalEntry s diameter r c else 0)

/-- DivDGMaxDiscretization.cpp:691-699 `normalSign`. -/
def normalSign : Fin mL ⊕ Fin mR → ℝ
  | .inl _ => 1
  | .inr _ => -1

/-- DivDGMaxDiscretization.cpp:706-737: the coupling of the function `i` of the field and `j` of the potential. -/
noncomputable def FacePoint.coupling (q : FacePoint d nL nR mL mR) (internal : Bool) (i : Fin nL ⊕ Fin nR) (j : Fin mL ⊕ Fin mR) : ℂ :=
  let averageFactor : ℂ := if internal then 1 / 2 else 1
  let epsUNi := dot ((q.div i).applyDiv (MaxLocal.cast (q.value i))) (MaxLocal.cast q.normal)
  let phiPj := q.pvalue j * normalSign j
  averageFactor * epsUNi * (phiPj : ℂ)

/-- DivDGMaxDiscretization.cpp:738-757: an entry for two functions of the potential. -/
noncomputable def FacePoint.potentialEntry (q : FacePoint d nL nR mL mR) (s : Stab) (diameter : ℝ) (i j : Fin mL ⊕ Fin mR) : ℂ :=
  if s.flux3 = .ip then -((s.stab3 / diameter * (q.pvalue i * normalSign i) * q.pvalue j * normalSign j : ℝ) : ℂ) else 0

/-- DivDGMaxDiscretization.cpp:171-182: the face matrix without the terms of the Brezzi flux. The type of an internal face is `INTERNAL`. -/
noncomputable def faceMatrix (internal : Bool) (bc : BC) (s : Stab) (diameter : ℝ) (points : List (FacePoint d nL nR mL mR)) :
    Matrix ((Fin nL ⊕ Fin nR) ⊕ (Fin mL ⊕ Fin mR)) ((Fin nL ⊕ Fin nR) ⊕ (Fin mL ⊕ Fin mR)) ℂ :=
  let bct := if internal then BC.internal else bc
  Matrix.of fun
  | .inl r, .inl c => if bct = .internal ∨ ¬ bct.natural then (points.map fun q => (q.weight : ℂ) * q.fieldIntegrand internal s diameter r c).sum else 0
  | .inr j, .inl i => (points.map fun q => (q.weight : ℂ) * q.coupling internal i j).sum
  | .inl i, .inr j => (points.map fun q => (q.weight : ℂ) * conj (q.coupling internal i j)).sum
  | .inr i, .inr j => (points.map fun q => (q.weight : ℂ) * q.potentialEntry s diameter i j).sum

/-- DivDGMaxDiscretization.cpp:188-200 and 760-790 `computeFaceImpedanceIntegrand`. -/
noncomputable def impedanceMatrix (internal : Bool) (bc : BC) (z : ℝ) (points : List (FacePoint d nL nR mL mR)) :
    Matrix ((Fin nL ⊕ Fin nR) ⊕ (Fin mL ⊕ Fin mR)) ((Fin nL ⊕ Fin nR) ⊕ (Fin mL ⊕ Fin mR)) ℂ :=
  let bct := if internal then BC.internal else bc
  if bct = .silverMuller then
    Matrix.of fun
    | .inl j, .inl i => (points.map fun q => (q.weight : ℂ) * (-(Complex.I * z) * dot (MaxLocal.cast (q.normalCross i)) (MaxLocal.cast (q.normalCross j)))).sum
    | _, _ => 0
  else 0

/-- DivDGMaxDiscretization.cpp:1136-1205 `faceBoundaryVector`, integrated, for boundary values given at the points. `none`: the error for other types. -/
noncomputable def faceVector (internal : Bool) (bc : BC) (s : Stab) (diameter : ℝ) (points : List (FacePoint d nL nR mL mR × (Fin d → ℂ))) :
    Option ((Fin nL ⊕ Fin nR) ⊕ (Fin mL ⊕ Fin mR) → ℂ) :=
  if internal then some 0
  else match bc with
  | .dirichlet => some fun
    | .inl i => (points.map fun q => (q.1.weight : ℂ) *
        (let value := -(dot q.2 (q.1.muL.adjoint.applyCurl (MaxLocal.cast (q.1.curl i))))
        if s.flux1 = .ip then value + (s.stab1 / diameter : ℝ) * dot q.2 (MaxLocal.cast (q.1.normalCross i)) else value)).sum
    | .inr _ => 0
  | .neumann | .silverMuller => some fun
    | .inl i => (points.map fun q => (q.1.weight : ℂ) * dot q.2 (MaxLocal.cast (q.1.normalCross i))).sum
    | .inr _ => 0
  | .internal => none

/-! ## Fluxes and norms -/

/-- DivDGMaxDiscretization.cpp:386-397: the coefficient of the function `i` of the field. The vector has the functions of the field and of the potential of the left element,
then those of the right element. `none`: the index is out of range. -/
def fluxCoefficient (nL mL : Nat) (coefficients : List ℂ) (i : Nat) : Option ℂ :=
  let leftDoFs := nL + mL
  if i < nL then coefficients[i]? else coefficients[i + leftDoFs]?

/-- DivDGMaxDiscretization.cpp:363-416 `computeEnergyFluxes`. The integrand for given coefficients is that of `DGMaxDiscretization`. -/
noncomputable def energyFluxes (internal : Bool) (coefficients : List ℂ) (points : List (FacePoint d nL nR mL mR × Option ((Fin d → ℂ) × (Fin d → ℂ)))) (side : Side)
    (wavenumber : ℝ) (permeability : Side → ℝ) : Option (Fin 4 → ℝ) := do
  let left ← (List.finRange nL).mapM fun (i : Fin nL) => fluxCoefficient nL mL coefficients i
  let right ← (List.finRange nR).mapM fun (i : Fin nR) => fluxCoefficient nL mL coefficients (nL + i)
  let u : Fin nL ⊕ Fin nR → ℂ := Sum.elim (fun i => left.getD i 0) fun i => right.getD i 0
  return MaxLocal.energyFluxes internal u (points.map fun q => (q.1.toFacePoint, q.2)) side wavenumber permeability

/-- PhysicalFace.h `basisFunction` for the field, by its number on the face. `none`: there is no such function. -/
def FacePoint.basisFunction (q : FacePoint d nL nR mL mR) (i : Nat) : Option (Fin d → ℝ) :=
  if h : i < nL then some (q.value (.inl ⟨i, h⟩)) else if h' : i - nL < nR then some (q.value (.inr ⟨i - nL, h'⟩)) else none

/-- DivDGMaxDiscretization.cpp:418-450 `computeFieldL2Integral`. `scale` is the rescaling for layers, at each point. `none`: an index is out of range. -/
noncomputable def fieldL2Integral (points : List (FacePoint d nL nR mL mR × Tensor)) (coefficients : List ℂ) (side : Side) : Option ℝ := do
  let dofOffset := if side = .left then 0 else nL + mL
  let numDoFs := if side = .left then nL else nR
  let values ← points.mapM fun q => do
    let terms ← (List.range numDoFs).mapM fun i => do
      let phi ← q.1.basisFunction (i + dofOffset)
      let c ← coefficients[i + dofOffset]?
      return fun k => c * (phi k : ℂ)
    let field : Fin d → ℂ := terms.sum
    let field := q.2.applyDiv field
    return q.1.weight * ∑ k, Complex.normSq (field k)
  return values.sum

end Verif.DivLocal
