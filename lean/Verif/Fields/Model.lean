import Verif.Pml.Model
import Mathlib.Analysis.SpecialFunctions.Complex.Log
import Mathlib.Analysis.SpecialFunctions.Trigonometric.Basic

/-!
# Model of the fields of DG-Max that are known in closed form

applications/DG-Max/Utils/PlaneWave.h, ProblemTypes/FieldPattern.h, ProblemTypes/Harmonic/InterfaceReflectionField.{h,cpp}, ScatteringProblem.h and ExactFieldHarmonicProblem.h.
Arithmetic is exact; a division by zero is a precondition of the theorems.
-/
namespace Verif.Fields

open MaxLocal (Tensor cast cross dot)
open Pml (Material)
open scoped ComplexConjugate

/-- SmallVector.h:464-482 `leftDoubledCrossProduct`. -/
def doubledCross : {d : Nat} → (Fin d → ℂ) → (Fin d → ℂ) → Fin d → ℂ
  | 2, l, r => ![l 1 * r 0, -l 0 * r 0]
  | _, l, r => cross l r

/-- The product of two real vectors (SmallVector.h:237-243). -/
def dotR {d : Nat} (a b : Fin d → ℝ) : ℝ := ∑ i, a i * b i

/-- SmallVector.h `l2Norm`. -/
noncomputable def normR {d : Nat} (a : Fin d → ℝ) : ℝ := Real.sqrt (dotR a a)

/-- FieldPattern.h:56-82: the three functions of the class. -/
structure Pattern (d : Nat) where
  field : (Fin d → ℝ) → Fin d → ℂ
  fieldCurl : (Fin d → ℝ) → Fin d → ℂ
  fieldDoubleCurl : (Fin d → ℝ) → Tensor → Fin d → ℂ

/-- FieldPattern.h:84-104 `localFlux`. -/
noncomputable def Pattern.localFlux {d : Nat} (F : Pattern d) (p : Fin d → ℝ) (material : Tensor) (omega : ℝ) : Fin d → ℝ :=
  let Efield := F.field p
  let EfieldCurlConj := fun i => conj (F.fieldCurl p i)
  fun i => 1 / omega * (doubledCross Efield (material.adjoint.applyCurl EfieldCurlConj) i).im

/-- PlaneWave.h:56-111: the members of the class. -/
structure PlaneWave (d : Nat) where
  k : Fin d → ℝ
  E0 : Fin d → ℂ
  phase : ℝ

/-- PlaneWave.h:64-71: the assertion of the constructor that takes values. It is only made in debug builds. -/
def PlaneWave.Checked {d : Nat} (w : PlaneWave d) : Prop :=
  ‖dot w.E0 (cast w.k)‖ ≤ 1e-8 * (normR w.k * Real.sqrt (∑ i, ‖w.E0 i‖ ^ 2))

/-- PlaneWave.h:73-78 `onDispersion`. -/
noncomputable def PlaneWave.onDispersion {d : Nat} (omega : ℝ) (khat : Fin d → ℝ) (E0 : Fin d → ℂ) (material : Material) (phase : ℝ) : PlaneWave d :=
  ⟨fun i => khat i * (omega * material.refractiveIndex / normR khat), E0, phase⟩

/-- PlaneWave.h:103-106 `phaseFactor`. -/
noncomputable def PlaneWave.phaseFactor {d : Nat} (w : PlaneWave d) (p : Fin d → ℝ) : ℂ := Complex.exp (Complex.I * ((dotR w.k p + w.phase : ℝ) : ℂ))

/-- PlaneWave.h:80 `field`. -/
noncomputable def PlaneWave.field {d : Nat} (w : PlaneWave d) (p : Fin d → ℝ) : Fin d → ℂ := fun i => w.E0 i * w.phaseFactor p

/-- PlaneWave.h:82-88 `fieldCurl`. -/
noncomputable def PlaneWave.fieldCurl {d : Nat} (w : PlaneWave d) (p : Fin d → ℝ) : Fin d → ℂ :=
  fun i => cross (cast w.k) w.E0 i * (Complex.I * w.phaseFactor p)

/-- PlaneWave.h:90-100 `fieldDoubleCurl`. -/
noncomputable def PlaneWave.fieldDoubleCurl {d : Nat} (w : PlaneWave d) (p : Fin d → ℝ) (material : Tensor) : Fin d → ℂ :=
  fun i => doubledCross (cast w.k) (material.applyCurl (cross (cast w.k) w.E0)) i * (-1 * w.phaseFactor p)

/-- PlaneWave.h: the class is a pattern. -/
noncomputable def PlaneWave.pattern {d : Nat} (w : PlaneWave d) : Pattern d := ⟨w.field, w.fieldCurl, w.fieldDoubleCurl⟩

/-- InterfaceReflectionField.h:144-149: the members of the class. -/
structure Interface (d : Nat) where
  normal : Fin d → ℝ
  position : ℝ
  incident : PlaneWave d
  reflected : PlaneWave d
  transmitted : PlaneWave d

/-- Material.h:55-57 `getImpedance`. -/
noncomputable def impedance (m : Material) : ℝ := MaxLocal.impedance m.permittivity m.permeability

/-- InterfaceReflectionField.h:66-116: the constructor. `none`: the wave vector is not parallel to the normal. -/
noncomputable def Interface.make {d : Nat} (incident : PlaneWave d) (mat1 mat2 : Material) (normal : Fin d → ℝ) (position : ℝ) : Option (Interface d) :=
  open Classical in
  if |(|dotR incident.k normal|) - normR incident.k| < 1e-8 * normR incident.k then
    let kin := incident.k
    let kref : Fin d → ℝ := fun i => kin i - 2 * dotR normal kin * normal i
    let ktrans : Fin d → ℝ := fun i => kin i * mat2.refractiveIndex / mat1.refractiveIndex
    let E0 := incident.field fun _ => 0
    let beta := impedance mat2 / impedance mat1
    let r := (1 - beta) / (1 + beta)
    let t := 2 / (1 + beta)
    let pos : Fin d → ℝ := fun i => normal i * position
    let inPhase := dotR pos kin
    let rPhase := inPhase - dotR kref pos
    let tPhase := inPhase - dotR ktrans pos
    some ⟨normal, position, incident, ⟨kref, fun i => r * E0 i, rPhase⟩, ⟨ktrans, fun i => t * E0 i, tPhase⟩⟩
  else none

/-- InterfaceReflectionField.cpp:42-75: the constructor with a frequency, for the normal in the second direction. -/
noncomputable def Interface.legacy {d : Nat} (omega phase : ℝ) (mat1 mat2 : Material) (position : ℝ) : Option (Interface (d + 2)) :=
  Interface.make ⟨fun i => if i = 1 then omega * mat1.refractiveIndex else 0, fun i => if i = 0 then 1 else 0, phase⟩ mat1 mat2 (fun i => if i = 1 then 1 else 0) position

open Classical in
/-- InterfaceReflectionField.h:118-142: the three functions. -/
noncomputable def Interface.pattern {d : Nat} (s : Interface d) : Pattern d where
  field p := if dotR s.normal p < s.position then fun i => s.incident.field p i + s.reflected.field p i else s.transmitted.field p
  fieldCurl p := if dotR s.normal p < s.position then fun i => s.incident.fieldCurl p i + s.reflected.fieldCurl p i else s.transmitted.fieldCurl p
  fieldDoubleCurl p m :=
    if dotR s.normal p < s.position then fun i => s.incident.fieldDoubleCurl p m i + s.reflected.fieldDoubleCurl p m i else s.transmitted.fieldDoubleCurl p m

/-- What `ElementInfos` gives for an element: whether it is a layer, and the two tensors at a point (ElementInfos.h:50-110). -/
structure Infos (d : Nat) where
  layer : Bool
  div : (Fin d → ℝ) → Tensor
  mu : (Fin d → ℝ) → Tensor

/-- ScatteringProblem.h:57-75 `sourceTerm`. -/
noncomputable def scatteringSource {d : Nat} (omega : ℝ) (incident : Pattern d) (infos : Infos d) (point : Fin d → ℝ) : Fin d → ℂ :=
  if infos.layer then fun _ => 0
  else fun i => -incident.fieldDoubleCurl point (infos.mu point) i + (omega * omega : ℝ) * (infos.div point).applyDiv (incident.field point) i

/-- ExactFieldHarmonicProblem.h:64-76 `sourceTerm`. -/
noncomputable def exactSource {d : Nat} (omega : ℝ) (F : Pattern d) (infos : Infos d) (point : Fin d → ℝ) : Fin d → ℂ :=
  fun i => F.fieldDoubleCurl point (infos.mu point) i - (omega * omega : ℝ) * (infos.div point).applyDiv (F.field point) i

end Verif.Fields
