import Verif.Fields.Model

/-!
# Model of the wave in a trench

applications/DG-Max/ProblemTypes/Harmonic/TrenchReflectionProblem.{h,cpp}, for two dimensions. (In three dimensions the field does not depend on the third coordinate.) Arithmetic is
exact; a division by zero is excluded by the theorems.
-/
namespace Verif.Fields

open MaxLocal (cast cross BC)
open Pml (Material)
open scoped Real

/-- TrenchReflectionProblem.h:153-190: the members of the class. -/
structure Trench where
  omega : ℝ
  width : ℝ
  waveCount : Nat
  length : ℝ
  material : Material
  farEnd : BC
  pmlYstart : ℝ
  pmlScaling : ℝ
  in1 : PlaneWave 2
  in2 : PlaneWave 2
  r1 : PlaneWave 2
  r2 : PlaneWave 2

open Classical in
/-- TrenchReflectionProblem.cpp:43-70: the constructor. `none`: no half waves, or a frequency that is too low. -/
noncomputable def Trench.make (omega width : ℝ) (waveCount : Nat) (length : ℝ) (material : Material) : Option Trench :=
  if ¬ waveCount > 0 then none
  else
    let kx := waveCount * π / width
    let ky2 := omega * omega * material.permittivity * material.permeability - kx * kx
    if ¬ ky2 > 0 then none
    else
      let ky := Real.sqrt ky2
      some {
        omega, width, waveCount, length, material
        farEnd := .silverMuller
        pmlYstart := 0
        pmlScaling := 0
        in1 := ⟨![kx, ky], ![1, ((-kx / ky : ℝ) : ℂ)], 0⟩
        in2 := ⟨![-kx, ky], ![1, ((kx / ky : ℝ) : ℂ)], 0⟩
        r1 := ⟨![kx, -ky], ![1, ((kx / ky : ℝ) : ℂ)], 0⟩
        r2 := ⟨![-kx, -ky], ![1, ((-kx / ky : ℝ) : ℂ)], 0⟩ }

/-- TrenchReflectionProblem.h:100-102 `setFarEndBoundaryCondition`. -/
def Trench.setFarEnd (t : Trench) (bct : BC) : Trench := { t with farEnd := bct }

/-- TrenchReflectionProblem.h:113-116 `setPML`. -/
noncomputable def Trench.setPML (t : Trench) (ystart scaling depth : ℝ) : Trench := { t with pmlYstart := ystart, pmlScaling := scaling / (depth * depth * depth) }

open Classical in
/-- TrenchReflectionProblem.cpp:139-210 `combineWaves`. `none`: the boundary condition has no reflection coefficient. -/
noncomputable def Trench.combineWaves (t : Trench) (forward backward : Fin 2 → ℂ) (y : ℝ) : Option (Fin 2 → ℂ) :=
  let k2 := dotR t.in1.k t.in1.k
  let ky := t.in1.k 1
  let pmly := y - t.pmlYstart
  let scaling := Real.exp (-t.pmlScaling * ky / (3 * t.omega) * pmly * pmly * pmly)
  let forward := if pmly > 0 then fun i => forward i * (scaling : ℂ) else forward
  let backward := if pmly > 0 then fun i => backward i / (scaling : ℂ) else backward
  let pmlDepth := t.length - t.pmlYstart
  let exponent := -t.pmlScaling * ky / (3 * t.omega) * pmlDepth * pmlDepth * pmlDepth
  let pmlFactor := Real.exp (exponent * 2)
  let r := 1 - 2 * k2 / (k2 + ky * Real.sqrt k2)
  let rL := match t.farEnd with
    | .dirichlet => some (1 * pmlFactor)
    | .silverMuller => some (r * pmlFactor)
    | .neumann => some (-1 * pmlFactor)
    | .internal => none
  rL.map fun rL =>
    let phase := Complex.exp (2 * Complex.I * ((t.length * ky : ℝ) : ℂ))
    fun i => (forward i - (rL : ℂ) * phase * backward i) / (1 - (rL : ℂ) * (r : ℂ) * phase)

/-- TrenchReflectionProblem.cpp:89-96 `exactSolution`. -/
noncomputable def Trench.exact (t : Trench) (p : Fin 2 → ℝ) : Option (Fin 2 → ℂ) :=
  t.combineWaves (fun i => t.in1.field p i + t.in2.field p i) (fun i => t.r1.field p i + t.r2.field p i) (p 1)

/-- TrenchReflectionProblem.cpp:98-106 `exactSolutionCurl`. -/
noncomputable def Trench.exactCurl (t : Trench) (p : Fin 2 → ℝ) : Option (Fin 2 → ℂ) :=
  t.combineWaves (fun i => t.in1.fieldCurl p i + t.in2.fieldCurl p i) (fun i => t.r1.fieldCurl p i + t.r2.fieldCurl p i) (p 1)

open Classical in
/-- TrenchReflectionProblem.cpp:72-88 `getBoundaryConditionType` for a face with the given unit normal in the middle. -/
noncomputable def Trench.boundaryType (t : Trench) (normal : Fin 2 → ℝ) : BC :=
  if |normal 0| > 1e-8 then .dirichlet
  else if normal 1 > 1e-1 then t.farEnd
  else .silverMuller

open Classical in
/-- TrenchReflectionProblem.cpp:108-137 `boundaryCondition` at a point of a face. The normal in the middle of the face is that at the point. -/
noncomputable def Trench.boundary (t : Trench) (normal p : Fin 2 → ℝ) : Fin 2 → ℂ :=
  let bct := t.boundaryType normal
  if bct = .dirichlet ∨ bct = .neumann then fun _ => 0
  else if normal 1 > 0 then fun _ => 0
  else fun i => (t.in1.fieldCurl p i + t.in2.fieldCurl p i) / (t.material.permeability : ℂ) +
    Complex.I * (t.omega : ℂ) * (impedance t.material : ℂ) * cross (fun i => t.in1.field p i + t.in2.field p i) (cast normal) i

/-- TrenchReflectionProblem.cpp:212-257 `farSideL2FieldIntegral`. -/
noncomputable def Trench.farSide (t : Trench) : Option ℝ := do
  let p : Fin 2 → ℝ := ![0, t.length]
  let parallelComp ← t.combineWaves (fun i => t.in1.field p i + t.in2.field p i) (fun i => t.r1.field p i + t.r2.field p i) t.length
  let normalComp ← t.combineWaves (fun i => t.in1.field p i - t.in2.field p i) (fun i => t.r1.field p i - t.r2.field p i) t.length
  let result := t.width * ((∑ i, ‖parallelComp i‖ ^ 2) + ∑ i, ‖normalComp i‖ ^ 2) / 2
  return Real.sqrt result

end Verif.Fields
