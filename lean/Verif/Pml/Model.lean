import Verif.MaxLocal.Model
import Mathlib.Analysis.SpecialFunctions.Log.Basic

/-!
# Model of the absorbing layers of DG-Max

applications/DG-Max/PMLElementInfos.h and `createPML` of DGMaxProgramUtils.cpp. Arithmetic is exact; a division by zero is a precondition of the theorems.
-/
namespace Verif.Pml

open MaxLocal (Tensor)

/-- Material.h:46-68. -/
structure Material where
  permittivity : ℝ
  permeability : ℝ

/-- Material.h:59-61 `getRefractiveIndex`. -/
noncomputable def Material.refractiveIndex (m : Material) : ℝ := Real.sqrt (m.permittivity * m.permeability)

/-- PMLElementInfos.h:74-230: the members of the class. -/
structure Layer (dim : Nat) where
  material : Material
  offset : Fin dim → ℝ
  directions : Fin dim → ℝ
  scaling : Fin dim → ℝ

/-- PMLElementInfos.h:93-106: the constructor. -/
noncomputable def Layer.make {dim : Nat} (material : Material) (offset directions depths scaling : Fin dim → ℝ) : Layer dim :=
  ⟨material, offset, directions, fun i => scaling i / (depths i * depths i * depths i)⟩

/-- PMLElementInfos.h:194-208 `getCoordinateStretching`. The vector has always three entries. -/
noncomputable def Layer.stretching {dim : Nat} (l : Layer dim) (omega : ℝ) (point : Fin dim → ℝ) : Fin 3 → ℂ := fun i =>
  if h : i < dim then
    let xi := (point ⟨i, h⟩ - l.offset ⟨i, h⟩) * l.directions ⟨i, h⟩
    if xi > 0 then 1 + (Complex.I / omega) * l.scaling ⟨i, h⟩ * xi * xi else 1
  else 1

/-- PMLElementInfos.h:210-226 `diagonalTensor`. -/
noncomputable def Layer.diagonalTensor {dim : Nat} (l : Layer dim) (omega : ℝ) (point : Fin dim → ℝ) : Fin 3 → ℂ := fun i =>
  (List.finRange 3).foldl (fun result j => if i = j then result / l.stretching omega point j else result * l.stretching omega point j) 1

/-- PMLElementInfos.h:113-118 `getMaterialConstantDiv`. The wave number is that of the last `setDispersionWavenumber`. -/
noncomputable def Layer.div {dim : Nat} (l : Layer dim) (omega : ℝ) (point : Fin dim → ℝ) : Tensor :=
  .diag fun i => l.diagonalTensor omega point i * l.material.permittivity

/-- PMLElementInfos.h:119-124 `getMaterialConstantCurl`. -/
noncomputable def Layer.curl {dim : Nat} (l : Layer dim) (omega : ℝ) (point : Fin dim → ℝ) : Tensor :=
  .diag fun i => l.diagonalTensor omega point i * l.material.permeability

/-- PMLElementInfos.h:126-134 `getFieldRescaling`. -/
noncomputable def Layer.fieldRescaling {dim : Nat} (l : Layer dim) (omega : ℝ) (point : Fin dim → ℝ) : Tensor :=
  .diag fun i => 1 / l.stretching omega point i

/-- PMLElementInfos.h:136-156 `getCurlFieldRescaling`. -/
noncomputable def Layer.curlRescaling {dim : Nat} (l : Layer dim) (omega : ℝ) (point : Fin dim → ℝ) : Tensor :=
  .diag fun i => (List.finRange 3).foldl (fun result j => if i ≠ j then result * l.stretching omega point j else result) 1

/-- PMLElementInfos.h:233-252 `computeScaling`. A direction is a whole number here, as it is for all callers. -/
noncomputable def computeScaling {dim : Nat} (material : Material) (direction attenuation : Fin dim → ℝ) : Fin dim → ℝ := fun d =>
  if direction d = 0 then 0
  else -Real.log (attenuation d) / 2 / material.refractiveIndex * 3

/-- DGMaxProgramUtils.cpp:366-403 `createPML`: the layer for a zone with the bounds `low` and `high`. -/
noncomputable def create {dim : Nat} (material : Material) (direction attenuation low high : Fin dim → ℝ) : Layer dim :=
  let offset : Fin dim → ℝ := fun i => if direction i < 0 then high i else if direction i > 0 then low i else 0
  .make material offset direction (fun i => high i - low i) (computeScaling material direction attenuation)

end Verif.Pml
