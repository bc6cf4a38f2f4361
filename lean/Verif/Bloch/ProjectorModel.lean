import Verif.Bloch.Model
import Mathlib.LinearAlgebra.Matrix.NonsingularInverse
import Mathlib.Analysis.SpecialFunctions.Log.Basic

/-!
# The projector of the eigenvalue solver (DG-Max)

`applications/DG-Max/Utils/CGDGMatrixKPhaseShiftBuilder.cpp`, the class
`ProjectorWorkspace` of `Algorithms/DGMaxEigenvalue.cpp` and the comparison
functions of that file.
-/

namespace Verif.Bloch

open Verif.DenseMatrix (Mat)

variable {d : ℕ}

/-- An element on which the functions of an entity do not vanish: the place of the
entity as seen from it (`getCoordinate`), the global indices of its field
functions, its matrix, the offset of the functions of the entity in the matrix
and the extra shift (zero if there is none). -/
structure Support (d : ℕ) where
  coord : Vec d
  cols : List ℕ
  mat : Mat ℂ
  offset : ℕ
  extra : Vec d

/-- A node, edge or face on the periodic boundary: the global indices of its
functions, its place as seen from the owning element and the elements visited
(`getElements`, for a face only the right element). -/
structure Entity (d : ℕ) where
  rows : List ℕ
  own : Vec d
  supports : List (Support d)

/-- The copying loops, `CGDGMatrixKPhaseShiftBuilder.cpp` 190-201. -/
def subMatrix (m : Mat ℂ) (offset n c : ℕ) : Mat ℂ :=
  ⟨n, c, (List.range c).flatMap fun j => (List.range n).map fun i => m.get (i + offset) j⟩

open Classical in
/-- `addElementPhaseShift`, `CGDGMatrixKPhaseShiftBuilder.cpp` 154-216. -/
noncomputable def Entity.addElement (e : Entity d) (s : Support d) : List (ShiftBlock d) :=
  let dx : Vec d := fun i => e.own i - s.coord i
  if Real.sqrt (dot dx dx) > 1e-12 then
    if e.rows.length = 0 then []
    else [⟨⟨e.rows, s.cols, subMatrix s.mat s.offset e.rows.length s.cols.length, none⟩,
      fun i => dx i - s.extra i⟩]
  else []

/-- `CGDGMatrixKPhaseShiftBuilder::build`, lines 44-102, for the entities that were
found: each is handled by the process that owns it. -/
noncomputable def buildProjector (es : List (Entity d)) : List (ShiftBlock d) :=
  es.flatMap fun e => e.supports.flatMap e.addElement

/-- `applyToProjector`, `DGMaxEigenvalue.cpp` 775-779. -/
noncomputable def scaleColumns (x : ℕ → Vec d) (f : ℝ) (dk : Vec d) (m : PMat) : PMat :=
  fun r c => m r c * (starRingEnd ℂ) (phase (dot dk (x c) * f))

open Classical in
/-- `updateKPoint` for the matrix of the projector, `DGMaxEigenvalue.cpp` 600-624 and
950. -/
noncomputable def Work.updateProjector (bs : List (ShiftBlock d)) (x : ℕ → Vec d) (f : ℝ)
    (w : Work d) (k : Vec d) : Work d :=
  if f ≠ 0 then
    let dk := nextDK w.currentDK (fun i => k i - w.currentK i)
    ⟨applyShifts bs k (scaleColumns x f dk w.mat), k, dk⟩
  else ⟨applyShifts bs k w.mat, k, w.currentDK⟩

open Matrix in
/-- `projectionStiffness_`, `DGMaxEigenvalue.cpp` 966-978; `minv` is the stored mass
matrix, absent in the Hermitian case. -/
noncomputable def projectionStiffness {p n : Type} [Fintype n] (B : Matrix p n ℂ)
    (minv : Option (Matrix n n ℂ)) : Matrix p p ℂ :=
  match minv with
  | none => B * Bᴴ
  | some N => B * N * Bᴴ

open Matrix in
/-- `project`, `DGMaxEigenvalue.cpp` 876-944; the direct solver is taken to be exact. -/
noncomputable def project {p n : Type} [Fintype p] [Fintype n] [DecidableEq p] (B : Matrix p n ℂ)
    (minv : Option (Matrix n n ℂ)) (u : n → ℂ) : n → ℂ :=
  let t := B *ᵥ u
  let t := (projectionStiffness B minv)⁻¹ *ᵥ t
  let t := (-1 : ℂ) • t
  let v := match minv with
    | none => Bᴴ *ᵥ t
    | some N => N *ᵥ (Bᴴ *ᵥ t)
  u + v

open Classical in
/-- `compareEigen`, `DGMaxEigenvalue.cpp` 444-483. -/
noncomputable def compareEigen (ar ai br bi : ℂ) (ctx : ℝ) : ℤ :=
  let target := 2 * Real.log ctx
  let res1 := ‖ar‖ + ‖ai‖
  let res2 := ‖br‖ + ‖bi‖
  if res1 ≤ 0 ∧ res2 > 0 then 1
  else if res1 > 0 ∧ res2 ≤ 0 then -1
  else if res1 ≤ 0 ∧ res2 ≤ 0 then
    if res1 < res2 then -1 else if res2 < res1 then 1 else 0
  else
    let l1 := |Real.log res1 - target|
    let l2 := |Real.log res2 - target|
    if l1 < l2 then -1 else if l2 < l1 then 1 else 0

open Classical in
/-- The comparison in `extractEigenVectors`, `DGMaxEigenvalue.cpp` 586-597. -/
noncomputable def eigenBefore (ev : ℕ → ℂ) (i1 i2 : ℕ) : Bool :=
  if (ev i1).re ≠ (ev i2).re then decide ((ev i1).re < (ev i2).re)
  else if (ev i1).im ≠ (ev i2).im then decide ((ev i1).im < (ev i2).im)
  else decide (i1 < i2)

end Verif.Bloch
