import Verif.DenseMatrix.Model
import Mathlib.Analysis.SpecialFunctions.Exp
import Mathlib.Analysis.SpecialFunctions.Complex.Circle

/-!
# Phase shifts at periodic boundaries (DG-Max)

`applications/DG-Max/Utils/MatrixBlocks.{h,cpp}`, `KPhaseShift.{h,cpp}`,
`FaceKPhaseShiftBuilder.cpp`, `KPhaseShiftHelpers.h` and the use of them in
`Algorithms/DGMaxEigenvalue.cpp` and `Algorithms/DivDGMaxEigenvalue.cpp`.

A PETSc matrix is a function of two positions; `MatSetValue` with `INSERT_VALUES`
replaces one value and the assembly at the end has no further effect (all rows
written are owned by the writing process).  `double` is `ℝ`.
-/

namespace Verif.Bloch

open Verif.DenseMatrix (Mat)

/-- A vector in space, `SmallVector<DIM>`. -/
abbrev Vec (d : ℕ) := Fin d → ℝ

/-- A global matrix. -/
abbrev PMat := ℕ → ℕ → ℂ

variable {d : ℕ}

/-- `operator*` of two vectors. -/
def dot (a b : Vec d) : ℝ := ∑ i, a i * b i

/-- `MatrixBlocks.h` 49-66, 114-126.  `pair_` is set exactly if there is a second
block. -/
structure Blocks where
  rows : List ℕ
  cols : List ℕ
  block1 : Mat ℂ
  block2 : Option (Mat ℂ)

/-- `getBlockSize`, `MatrixBlocks.h` 70-72. -/
def Blocks.size (b : Blocks) : ℕ := b.rows.length * b.cols.length

/-- The copying loops of `loadBlocks`, with the offset of the destination. -/
def copyInto (off : ℕ) (src : List ℂ) (n : ℕ) (s : List ℂ) : List ℂ :=
  (List.range n).foldl (fun s i => s.set (i + off) (src.getD i 0)) s

/-- `loadBlocks`, `MatrixBlocks.h` 86-104. -/
def Blocks.load (b : Blocks) (storage : List ℂ) : List ℂ :=
  let need := (if b.block2.isSome then 2 else 1) * b.size
  let s := if storage.length < need then Mat.vecResize storage need else storage
  let s := copyInto 0 b.block1.data b.size s
  match b.block2 with
  | some m => copyInto b.size m.data b.size s
  | none => s

/-- The loops of `KPhaseShift.cpp` 61-63 and 67-69. -/
def scaleRange (off : ℕ) (c : ℂ) (n : ℕ) (s : List ℂ) : List ℂ :=
  (List.range n).foldl (fun s i => s.set (i + off) (s.getD (i + off) 0 * c)) s

/-- `MatSetValue(mat, row, col, value, INSERT_VALUES)`. -/
def PMat.insert (m : PMat) (r c : ℕ) (v : ℂ) : PMat :=
  fun r' c' => if r' = r ∧ c' = c then v else m r' c'

open Classical in
/-- `insertBlock`, `MatrixBlocks.cpp` 42-77: values that are zero are skipped. -/
noncomputable def Blocks.insertBlock (b : Blocks) (storage : List ℂ) (hermitian : Bool) (m : PMat) :
    PMat :=
  (List.range b.rows.length).foldl (fun m i =>
    (List.range b.cols.length).foldl (fun m j =>
      let row := b.rows.getD i 0
      let col := b.cols.getD j 0
      if hermitian then
        let value := storage.getD (b.size + b.cols.length * i + j) 0
        if value = 0 then m else m.insert col row value
      else
        let value := storage.getD (b.rows.length * j + i) 0
        if value = 0 then m else m.insert row col value) m) m

/-- `insertBlocks`, `MatrixBlocks.h` 107-112. -/
noncomputable def Blocks.insertBlocks (b : Blocks) (storage : List ℂ) (m : PMat) : PMat :=
  let m := b.insertBlock storage false m
  if b.block2.isSome then b.insertBlock storage true m else m

/-- `KPhaseShiftBlock`, `KPhaseShift.h` 75-95. -/
structure ShiftBlock (d : ℕ) where
  blocks : Blocks
  dx : Vec d

/-- `std::exp(std::complex<double>(0, x))`. -/
noncomputable def phase (x : ℝ) : ℂ := Complex.exp (x * Complex.I)

/-- `KPhaseShiftBlock::apply`, `KPhaseShift.cpp` 45-73.  The storage is handed from
block to block and never shrinks. -/
noncomputable def ShiftBlock.apply (b : ShiftBlock d) (k : Vec d) (s : List ℂ × PMat) :
    List ℂ × PMat :=
  let st := b.blocks.load s.1
  let n := b.blocks.size
  let st := scaleRange 0 (phase (dot k b.dx)) n st
  let st := if b.blocks.block2.isSome then scaleRange n (phase (-dot k b.dx)) n st else st
  (st, b.blocks.insertBlocks st s.2)

/-- `KPhaseShifts::apply`, `KPhaseShift.cpp` 77-96. -/
noncomputable def applyShifts (bs : List (ShiftBlock d)) (k : Vec d) (m : PMat) : PMat :=
  (bs.foldl (fun s b => b.apply k s) ([], m)).2

/-- What the builder reads of a face: the elements, `isInternal`, the type, the
difference of the positions of the face as seen from the left and from the right
element (`boundaryFaceShift`), the extra shift (zero if there is none) and the two
matrices of the extractor. -/
structure Face (d : ℕ) where
  left : ℕ
  right : ℕ
  internal : Bool
  periodic : Bool
  shift : Vec d
  extra : Vec d
  block1 : Mat ℂ
  block2 : Mat ℂ

/-- `checkMatrixSize`, `KPhaseShiftHelpers.h` 50-58. -/
def hasSize (m : Mat ℂ) (rows cols : ℕ) : Bool := m.rows == rows && m.cols == cols

/-- `facePhaseShift`, `FaceKPhaseShiftBuilder.cpp` 88-149.  `idx` gives the global
indices of an element, `owned` says which elements belong to this process. -/
def Face.phaseShift (f : Face d) (idx : ℕ → List ℕ) (owned : ℕ → Bool) : Option (ShiftBlock d) :=
  let dx := fun i => f.shift i + f.extra i
  if owned f.left then
    let subdomain := !owned f.right
    let rows := idx f.left
    let cols := idx f.right
    if hasSize f.block1 rows.length cols.length && hasSize f.block2 cols.length rows.length then
      some ⟨⟨rows, cols, f.block1, if subdomain then none else some f.block2⟩, dx⟩
    else none
  else
    let rows := idx f.right
    let cols := idx f.left
    if hasSize f.block2 rows.length cols.length && hasSize f.block1 cols.length rows.length then
      some ⟨⟨rows, cols, f.block2, none⟩, fun i => -dx i⟩
    else none

open Classical in
/-- `FaceMatrixKPhaseShiftBuilder::build`, `FaceKPhaseShiftBuilder.cpp` 45-85; `none`
is a failing `assert_always`. -/
noncomputable def build (idx : ℕ → List ℕ) (owned : ℕ → Bool) :
    List (Face d) → Option (List (ShiftBlock d))
  | [] => some []
  | f :: l =>
    if !f.internal then build idx owned l
    else if f.periodic then
      if !owned f.left && !owned f.right then build idx owned l
      else (f.phaseShift idx owned).bind fun b => (build idx owned l).map fun r => b :: r
    else if Real.sqrt (dot f.shift f.shift) > 1e-3 then
      if !owned f.left && !owned f.right then build idx owned l else none
    else build idx owned l

/-- All processes together: each builds its blocks from the faces it knows and
writes them. -/
noncomputable def applyAll {P : Type} (idx : ℕ → List ℕ) (owned : P → ℕ → Bool)
    (known : P → List (Face d)) (k : Vec d) : List P → PMat → Option PMat
  | [], m => some m
  | p :: l, m => (build idx (owned p) (known p)).bind fun bs =>
      applyAll idx owned known k l (applyShifts bs k m)

/-! ## Moving through a list of wave vectors -/

/-- The part of `SolverWorkspace` and `ShiftWorkspace` that depends on the wave
vector (`DGMaxEigenvalue.cpp` 152-176, 217-222): the matrix, `currentK_`,
`currentDK_`, and `waveVec_` given by the vector `dk` it was computed from. -/
structure Work (d : ℕ) where
  mat : PMat
  currentK : Vec d
  currentDK : Vec d

open Classical in
/-- `updateShiftVectors`, `DGMaxEigenvalue.cpp` 784-823: the vector is computed from
`dk` unless `dk` is (nearly) the one used last. -/
noncomputable def nextDK (old dk : Vec d) : Vec d :=
  if Real.sqrt (dot (fun i => dk i - old i) (fun i => dk i - old i)) < 1e-12 then old else dk

/-- `MatDiagonalScale(mat, waveVec_, waveVecConjugate_)`, `DGMaxEigenvalue.cpp`
768-772; `x` is the centre of the element of an index and `f` is `shiftFactor_`. -/
noncomputable def diagonalScale (x : ℕ → Vec d) (f : ℝ) (dk : Vec d) (m : PMat) : PMat :=
  fun r c => phase (dot dk (x r) * f) * m r c * (starRingEnd ℂ) (phase (dot dk (x c) * f))

open Classical in
/-- `updateKPoint` for the stiffness matrix, `DGMaxEigenvalue.cpp` 600-624, on all
processes. -/
noncomputable def Work.update {P : Type} (idx : ℕ → List ℕ) (owned : P → ℕ → Bool)
    (known : P → List (Face d)) (procs : List P) (x : ℕ → Vec d) (f : ℝ) (w : Work d)
    (k : Vec d) : Option (Work d) :=
  if f ≠ 0 then
    let dk := nextDK w.currentDK (fun i => k i - w.currentK i)
    (applyAll idx owned known k procs (diagonalScale x f dk w.mat)).map fun m => ⟨m, k, dk⟩
  else (applyAll idx owned known k procs w.mat).map fun m => ⟨m, k, w.currentDK⟩

end Verif.Bloch
