import Mathlib.Analysis.Real.Sqrt
import Verif.KPath.Model

/-!
# The program for band structures

Models `/repo/applications/DG-Max/Programs/DGMaxEigen.cpp` without the solvers (see the topics `MaxLocal`,
`DivLocal`, `Bloch`), the writing of fields and of overlaps. `none` is an `ERROR` or an exception.
Real numbers stand for floating point numbers and are not rounded when written.
-/

namespace Verif.EigenProgram

/-! ## The stabilisation parameters -/

/-- A stabilisation parameter of `Stab`: whether the flux is `BREZZI` (else `IP`), and the value. -/
structure Param where
  /-- `fluxType == BREZZI` -/
  brezzi : Bool
  /-- `stab` -/
  value : ℚ
deriving DecidableEq, Repr

/-- DGMaxEigen.cpp:469: the characters taken as part of a number. -/
def numeric (c : Char) : Bool := c.isDigit || c = '.' || c = '-' || c = 'e'

/-- DGMaxEigen.cpp:455-464: whether the flux is `BREZZI`. -/
def fluxOf (c : Char) : Option Bool := if c = 'b' then some true else if c = 'i' then some false else none

/-- The loop of `parsePenaltyParmaters`, DGMaxEigen.cpp:453-493, with at most `n` parameters to go. Gives the
parameters and the rest of the input; `none` is `error` or an exception of `stod`. `stod t` is the number at the
start of `t`, as the length read is not looked at. -/
def terms (stod : List Char → Option ℚ) : Nat → List Char → Option (List Param × List Char)
  | 0, s => some ([], s)
  | _ + 1, [] => some ([], [])
  | n + 1, c :: s => do
    let flux ← fluxOf c
    let t := s.takeWhile numeric
    if t.length = 0 then none
    else do
      let v ← stod t
      let (ps, rest) ← terms stod n (s.dropWhile numeric)
      some (⟨flux, v⟩ :: ps, rest)

/-- `parsePenaltyParmaters`, DGMaxEigen.cpp:443-532; `input` is `none` when the option is not used. -/
def penalties (stod : List Char → Option ℚ) (input : Option (List Char)) : Option (List Param) :=
  match input with
  | none => some [⟨true, 5⟩, ⟨true, 0⟩, ⟨true, 5⟩]
  | some s => do
    let (ps, rest) ← terms stod 3 s
    if ps.length < 3 then none
    else if rest.length ≠ 0 then none
    else some ps

/-- `parseDGMaxPenaltyParameter`, DGMaxEigen.cpp:421-441; here `stod` gives the length read. -/
def penalty (stod : List Char → Option (ℚ × Nat)) (input : Option (List Char)) : Option ℚ :=
  match input with
  | none => some 100
  | some s => do
    let (v, idx) ← stod s
    if idx ≠ s.length then none else some v

/-! ## The methods -/

/-- `DGMaxEigenvalueBase::ProjectorUse`. -/
inductive Projector
  | none | initial | all
deriving DecidableEq, Repr

/-- The choices of `runWithDimension`. -/
structure Method where
  /-- `useDivDGMax` -/
  div : Bool
  /-- `useProjector` -/
  projector : Projector
  /-- `unknowns` -/
  unknowns : Nat
  /-- `numberOfElementMatrices` -/
  matrices : Nat
deriving DecidableEq, Repr

/-- `runWithDimension`, DGMaxEigen.cpp:308-337. -/
def selectMethod (m : String) : Option Method :=
  if m = "DGMAX" then some ⟨false, .none, 1, 2⟩
  else if m = "DGMAX_PROJECT" ∨ m = "DGMAX_PROJECT1" then
    some ⟨false, if m = "DGMAX_PROJECT" then .all else .initial, 2, 3⟩
  else if m = "DIVDGMAX" then some ⟨true, .none, 2, 2⟩
  else none

/-! ## The path and the table -/

open Verif.KPath (Path)

/-- `parsePath`, DGMaxEigen.cpp:400-419. `points` are the points and the steps (negative: none) of the option
`points`, `none` when it is not used; `steps` is the option `steps` and `scale` the option `lengthscale`. -/
noncomputable def path (dim : Nat) (pi scale : ℝ) (points : Option (List (Fin dim → ℝ) × Int)) (steps : Nat) :
    Path (Fin dim → ℝ) :=
  match points with
  | some (ps, n) => ⟨ps.map fun p => (pi / scale) • p, if n < 0 then 1 else n.toNat⟩
  | none => Path.cubePath dim steps pi false

/-- A row of the table. -/
structure Row (dim : Nat) where
  /-- `k index` -/
  index : Nat
  /-- `kx/2pi` and so on -/
  k : Fin dim → ℝ
  /-- `kmag/2pi` -/
  kmag : ℝ
  /-- the bands -/
  bands : List ℝ

/-- `writeFrequencies`, DGMaxEigen.cpp:234-266 (the column of zeros for `kz` in two dimensions is left out). -/
noncomputable def row (dim : Nat) (pi scale : ℝ) (p : Path (Fin dim → ℝ)) (point : Nat) (frequencies : List ℝ) :
    Option (Row dim) := do
  let k ← p.k (K := ℝ) point
  let k := scale • k
  some ⟨point + 1, fun i => k i / (2 * pi), Real.sqrt (∑ i, k i ^ 2) / (2 * pi),
    frequencies.map fun f => f / (2 * pi) * scale⟩

/-- The loop of a solver over the driver (`stop`, `getCurrentKPoint`, `handleResult`, `nextKPoint`,
DGMaxEigen.cpp:153-199) from `currentPoint_ = point` on with `left` points to go; `solve k` are the frequencies. -/
noncomputable def rows (dim : Nat) (pi scale : ℝ) (p : Path (Fin dim → ℝ)) (solve : (Fin dim → ℝ) → List ℝ) :
    Nat → Nat → Option (List (Row dim))
  | 0, _ => some []
  | left + 1, point => do
    let k ← p.k (K := ℝ) point
    let r ← row dim pi scale p point (solve k)
    let rs ← rows dim pi scale p solve left (point + 1)
    some (r :: rs)

/-- The table of a run: `stop` holds after `totalNumberOfSteps` points. -/
noncomputable def table (dim : Nat) (pi scale : ℝ) (p : Path (Fin dim → ℝ)) (solve : (Fin dim → ℝ) → List ℝ) :
    Option (List (Row dim)) := rows dim pi scale p solve p.totalNumberOfSteps 0

end Verif.EigenProgram
