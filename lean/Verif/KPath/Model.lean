import Mathlib.Algebra.Module.Basic
import Mathlib.Algebra.Field.Defs
import Verif.CommandLine.Model

/-! # Points on the command line and paths of wave vectors

Models `kernel/Base/CommandLineHelpers.h`, `parsePath` of `applications/DG-Max/DGMaxProgramUtils.cpp`,
`parseTranslations` of `applications/Preprocessor/main.cpp` and `applications/DG-Max/Utils/KSpacePath.cpp`. `none`
is an abort, an exception or undefined behaviour. -/
namespace Verif.KPath
open Verif.CommandLine (Str isSpace digit)

/-! ## Parsing -/

/-- `std::stod(text, &len)`: an arbitrary function that gives the number and the length read, `none` for an
exception. -/
abbrev Stod (R : Type) := Str → Option (R × Nat)

/-- `std::stoul(text, &len)`: white space, a sign and digits; exceptions without digits and out of range. -/
def stoul (s : Str) : Option (Nat × Nat) :=
  let ws := s.takeWhile isSpace
  let t := s.dropWhile isSpace
  let signed := t.head? == some '-' || t.head? == some '+'
  let u := if signed then t.tail else t
  let digits := u.takeWhile Char.isDigit
  let n := digits.foldl (fun a c => 10 * a + digit c) 0
  if digits = [] ∨ n ≥ 2 ^ 64 then none
  else some (if t.head? = some '-' then (2 ^ 64 - n) % 2 ^ 64 else n,
    ws.length + (if signed then 1 else 0) + digits.length)

variable {R : Type}

/-- The loop of `parsePoint` (CommandLineHelpers.h:56-81) with `k` coordinates to go. -/
def coordinates (stod : Stod R) (s : Str) : Nat → Nat → Option (List R × Nat)
  | 0, start => some ([], start)
  | k + 1, start =>
    if ¬ start < s.length then none
    else do
      let (x, len) ← stod (s.drop start)
      let start := start + len
      if k = 0 then some ([x], start)
      else if ¬ start < s.length then none
      else if s[start]? ≠ some ',' then none
      else do
        let (xs, stop) ← coordinates stod s k (start + 1)
        some (x :: xs, stop)

/-- `parsePoint` (CommandLineHelpers.h:54-83). -/
def parsePoint (stod : Stod R) (dim : Nat) (s : Str) (start : Nat) : Option (List R × Nat) := coordinates stod s dim start

/-- A character that may stand between points (DGMaxProgramUtils.cpp:111-116). -/
def isSeparator (c : Char) : Bool := isSpace c || c = ':'

/-- DGMaxProgramUtils.cpp:111-118. -/
def skipSeparators (s : Str) (index : Nat) : Nat := index + ((s.drop index).takeWhile isSeparator).length

/-- The loop of `parsePath` (DGMaxProgramUtils.cpp:106-119). -/
def pathLoop (stod : Stod R) (dim : Nat) (s : Str) (index : Nat) : Option (List (List R)) :=
  if index < s.length then
    do
      let (p, stop) ← parsePoint stod dim s index
      let ps ← pathLoop stod dim s (skipSeparators s stop)
      some (p :: ps)
  else some []
partial_fixpoint

/-- `int steps = n` for an `unsigned long` n. -/
def toInt (n : Nat) : Int := Int.bmod n (2 ^ 32)

/-- `parsePath` (DGMaxProgramUtils.cpp:87-121): the points and the number of steps. -/
def parsePath (stod : Stod R) (dim : Nat) (s : Str) : Option (List (List R) × Int) :=
  match s.findIdx? (· == '@') with
  | none => do
    let ps ← pathLoop stod dim s 0
    some (ps, -1)
  | some atIndex => do
    let (n, len) ← stoul s
    if len ≠ atIndex then none
    else do
      let ps ← pathLoop stod dim s (atIndex + 1)
      some (ps, toInt n)

/-- Preprocessor/main.cpp:210-216. -/
def skipSemicolon (s : Str) (stop : Nat) : Option Nat :=
  if stop < s.length then (if s[stop]? = some ';' then some (stop + 1) else none) else some stop

/-- The loop of `parseTranslations` (Preprocessor/main.cpp:205-217). -/
def translationLoop (stod : Stod R) (dim : Nat) (s : Str) (index : Nat) : Option (List (List R)) :=
  if index < s.length then
    do
      let (p, stop) ← parsePoint stod dim s index
      let next ← skipSemicolon s stop
      let ps ← translationLoop stod dim s next
      some (p :: ps)
  else some []
partial_fixpoint

/-- `parseTranslations` (Preprocessor/main.cpp:198-219) for a used option. -/
def parseTranslations (stod : Stod R) (dim : Nat) (s : Str) : Option (List (List R)) := translationLoop stod dim s 0

/-! ## Paths -/

/-- `KSpacePath` (KSpacePath.h:57-59). -/
structure Path (E : Type) where
  points : List E
  steps : Nat

variable {E : Type}

/-- KSpacePath.cpp:12-15, with the wrap around of `points_.size() - 1`. -/
def Path.totalNumberOfSteps (p : Path E) : Nat :=
  (1 + (if p.points.length = 0 then 2 ^ 64 - 1 else p.points.length - 1) * p.steps) % 2 ^ 64

/-- `KSpacePath::k` (KSpacePath.cpp:17-31). -/
def Path.k {K : Type} [Field K] [AddCommGroup E] [Module K E] (p : Path E) (index : Nat) : Option E :=
  if p.steps = 0 then none
  else if index % p.steps = 0 then p.points[index / p.steps]?
  else do
    let pointOffset := index / p.steps
    let stepOffset := index % p.steps
    let alpha : K := 1 * stepOffset / p.steps
    let a ← p.points[pointOffset + 1]?
    let b ← p.points[pointOffset]?
    some (alpha • a + (1 - alpha) • b)

/-- `KSpacePath::dk` (KSpacePath.cpp:33-45). -/
def Path.dk {K : Type} [Field K] [AddCommGroup E] [Module K E] (p : Path E) (index : Nat) : Option E :=
  if index = 0 then p.points[0]?
  else if p.steps = 0 then none
  else do
    let pointOffset := (index - 1) / p.steps
    let a ← p.points[pointOffset + 1]?
    let b ← p.points[pointOffset]?
    some ((p.steps : K)⁻¹ • (a - b))

/-- `KSpacePath::dkDidChange` (KSpacePath.cpp:47-56). -/
def Path.dkDidChange (p : Path E) (index : Nat) : Option Bool :=
  if index < p.totalNumberOfSteps then
    if index = 0 then some true else if p.steps = 0 then none else some ((index - 1) % p.steps == 0)
  else none

/-- `KSpacePath::singleStepPath` (KSpacePath.cpp:70-76). -/
def Path.singleStepPath (point : E) : Path E := ⟨[point], 1⟩

/-- `KSpacePath::cubePath` (KSpacePath.cpp:79-103) for `DIM = 2, 3`; `pi` is `M_PI`. -/
def Path.cubePath {K : Type} [Field K] (dim steps : Nat) (pi : K) (back : Bool) : Path (Fin dim → K) :=
  ⟨(List.range (dim + 1)).map (fun n => fun i => if i.1 < n then pi else 0) ++ (if back then [fun _ => 0] else []), steps⟩

end Verif.KPath
