import Mathlib.Data.List.Sort

/-!
# Model of the local indices of elements and faces

kernel/Utilities/ElementLocalIndexing.{h,cpp} and FaceLocalIndexing.{h,cpp}. An element is
represented by what the code asks of it, its number of basis functions per unknown; a null pointer
is `none`. `std::size_t` sums that stay in range are `Nat`; the one sum that can wrap is taken
modulo `2 ^ 64`.
-/
namespace Verif.LocalIndexing

/-- ElementLocalIndexing.cpp:45-46 -/
def UNKNOWN_NOT_INCLUDED : Nat := 2 ^ 64 - 1

/-- `Element::getNumberOfBasisFunctions(unknown)`. -/
abbrev Elem := Nat → Nat

/-- ElementLocalIndexing.h:145-156 -/
structure ELI where
  element : Option Elem
  offsets : List Nat
  sizes : List Nat
  included : List Nat

namespace ELI

/-- ElementLocalIndexing.cpp:48-49 -/
def init : ELI := ⟨none, [], [], []⟩

/-- ElementLocalIndexing.cpp:103-106 `clearUnknownVectors`. -/
def clear (s : ELI) : ELI :=
  { s with offsets := s.offsets.map fun _ => UNKNOWN_NOT_INCLUDED, sizes := s.sizes.map fun _ => 0 }

/-- ElementLocalIndexing.cpp:86-91, the loop over the included unknowns. -/
def loop (e : Elem) : List Nat → Nat → List Nat → List Nat → List Nat × List Nat
  | [], _, offsets, sizes => (offsets, sizes)
  | u :: l, total, offsets, sizes => loop e l (total + e u) (offsets.set u total) (sizes.set u (e u))

/-- ElementLocalIndexing.cpp:80-93 `reinit(element)`. -/
def reinitElement (s : ELI) : Option Elem → ELI
  | none => clear { s with element := none }
  | some e =>
    let r := loop e s.included 0 s.offsets s.sizes
    { s with element := some e, offsets := r.1, sizes := r.2 }

/-- `std::vector::resize(n, v)` for growing. -/
def extend (l : List Nat) (n v : Nat) : List Nat := l ++ List.replicate (n - l.length) v

/-- ElementLocalIndexing.cpp:51-78 `reinit(includedUnknowns)`. -/
def reinitUnknowns (s : ELI) (unknowns : List Nat) : ELI :=
  let inc := unknowns.mergeSort (fun a b => decide (a ≤ b))
  let s := { s with included := inc }
  let s := match inc.getLast? with
    | none => s
    | some m =>
      if m ≥ s.sizes.length then
        { s with sizes := extend s.sizes (m + 1) 0,
                 offsets := extend s.offsets (m + 1) UNKNOWN_NOT_INCLUDED }
      else s
  match s.element with
  | none => s
  | some e => (clear s).reinitElement (some e)

/-- ElementLocalIndexing.h:91-96 -/
def getDoFOffset (s : ELI) (unknown : Nat) : Nat :=
  if unknown ≥ s.offsets.length then UNKNOWN_NOT_INCLUDED
  else s.offsets.getD unknown UNKNOWN_NOT_INCLUDED

/-- ElementLocalIndexing.h:100-106 -/
def getNumberOfDoFs (s : ELI) (unknown : Nat) : Nat :=
  if unknown ≥ s.sizes.length then 0 else s.sizes.getD unknown 0

/-- ElementLocalIndexing.h:109-115 -/
def total (s : ELI) : Nat := s.included.foldl (fun t u => t + s.sizes.getD u 0) 0

/-- ElementLocalIndexing.h:131-138 -/
def createFullIndexing (numberOfUnknowns : Nat) : ELI :=
  init.reinitUnknowns (List.range numberOfUnknowns)

end ELI

/-- One call on an `ElementLocalIndexing`; `reinit(element, unknowns)` (h:81-85) is two of them. -/
inductive Op where
  | unknowns (l : List Nat)
  | element (e : Option Elem)

/-- A sequence of calls, oldest first. -/
def run (h : List Op) : ELI :=
  h.foldl (fun s op => match op with
    | .unknowns l => s.reinitUnknowns l
    | .element e => s.reinitElement e) ELI.init

/-- kernel/Base/Side.h -/
inductive Side where
  | left
  | right
deriving DecidableEq

/-- A face: its left element and, if internal, its right element. -/
structure Face where
  left : Elem
  right : Option Elem

/-- FaceLocalIndexing.h:154-160. The face pointer itself is only handed out again. -/
structure FLI where
  left : ELI
  right : ELI

namespace FLI

/-- FaceLocalIndexing.cpp:45 -/
def init : FLI := ⟨ELI.init, ELI.init⟩

/-- FaceLocalIndexing.cpp:47-51 -/
def reinitUnknowns (s : FLI) (l : List Nat) : FLI :=
  ⟨s.left.reinitUnknowns l, s.right.reinitUnknowns l⟩

/-- FaceLocalIndexing.cpp:53-57; a null pointer is dereferenced, `none`. -/
def reinitFace (s : FLI) : Option Face → Option FLI
  | none => none
  | some f => some ⟨s.left.reinitElement (some f.left), s.right.reinitElement f.right⟩

/-- FaceLocalIndexing.h:74-86. The sum for the right side is taken modulo `2 ^ 64`. -/
def getDoFOffset (s : FLI) (unknown : Nat) : Side → Nat
  | .left => s.left.getDoFOffset unknown
  | .right => (s.left.total + s.right.getDoFOffset unknown) % 2 ^ 64

/-- FaceLocalIndexing.h:93-103 -/
def getNumberOfDoFs (s : FLI) (unknown : Nat) : Side → Nat
  | .left => s.left.getNumberOfDoFs unknown
  | .right => s.right.getNumberOfDoFs unknown

/-- FaceLocalIndexing.h:112-130 -/
def getDoFMapping (s : FLI) (unknown : Nat) : List Nat :=
  let left := List.range' (s.getDoFOffset unknown .left) (s.getNumberOfDoFs unknown .left)
  if s.right.element.isNone then left
  else left ++ List.range' (s.getDoFOffset unknown .right) (s.getNumberOfDoFs unknown .right)

/-- FaceLocalIndexing.h:133-135 -/
def total (s : FLI) : Nat := s.left.total + s.right.total

/-- FaceLocalIndexing.h:138-144 -/
def sideTotal (s : FLI) : Side → Nat
  | .left => s.left.total
  | .right => s.right.total

end FLI

/-- One call on a `FaceLocalIndexing`. -/
inductive FOp where
  | unknowns (l : List Nat)
  | face (f : Option Face)

/-- A sequence of calls; `none` if a null pointer was dereferenced. -/
def runFace (h : List FOp) : Option FLI :=
  h.foldlM (fun s op => match op with
    | .unknowns l => some (s.reinitUnknowns l)
    | .face f => s.reinitFace f) FLI.init

end Verif.LocalIndexing
