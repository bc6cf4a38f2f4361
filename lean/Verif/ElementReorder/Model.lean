import Mathlib.Data.List.Basic

/-!
# Model of the node reordering of mesh file elements

applications/Preprocessor/lib/ElementReorder.{h,cpp} and the types registered by gmsh.cpp. An
out-of-range access and a failed `assert_always` both give `none`; names of types are left out
(nothing depends on them).
-/
namespace Verif.ElementReorder

/-- ElementReorder.h:58-77 `Element` (without the name). -/
structure ElementType where
  dimension : Nat
  order : List Nat
  deriving DecidableEq

/-- `orderPerElement_` -/
abbrev Registry := List ElementType

/-- `std::adjacent_difference`, in unsigned arithmetic on a sorted list. -/
def adjacentDifference : Nat → List Nat → List Nat
  | _, [] => []
  | p, x :: l => (x - p) :: adjacentDifference x l

/-- ElementReorder.cpp:101-110 `checkOrder`. `order[0]` of an empty order is undefined behaviour, which
is counted as rejection. The sum is a natural number here (an `int` in the code). -/
def checkOrder (order : List Nat) : Bool :=
  match adjacentDifference 0 (order.mergeSort) with
  | [] => false
  | d :: ds => d == 0 && (d :: ds).sum == order.length - 1

/-- ElementReorder.cpp:48-52, 62-66: first type with this dimension and number of nodes. -/
def lookup (reg : Registry) (dimension size : Nat) : Option ElementType :=
  reg.find? fun e => e.dimension == dimension && e.order.length == size

/-- ElementReorder.cpp:60-77 `addElementType` -/
def addElementType (reg : Registry) (dimension : Nat) (order : List Nat) : Option Registry :=
  if (lookup reg dimension order.length).isSome then none
  else if checkOrder order then some (reg ++ [⟨dimension, order⟩])
  else none

/-- A sequence of registrations on a new object. -/
def register (types : List ElementType) : Option Registry :=
  types.foldlM (fun reg t => addElementType reg t.dimension t.order) []

/-- ElementReorder.cpp:79-88 `reorderToHpGem` -/
def reorderToHpGem (reg : Registry) (dimension : Nat) (indices : List Nat) : Option (List Nat) := do
  let e ← lookup reg dimension indices.length
  (List.range indices.length).mapM fun i => do
    let o ← e.order[i]?
    indices[o]?

/-- ElementReorder.cpp:96-98, one round of the loop: `indeces[e.order_[i]] = copy[i]`. -/
def fromStep (order copy : List Nat) (acc : List Nat) (i : Nat) : Option (List Nat) := do
  let o ← order[i]?
  let v ← copy[i]?
  if o < acc.length then some (acc.set o v) else none

/-- ElementReorder.cpp:90-99 `reorderFromHpGem` -/
def reorderFromHpGem (reg : Registry) (dimension : Nat) (indices : List Nat) : Option (List Nat) := do
  let e ← lookup reg dimension indices.length
  (List.range indices.length).foldlM (fromStep e.order indices) indices

/-- gmsh.cpp:311-330, the types registered by the reader. -/
def gmshTypes : List ElementType :=
  [⟨0, [0]⟩, ⟨1, [0, 1]⟩, ⟨1, [0, 2, 1]⟩, ⟨2, [0, 1, 2]⟩, ⟨2, [0, 3, 1, 5, 4, 2]⟩, ⟨2, [0, 1, 3, 2]⟩,
    ⟨3, [4, 1, 2, 0, 3]⟩, ⟨3, [4, 5, 0, 1, 7, 6, 3, 2]⟩, ⟨3, [0, 2, 1, 3, 5, 4]⟩,
    ⟨3, [0, 4, 1, 6, 5, 2, 7, 9, 8, 3]⟩]

end Verif.ElementReorder
