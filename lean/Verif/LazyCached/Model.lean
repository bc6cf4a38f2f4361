import Mathlib.Data.List.Basic

/-!
# Model of the lazily computed caches

kernel/Base/LazyCached.h. `S` is whatever the stored computation reads (the world outside the
cache), `T` the cached type. The computation updates the old value in place, so it is a function
from the source, the index and the old value to the new value. The number of times it ran is kept
as a ghost counter per index.
-/
namespace Verif.LazyCached

variable {S T : Type}

/-- LazyCached.h:100-103: flag and value. -/
structure Cell (T : Type) where
  hasValue : Bool
  value : T

/-- LazyCached.h:83-89 and 150-160: read one cell. The second component tells whether the
computation ran. -/
def Cell.get (compute : T → T) (c : Cell T) : Cell T × Bool :=
  if c.hasValue then (c, false) else (⟨true, compute c.value⟩, true)

/-- LazyCached.h:92 and 167: forget that there is a value, keeping the old one in place. -/
def Cell.reset (c : Cell T) : Cell T := { c with hasValue := false }

/-- What can happen: a read of the cache, the two kinds of reset, a change of the source. The single
`LazyCached` is the case of one cell (index 0, no resizing). -/
inductive Op (S : Type) where
  | read (index : Nat)
  | reset
  | resize (newSize : Nat)
  | change (source : S)

/-- A cache with its source; `runs i` counts the computations for index `i`. -/
structure State (S T : Type) where
  source : S
  values : List (Cell T)
  runs : Nat → Nat

/-- One operation; `none` for a read outside the cache (LazyCached.h:151, an assertion).
LazyCached.h:165-168 `reset`, 176-182 `reset(newSize)`. -/
def step (compute : S → Nat → T → T) (dflt : T) (s : State S T) : Op S → Option (State S T × Option T)
  | .read i =>
    match s.values[i]? with
    | none => none
    | some c =>
      let (c', ran) := c.get (compute s.source i)
      some ({ s with
        values := s.values.set i c'
        runs := fun j => if j = i ∧ ran = true then s.runs j + 1 else s.runs j }, some c'.value)
  | .reset => some ({ s with values := s.values.map Cell.reset }, none)
  | .resize n =>
    let v := s.values.map Cell.reset
    some ({ s with values := v.take n ++ List.replicate (n - v.length) ⟨false, dflt⟩ }, none)
  | .change src => some ({ s with source := src }, none)

/-- A sequence of operations, giving the final state. -/
def run (compute : S → Nat → T → T) (dflt : T) (s : State S T) (ops : List (Op S)) :
    Option (State S T) :=
  ops.foldlM (fun s op => (step compute dflt s op).map Prod.fst) s

/-- LazyCached.h:136-137 (and 68-69 with one cell): a new cache. -/
def init (source : S) (dflt : T) (size : Nat) : State S T :=
  ⟨source, List.replicate size ⟨false, dflt⟩, fun _ => 0⟩

end Verif.LazyCached
