import Mathlib.Logic.Function.Basic

/-!
# C63: evaluation without stored values

What a user of a quadrature rule asks for: the value of a basis function at a quadrature point. Here every request is
answered by evaluating the function; nothing is stored between requests.
-/
namespace Verif.EvalCache

/-- What is asked for: values, vector values, gradients, curls in three and two dimensions, divergences. -/
inductive Kind
  | value | vector | grad | curl3 | curl2 | div
  deriving DecidableEq

/-- A quadrature rule: the dimension of its shape and its points. -/
structure Rule (P : Type) where
  dim : Nat
  points : List P

/-- What does not change while a program runs: the quadrature rules; how a basis function is evaluated at a point; the
maps between shapes (by their addresses), of the shapes to themselves and of faces into elements. -/
structure Prog (P φ V : Type) where
  rules : Nat → Rule P
  ev : Kind → φ → P → V
  self : Nat → P → P
  face : Nat → Option (P → P)

/-- What a program does: create a set of basis functions at an address that is not in use, add a function to a set, destroy
a set, create and destroy compositions of a map of the face to itself with a map into the element, ask the rule `r` for the
`i`-th function of the set at `a` at the point `q` of the rule (of an element), or at the image of that point (of a face). -/
inductive Op (φ : Type)
  | newSet (a : Nat)
  | addFunction (a : Nat) (f : φ)
  | destroySet (a : Nat)
  | newConcat (p m0 m1 : Nat)
  | destroyConcat (p : Nat)
  | eval (r : Nat) (k : Kind) (a i q : Nat)
  | evalFace (r : Nat) (k : Kind) (a i q p : Nat)

/-- The dimensions of elements for which a quantity exists. -/
def defined : Kind → Nat → Prop
  | .value, n | .grad, n => 1 ≤ n ∧ n ≤ 4
  | .vector, _ => True
  | .curl3, n => n = 3
  | .curl2, n => n = 2
  | .div, n => 2 ≤ n ∧ n ≤ 4

instance (k : Kind) (n : Nat) : Decidable (defined k n) := by
  cases k <;> unfold defined <;> infer_instance

/-- The sets of basis functions and the compositions of maps there are, by their addresses. -/
structure Objects (φ : Type) where
  sets : Nat → Option (List φ)
  concats : Nat → Option (Nat × Nat)

variable {P φ V : Type} (g : Prog P φ V)

/-- The map into the element at an address. -/
def Objects.map (o : Objects φ) (p : Nat) : Option (P → P) :=
  match o.concats p with
  | some (m0, m1) => (g.face m1).map (· ∘ g.self m0)
  | none => g.face p

/-- One action: the objects after it and the value it returns. `none` if the action is not possible: no object at the
address, the address in use, no such function or point, the quantity does not exist in this dimension. Compositions are of
maps that exist throughout. -/
def Objects.act (o : Objects φ) : Op φ → Option (Objects φ × Option V)
  | .newSet a => if (o.sets a).isNone then some ({ o with sets := Function.update o.sets a (some []) }, none) else none
  | .addFunction a f =>
    (o.sets a).bind fun s => some ({ o with sets := Function.update o.sets a (some (s ++ [f])) }, none)
  | .destroySet a => (o.sets a).bind fun _ => some ({ o with sets := Function.update o.sets a none }, none)
  | .newConcat p m0 m1 =>
    if (o.concats p).isNone ∧ (g.face p).isNone ∧ (g.face m1).isSome then
      some ({ o with concats := Function.update o.concats p (some (m0, m1)) }, none)
    else none
  | .destroyConcat p =>
    (o.concats p).bind fun _ => some ({ o with concats := Function.update o.concats p none }, none)
  | .eval r k a i q =>
    (o.sets a).bind fun s => (s[i]?).bind fun f => ((g.rules r).points[q]?).bind fun x =>
      if defined k (g.rules r).dim then some (o, some (g.ev k f x)) else none
  | .evalFace r k a i q p =>
    (o.sets a).bind fun s => (s[i]?).bind fun f => ((g.rules r).points[q]?).bind fun x => (o.map g p).bind fun m =>
      if defined k ((g.rules r).dim + 1) then some (o, some (g.ev k f (m x))) else none

/-- The values returned by a sequence of actions, up to the first that is not possible (then the second entry is false). -/
def Objects.answers (o : Objects φ) : List (Op φ) → List (Option V) × Bool
  | [] => ([], true)
  | a :: l =>
    match o.act g a with
    | none => ([], false)
    | some (o, v) => let r := o.answers l; (v :: r.1, r.2)

/-- The start of a program. -/
def Objects.empty : Objects φ := ⟨fun _ => none, fun _ => none⟩

end Verif.EvalCache
