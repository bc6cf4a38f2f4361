import Verif.EvalCache.Spec
import Mathlib.Logic.Function.Basic

/-!
# C63: basis functions evaluated by quadrature rules

Model of kernel/Integration/QuadratureRules/GaussQuadratureRule.{h,cpp}, with the parts of kernel/FE/BasisFunctionSet.{h,cpp}
and kernel/Geometry/Mappings/ConcatenatedMapping.h it uses.

Simplifications: pointers are numbers; values of all quantities are of one type; `std::map` is a function with optional
values; the const references returned by `evalGrad` are copied at once; the switched off logger warnings are not modelled;
quadrature rules are never destroyed (they are singletons); messages at level ERROR and failing assertions stop (`none`).
-/
namespace Verif.EvalCache

/-- `faceMapContainer`, GaussQuadratureRule.h 61-75, 94-109: the address of a map, or the two addresses a composition refers to. -/
inductive Key
  | direct (p : Nat)
  | indirect (m0 m1 : Nat)
  deriving DecidableEq

/-- `faceMapContainer::operator<`, GaussQuadratureRule.h 77-91, with the lexicographic order of `std::pair`. -/
def Key.lt : Key → Key → Bool
  | .direct _, .indirect _ _ => true
  | .direct p, .direct p' => decide (p < p')
  | .indirect m0 m1, .indirect m0' m1' => decide (m0 < m0') || (decide (m0 = m0') && decide (m1 < m1'))
  | .indirect _ _, .direct _ => false

/-- Values by point and by function, `std::vector<std::vector<...>>`. -/
abbrev Table (V : Type) := List (List V)

/-- A `BasisFunctionSet`, BasisFunctionSet.h 128-133: the functions and the rules captured by its listeners (the set a
listener captures is the one it is registered with). -/
structure SetObj (φ : Type) where
  functions : List φ
  listeners : List Nat

/-- The memory: sets and compositions by address (a composition has the addresses of its submaps), and for each rule the
twelve maps of stored values, GaussQuadratureRule.h 216-266. -/
structure State (φ V : Type) where
  sets : Nat → Option (SetObj φ)
  concats : Nat → Option (Nat × Nat)
  stored : Nat → Kind → Nat → Option (Table V)
  faceStored : Nat → Kind → Nat → Option (Key → Option (Table V))

/-- Memory at the start. -/
def State.init {φ V : Type} : State φ V := ⟨fun _ => none, fun _ => none, fun _ _ _ => none, fun _ _ _ => none⟩

variable {P φ V : Type} (g : Prog P φ V)

/-- `GaussQuadratureRule::unregisterBasisFunctionSet`, GaussQuadratureRule.h 141-154: erases the set from all twelve maps. -/
def State.unregister (s : State φ V) (r a : Nat) : State φ V :=
  { s with
    stored := fun r' k a' => if r' = r ∧ a' = a then none else s.stored r' k a'
    faceStored := fun r' k a' => if r' = r ∧ a' = a then none else s.faceStored r' k a' }

/-- Calls of the listeners of a set, BasisFunctionSet.cpp 55-57, 67-69. -/
def State.call (s : State φ V) (a : Nat) (listeners : List Nat) : State φ V :=
  listeners.foldl (fun s r => s.unregister r a) s

/-- `BasisFunctionSet::BasisFunctionSet`, BasisFunctionSet.cpp 48, at an address given by the allocator. -/
def State.newSet (s : State φ V) (a : Nat) : Option (State φ V) :=
  if (s.sets a).isNone then some { s with sets := Function.update s.sets a (some ⟨[], []⟩) } else none

/-- `BasisFunctionSet::addBasisFunction`, BasisFunctionSet.cpp 64-70: the listeners stay registered. -/
def State.addFunction (s : State φ V) (a : Nat) (f : φ) : Option (State φ V) :=
  (s.sets a).bind fun o =>
    some (State.call { s with sets := Function.update s.sets a (some ⟨o.functions ++ [f], o.listeners⟩) } a o.listeners)

/-- `BasisFunctionSet::~BasisFunctionSet`, BasisFunctionSet.cpp 50-58. -/
def State.destroySet (s : State φ V) (a : Nat) : Option (State φ V) :=
  (s.sets a).bind fun o => some ({ s.call a o.listeners with sets := Function.update s.sets a none })

/-- `BasisFunctionSet::registerDestructorListener`, BasisFunctionSet.h 124-126. -/
def State.register (s : State φ V) (a r : Nat) : State φ V :=
  { s with sets := Function.update s.sets a ((s.sets a).map fun o => ⟨o.functions, o.listeners ++ [r]⟩) }

/-- Constructor of `ConcatenatedMapping`, ConcatenatedMapping.h 67-69. The submaps are maps of reference shapes, which are never
destroyed; the new object is at an address not in use. -/
def State.newConcat (s : State φ V) (p m0 m1 : Nat) : Option (State φ V) :=
  if (s.concats p).isNone ∧ (g.face p).isNone ∧ (g.face m1).isSome then
    some { s with concats := Function.update s.concats p (some (m0, m1)) }
  else none

/-- Destructor of `ConcatenatedMapping`. -/
def State.destroyConcat (s : State φ V) (p : Nat) : Option (State φ V) :=
  (s.concats p).bind fun _ => some { s with concats := Function.update s.concats p none }

/-- Constructor of `faceMapContainer`, GaussQuadratureRule.h 63-75; `typeid(*map)` needs an object. -/
def State.key (s : State φ V) (p : Nat) : Option Key :=
  match s.concats p with
  | some (m0, m1) => some (.indirect m0 m1)
  | none => if (g.face p).isSome then some (.direct p) else none

/-- `map->transform`; `ConcatenatedMapping::transform`, ConcatenatedMapping.cpp: first the first map, then the second. -/
def State.transform (s : State φ V) (p : Nat) (x : P) : Option P :=
  match s.concats p with
  | some (m0, m1) => (g.face m1).map fun f => f (g.self m0 x)
  | none => (g.face p).map fun f => f x

/-- The cases of the switches over the dimension of a rule evaluated on elements: values GaussQuadratureRule.cpp 64-95, vectors
GaussQuadratureRule.h 280-282 (`DIM` is the dimension of the rule), gradients cpp 205-240, divergences cpp 350-377, curls h
405-415 and 444-454. -/
def elementCase : Kind → Nat → Bool
  | .value, n | .grad, n => n == 1 || n == 2 || n == 3 || n == 4
  | .vector, _ => true
  | .curl3, n => n == 3
  | .curl2, n => n == 2
  | .div, n => n == 2 || n == 3 || n == 4

/-- The same for rules of faces: values GaussQuadratureRule.cpp 123-165, vectors GaussQuadratureRule.h 327-328, gradients cpp
278-322, divergences cpp 408-445, curls h 487-500 and 534-547. -/
def faceCase : Kind → Nat → Bool
  | .value, n | .grad, n => n == 0 || n == 1 || n == 2 || n == 3
  | .vector, _ => true
  | .curl3, n => n == 2
  | .curl2, n => n == 1
  | .div, n => n == 1 || n == 2 || n == 3

/-- The loops over points and functions, e.g. GaussQuadratureRule.cpp 62-96: values at the points, which `tr` maps first. -/
def table (k : Kind) (fs : List φ) (tr : P → Option P) : List P → Option (Table V)
  | [] => some []
  | x :: l => (tr x).bind fun y => (table k fs tr l).bind fun t => some (fs.map (fun f => g.ev k f y) :: t)

/-- The assertions at the beginning, e.g. GaussQuadratureRule.cpp 47-54: the set exists, the point and the function too. -/
def State.admissible (s : State φ V) (r a i q : Nat) : Option (SetObj φ) :=
  (s.sets a).bind fun o => if q < (g.rules r).points.length ∧ i < o.functions.length then some o else none

/-- Unchecked access to a table. -/
def entry (t : Table V) (q i : Nat) : Option V := (t[q]?).bind fun row => row[i]?

/-- `eval`, `evalGrad`, `evalCurl`, `evalDiv` for elements, e.g. GaussQuadratureRule.cpp 44-99. -/
def State.eval (s : State φ V) (r : Nat) (k : Kind) (a i q : Nat) : Option (State φ V × V) :=
  (s.admissible g r a i q).bind fun o =>
    match s.stored r k a with
    | some t => (entry t q i).bind fun v => some (s, v)
    | none =>
      if elementCase k (g.rules r).dim then
        (table g k o.functions some (g.rules r).points).bind fun t => (entry t q i).bind fun v =>
          some ({ s.register a r with
            stored := fun r' k' a' => if r' = r ∧ k' = k ∧ a' = a then some t else s.stored r' k' a' }, v)
      else none

/-- `eval`, `evalGrad`, `evalCurl`, `evalDiv` for faces, e.g. GaussQuadratureRule.cpp 101-169. -/
def State.evalFace (s : State φ V) (r : Nat) (k : Kind) (a i q p : Nat) : Option (State φ V × V) :=
  (s.admissible g r a i q).bind fun o => (s.key g p).bind fun c =>
    match (s.faceStored r k a).bind (fun m => m c) with
    | some t => (entry t q i).bind fun v => some (s, v)
    | none =>
      if faceCase k (g.rules r).dim then
        (table g k o.functions (s.transform g p) (g.rules r).points).bind fun t => (entry t q i).bind fun v =>
          some ({ s.register a r with
            faceStored := fun r' k' a' =>
              if r' = r ∧ k' = k ∧ a' = a then
                some (Function.update ((s.faceStored r k a).getD fun _ => none) c (some t))
              else s.faceStored r' k' a' }, v)
      else none

/-- One action. -/
def State.act (s : State φ V) : Op φ → Option (State φ V × Option V)
  | .newSet a => (s.newSet a).map fun s => (s, none)
  | .addFunction a f => (s.addFunction a f).map fun s => (s, none)
  | .destroySet a => (s.destroySet a).map fun s => (s, none)
  | .newConcat p m0 m1 => (s.newConcat g p m0 m1).map fun s => (s, none)
  | .destroyConcat p => (s.destroyConcat p).map fun s => (s, none)
  | .eval r k a i q => (s.eval g r k a i q).map fun r => (r.1, some r.2)
  | .evalFace r k a i q p => (s.evalFace g r k a i q p).map fun r => (r.1, some r.2)

/-- The values returned by a sequence of actions, up to the first that stops the program. -/
def State.answers (s : State φ V) : List (Op φ) → List (Option V) × Bool
  | [] => ([], true)
  | a :: l =>
    match s.act g a with
    | none => ([], false)
    | some (s, v) => let r := s.answers l; (v :: r.1, r.2)

end Verif.EvalCache
