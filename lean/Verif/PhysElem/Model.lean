import Verif.PhysElem.Spec
import Mathlib.Logic.Function.Basic

/-!
# C64, C65: `PhysicalElement`

Model of kernel/Base/PhysicalElement.h and PhysicalElement_Impl.h.

Simplifications: scalars and vectors are of one type `W`; members that come with one `has...` flag are optional values, those
with a list of flags are kept apart from their flags; evaluation through a quadrature rule is evaluation at its point (C63);
coefficients are given by unknown and function (C31); a transformation gets the Jacobian, its transpose and its determinant
from the getters, whether it needs them or not; the assertion in `Element::getNumberOfBasisFunctions()` that all unknowns have
equally many functions is taken as a condition of the calls without unknown; `*= 0` gives zero (there is no NaN); the user stops
writing to the result matrix before the next request; failing assertions and undefined behaviour stop (`none`).
-/
namespace Verif.PhysElem

/-- The members that are set from outside, PhysicalElement.h 225-232, 255-261. -/
structure Core (R P : Type) where
  elem : Option Nat
  point : Option P
  rule : Nat
  faceMap : Nat
  index : Nat
  hasRule : Bool
  fromFace : Bool
  trafos : List (Option Nat)
  coeffs : Nat → Nat → Nat → R
  matrix : Mat R
  hasMatrix : Bool
  vector : List R
  hasVector : Bool

/-- Stored results with their flags, PhysicalElement.h 234-253, 262-271. -/
structure Cache (R X M W : Type) where
  values : Kind → List (List W)
  has : Kind → List Bool
  solution : Option (List W)
  solutionDeriv : Option (List W)
  pointPhysical : Option X
  jacobian : Option M
  transposeJacobian : Option M
  inverseTransposeJacobian : Option M
  det : Option R
  absDet : Option R

variable {R P X M W : Type} [CommRing R] [AddCommGroup W] [Module R W] (g : Prog R P X M W)

/-- `std::vector::resize`. -/
def resize {α : Type} (d : α) (l : List α) (n : Nat) : List α := l.take n ++ List.replicate (n - l.length) d

/-- The element, if there is one (`theElement_`). -/
def Core.element (s : Core R P) : Option (Elem P X M W) := s.elem.map g.elem

/-- The first assertion of most getters, e.g. PhysicalElement_Impl.h 60-61. -/
def Core.located (s : Core R P) : Option (Elem P X M W × P) := (s.element g).bind fun e => s.point.bind fun p => some (e, p)

/-- `getJacobian`, PhysicalElement_Impl.h 513-523. -/
def Core.getJacobian (s : Core R P) (c : Cache R X M W) : Option (Cache R X M W × M) :=
  (s.located g).bind fun (e, p) =>
    match c.jacobian with
    | some j => some (c, j)
    | none => some ({ c with jacobian := some (e.jac p) }, e.jac p)

/-- `getTransposeJacobian`, PhysicalElement_Impl.h 539-549. -/
def Core.getTransposeJacobian (s : Core R P) (c : Cache R X M W) : Option (Cache R X M W × M) :=
  (s.located g).bind fun _ =>
    match c.transposeJacobian with
    | some j => some (c, j)
    | none => (s.getJacobian g c).bind fun (c, j) =>
        some ({ c with transposeJacobian := some (g.transpose j) }, g.transpose j)

/-- `getInverseTransposeJacobian`, PhysicalElement_Impl.h 526-536. -/
def Core.getInverseTransposeJacobian (s : Core R P) (c : Cache R X M W) : Option (Cache R X M W × M) :=
  (s.located g).bind fun _ =>
    match c.inverseTransposeJacobian with
    | some j => some (c, j)
    | none => (s.getTransposeJacobian g c).bind fun (c, j) =>
        some ({ c with inverseTransposeJacobian := some (g.inverse j) }, g.inverse j)

/-- `getJacobianDet`, PhysicalElement_Impl.h 564-573. -/
def Core.getJacobianDet (s : Core R P) (c : Cache R X M W) : Option (Cache R X M W × R) :=
  (s.located g).bind fun _ =>
    match c.det with
    | some d => some (c, d)
    | none => (s.getJacobian g c).bind fun (c, j) => some ({ c with det := some (g.det j) }, g.det j)

/-- `getJacobianAbsDet`, PhysicalElement_Impl.h 552-561. -/
def Core.getJacobianAbsDet (s : Core R P) (c : Cache R X M W) : Option (Cache R X M W × R) :=
  (s.located g).bind fun _ =>
    match c.absDet with
    | some d => some (c, d)
    | none => (s.getJacobianDet g c).bind fun (c, d) => some ({ c with absDet := some (g.abs d) }, g.abs d)

/-- `getPointPhysical`, PhysicalElement_Impl.h 501-510. -/
def Core.getPointPhysical (s : Core R P) (c : Cache R X M W) : Option (Cache R X M W × X) :=
  (s.located g).bind fun (e, p) =>
    match c.pointPhysical with
    | some x => some (c, x)
    | none => some ({ c with pointPhysical := some (e.phys p) }, e.phys p)

/-- Where the functions are evaluated, e.g. PhysicalElement_Impl.h 67-83: at the point of the rule, mapped from the face or not, or at
the reference point. -/
def Core.evaluationPoint (s : Core R P) : Option P :=
  if s.hasRule then
    if s.fromFace then (g.points s.rule)[s.index]?.map (g.faceMap s.faceMap) else (g.points s.rule)[s.index]?
  else s.point

/-- One step of the loop over functions, e.g. PhysicalElement_Impl.h 99-118: evaluate, transform and store. -/
def Core.fillOne (s : Core R P) (e : Elem P X M W) (k : Kind) (u : Nat) (c : Cache R X M W) (j : Nat) :
    Option (Cache R X M W) :=
  (s.evaluationPoint g).bind fun x => (s.trafos[u]?.join).bind fun t =>
    (s.getJacobian g c).bind fun (c, jac) => (s.getTransposeJacobian g c).bind fun (c, jacT) =>
      (s.getJacobianDet g c).bind fun (c, d) => ((c.values k)[u]?).bind fun row =>
        let row' := row.set j (g.transform t k (e.fn k u j x) jac jacT d)
        if j < row.length then some { c with values := Function.update c.values k ((c.values k).set u row') } else none

/-- `basisFunction(i, unknown)`, `basisFunctionDeriv`, `basisFunctionCurl`, `basisFunctionDiv`, PhysicalElement_Impl.h 88-120, 153-191,
229-271, 304-340, 372-405. -/
def Core.getUnknown (s : Core R P) (c : Cache R X M W) (k : Kind) (i u : Nat) : Option (Cache R X M W × W) :=
  (s.located g).bind fun (e, _) =>
    if u < e.unknowns then
      ((c.has k)[u]?).bind fun h =>
        if h then (((c.values k)[u]?).bind fun row => row[i]?).map fun w => (c, w)
        else
          ((List.range (e.size u)).foldlM (fun c j => s.fillOne g e k u c j)
            { c with has := Function.update c.has k ((c.has k).set u true) }).bind fun c =>
          (((c.values k)[u]?).bind fun row => row[i]?).map fun w => (c, w)
    else none

/-- The same without unknown, PhysicalElement_Impl.h 58-86, 122-151, 193-227, 273-302, 342-370: the first unknown, and
`getNumberOfBasisFunctions()` asserts that all unknowns have as many functions (ElementData.cpp 167-174). -/
def Core.getPlain (s : Core R P) (c : Cache R X M W) (k : Kind) (i : Nat) : Option (Cache R X M W × W) :=
  (s.located g).bind fun (e, _) => if e.uniform then s.getUnknown g c k i 0 else none

/-- The inner loop of `getSolution` and `getSolutionDeriv`, PhysicalElement_Impl.h 430-433, 460-463. -/
def Core.sumUnknown (s : Core R P) (e : Elem P X M W) (id : Nat) (k : Kind) (c : Cache R X M W) (v : Nat) :
    Option (Cache R X M W × W) :=
  (List.range (e.size v)).foldlM
    (fun (r : Cache R X M W × W) b => (s.getPlain g r.1 k b).map fun (c, w) => (c, r.2 + s.coeffs id v b • w)) (c, 0)

/-- The outer loop, PhysicalElement_Impl.h 427-434, 456-464. -/
def Core.sumAll (s : Core R P) (e : Elem P X M W) (id : Nat) (k : Kind) (c : Cache R X M W) :
    Option (Cache R X M W × List W) :=
  (List.range e.unknowns).foldlM
    (fun (r : Cache R X M W × List W) v => (s.sumUnknown g e id k r.1 v).map fun (c, w) => (c, r.2 ++ [w])) (c, [])

/-- `getSolution`, PhysicalElement_Impl.h 407-436. -/
def Core.getSolution (s : Core R P) (c : Cache R X M W) : Option (Cache R X M W × List W) :=
  s.elem.bind fun id => (s.located g).bind fun (e, _) => if e.uniform then
    match c.solution with
    | some l => some (c, l)
    | none => (s.sumAll g e id .value c).map fun (c, l) => ({ c with solution := some l }, l)
  else none

/-- `getSolutionDeriv`, PhysicalElement_Impl.h 438-466. -/
def Core.getSolutionDeriv (s : Core R P) (c : Cache R X M W) : Option (Cache R X M W × List W) :=
  s.elem.bind fun id => (s.located g).bind fun (e, _) => if e.uniform then
    match c.solutionDeriv with
    | some l => some (c, l)
    | none => (s.sumAll g e id .deriv c).map fun (c, l) => ({ c with solutionDeriv := some l }, l)
  else none

/-- The end of all setters, e.g. PhysicalElement_Impl.h 646-653: the matrix and the vector are set to zero if they were handed out. -/
def Core.renew (s : Core R P) : Core R P :=
  { s with
    matrix := if s.hasMatrix then s.matrix else { s.matrix with entries := s.matrix.entries.map (· * 0) }
    vector := if s.hasVector then s.vector else s.vector.map (· * 0)
    hasMatrix := true
    hasVector := true }

/-- The flags cleared by `setPointReference` and `setElement`, PhysicalElement_Impl.h 629-645, 683-698. -/
def Cache.forget (c : Cache R X M W) (unknowns : Nat) : Cache R X M W where
  values := c.values
  has _ := List.replicate unknowns false
  solution := none
  solutionDeriv := none
  pointPhysical := none
  jacobian := none
  transposeJacobian := none
  inverseTransposeJacobian := none
  det := none
  absDet := none

/-- `setPointReference`, PhysicalElement_Impl.h 622-654. -/
def setPointReference (s : Core R P) (c : Cache R X M W) (p : P) : Option (Core R P × Cache R X M W) :=
  (s.element g).bind fun e => some ({ s with point := some p, hasRule := false }.renew, c.forget e.unknowns)

/-- `setElement`, PhysicalElement_Impl.h 656-707. -/
def setElement (s : Core R P) (c : Cache R X M W) (id : Nat) : Core R P × Cache R X M W :=
  let e := g.elem id
  let values k :=
    let outer := if s.elem.isNone ∨ (c.values k).length ≠ e.unknowns then resize [] (c.values k) e.unknowns else c.values k
    outer.mapIdx fun i row => resize 0 row (e.size i)
  let n := ((List.range e.unknowns).map e.size).sum
  ({ s with
      elem := some id
      matrix := ⟨n, n, resize 0 s.matrix.entries (n * n)⟩
      vector := resize 0 s.vector n }.renew,
    { c with values := values }.forget e.unknowns)

/-- `setTransformation`, PhysicalElement_Impl.h 709-745: flags of values that depend on the transformation. -/
def setTransformation (s : Core R P) (c : Cache R X M W) (t u : Nat) : Option (Core R P × Cache R X M W) :=
  let cleared : Cache R X M W :=
    { c with has := fun k => List.replicate (c.has k).length false, solution := none, solutionDeriv := none }
  if s.trafos.length ≤ u then
    if s.elem.isNone then
      some ({ s with trafos := (resize none s.trafos (u + 1)).set u (some t) }.renew, cleared)
    else none
  else some ({ s with trafos := s.trafos.set u (some t) }.renew, cleared)

/-- `setQuadraturePointIndex`, PhysicalElement_Impl.h 767-781. -/
def setQuadraturePointIndex (s : Core R P) (c : Cache R X M W) (q : Nat) : Option (Core R P × Cache R X M W) :=
  if s.hasRule then
    (g.points s.rule)[q]?.bind fun x =>
      (setPointReference g { s with index := q } c (if s.fromFace then g.faceMap s.faceMap x else x)).map fun (s, c) =>
        ({ s with hasRule := true }, c)
  else none

/-- `setQuadratureRule(rule)`, PhysicalElement_Impl.h 747-754. -/
def setQuadratureRule (s : Core R P) (c : Cache R X M W) (r : Nat) : Option (Core R P × Cache R X M W) :=
  setQuadraturePointIndex g { s with rule := r, hasRule := true, fromFace := false } c 0

/-- `setQuadratureRule(rule, map)`, PhysicalElement_Impl.h 756-765. -/
def setFaceQuadratureRule (s : Core R P) (c : Cache R X M W) (r m : Nat) : Option (Core R P × Cache R X M W) :=
  setQuadraturePointIndex g { s with rule := r, faceMap := m, hasRule := true, fromFace := true } c 0

/-- `getResultMatrix`, PhysicalElement_Impl.h 575-584, and what the user leaves in it. -/
def getResultMatrix (s : Core R P) (m : Mat R) : Option (Core R P × Mat R) :=
  if s.elem.isSome ∧ s.point.isSome ∧ s.hasMatrix then some ({ s with hasMatrix := false, matrix := m }, s.matrix) else none

/-- `getResultVector`, PhysicalElement_Impl.h 586-595, and what the user leaves in it. -/
def getResultVector (s : Core R P) (v : List R) : Option (Core R P × List R) :=
  if s.elem.isSome ∧ s.point.isSome ∧ s.hasVector then some ({ s with hasVector := false, vector := v }, s.vector) else none

/-- The object. -/
structure State (R P X M W : Type) where
  core : Core R P
  cache : Cache R X M W

/-- A getter does not change what is set. -/
def State.getter {α : Type} (s : State R P X M W) (r : Option (Cache R X M W × α)) (f : α → Ans R P X M W) :
    Option (State R P X M W × Ans R P X M W) :=
  r.map fun (c, a) => (⟨s.core, c⟩, f a)

/-- A setter gives no answer. -/
def State.setter (r : Option (Core R P × Cache R X M W)) : Option (State R P X M W × Ans R P X M W) :=
  r.map fun (s, c) => (⟨s, c⟩, .done)

/-- One request. -/
def State.act (s : State R P X M W) : Op R P → Option (State R P X M W × Ans R P X M W)
  | .setElement e => State.setter (some (setElement g s.core s.cache e))
  | .setPoint p => State.setter (setPointReference g s.core s.cache p)
  | .setRule r => State.setter (setQuadratureRule g s.core s.cache r)
  | .setFaceRule r m => State.setter (setFaceQuadratureRule g s.core s.cache r m)
  | .setIndex q => State.setter (setQuadraturePointIndex g s.core s.cache q)
  | .setTransformation t u => State.setter (setTransformation s.core s.cache t u)
  | .change c => State.setter (some ({ s.core with coeffs := c }, s.cache))
  | .get k i (some u) => s.getter (s.core.getUnknown g s.cache k i u) .fn
  | .get k i none => s.getter (s.core.getPlain g s.cache k i) .fn
  | .solution => s.getter (s.core.getSolution g s.cache) .fns
  | .solutionDeriv => s.getter (s.core.getSolutionDeriv g s.cache) .fns
  | .pointReference => s.core.point.map fun p => (s, .ref p)
  | .pointPhysical => s.getter (s.core.getPointPhysical g s.cache) .phys
  | .jacobian => s.getter (s.core.getJacobian g s.cache) .mat
  | .transposeJacobian => s.getter (s.core.getTransposeJacobian g s.cache) .mat
  | .inverseTransposeJacobian => s.getter (s.core.getInverseTransposeJacobian g s.cache) .mat
  | .det => s.getter (s.core.getJacobianDet g s.cache) .num
  | .absDet => s.getter (s.core.getJacobianAbsDet g s.cache) .num
  | .matrix m => (getResultMatrix s.core m).map fun (c, m) => (⟨c, s.cache⟩, .result m)
  | .vector v => (getResultVector s.core v).map fun (c, v) => (⟨c, s.cache⟩, .resultVector v)

/-- The answers to a sequence of requests, up to the first that stops the program. -/
def State.answers (s : State R P X M W) : List (Op R P) → List (Ans R P X M W) × Bool
  | [] => ([], true)
  | a :: l =>
    match s.act g a with
    | none => ([], false)
    | some (s, v) => let r := s.answers l; (v :: r.1, r.2)

/-- The constructor, PhysicalElement_Impl.h 44-56: one transformation; members without initial value are arbitrary. -/
def State.init (coeffs : Nat → Nat → Nat → R) (cache : Cache R X M W) (rule faceMap index : Nat) (fromFace : Bool) :
    State R P X M W :=
  ⟨⟨none, none, rule, faceMap, index, false, fromFace, [some 0], coeffs, ⟨0, 0, []⟩, false, [], false⟩,
    { cache with values := fun _ => [], has := fun _ => [] }⟩

end Verif.PhysElem
