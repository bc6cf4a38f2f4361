import Verif.PhysFace.Spec
import Verif.PhysElem.Model

/-!
# C76, C77: `PhysicalFace`

Model of kernel/Base/PhysicalFace.h and PhysicalFace_Impl.h. A function of the face is a program that makes requests to the two
`PhysicalElement`s `left` and `right` (`Call`); it is run with the elements of `Verif/PhysElem/Model.lean`.

Simplifications, besides those of `PhysElem`: the points of faces and elements are of one type; the normal is asked for once
before the loop over functions; the turn of the right side is a function of the face (C66); the assertion that all unknowns have equally
many functions is taken as a condition of the calls without unknown; coefficients do not change while the object is in use;
`getSolutionNormal` and `getSolutionCurl` are left out; the versions of `basisFunctionNormalCross` and
`basisFunctionUnitNormalCross` by side, which call functions that do not exist, stop.
-/
namespace Verif.PhysFace
open PhysElem (Kind Mat resize)

/-- A program that makes requests to the elements on both sides. -/
inductive Call (R P X M W : Type) (α : Type) : Type
  | ret (a : α) : Call R P X M W α
  | stop : Call R P X M W α
  | ask (s : Side) (a : PhysElem.Op R P) (k : PhysElem.Ans R P X M W → Call R P X M W α) : Call R P X M W α

namespace Call
variable {R P X M W α β : Type}

def bind : Call R P X M W α → (α → Call R P X M W β) → Call R P X M W β
  | ret a, f => f a
  | stop, _ => stop
  | ask s a k, f => ask s a fun v => (k v).bind f

/-- Part of a program without requests. -/
def lift : Option α → Call R P X M W α
  | some a => ret a
  | none => stop

/-- A request whose answer is not used. -/
def tell (s : Side) (a : PhysElem.Op R P) : Call R P X M W Unit := ask s a fun _ => ret ()

/-- Only if. -/
def when (b : Bool) (c : Call R P X M W Unit) : Call R P X M W Unit := if b then c else ret ()

/-- A loop that collects values. -/
def collect (f : Nat → Call R P X M W α) : List Nat → Call R P X M W (List α)
  | [] => ret []
  | j :: l => (f j).bind fun a => (collect f l).bind fun r => ret (a :: r)

/-- Run the program with elements that answer by `act`. -/
def run {E : Type} (act : E → PhysElem.Op R P → Option (E × PhysElem.Ans R P X M W)) :
    Call R P X M W α → (Side → E) → Option ((Side → E) × α)
  | ret a, e => some (e, a)
  | stop, _ => none
  | ask s a k, e => (act (e s) a).bind fun (x, v) => (k v).run act (Function.update e s x)

end Call

/-- Results kept by the face itself. -/
inductive Own
  | matrix | leftRight | rightLeft | vector
  deriving DecidableEq

/-- The members, PhysicalFace.h 375-461. -/
structure Core (R P W : Type) where
  internal : Bool
  face : Option Nat
  point : Option P
  nLeft : List Nat
  trafos : List (Option Nat)
  turn : Option Nat
  maps : Side → Option Nat
  rule : Option Nat
  table : Bool → Bool → List (List W)
  hasTable : Bool → Bool → List Bool
  lazy : Der → List (Bool × List W)
  normal : Option W
  unitNormal : Option W
  area : Option R
  own : Own → List (Mat R)
  has : Own → Bool

variable {R P X M W : Type} [CommRing R] [AddCommGroup W] [Module R W] (g : Prog R P X M W)

/-- `hasPointReference && hasFace`. -/
def Core.located (s : Core R P W) : Option (Nat × P) := s.face.bind fun f => s.point.bind fun p => some (f, p)

/-- `getNormalVector`, PhysicalFace_Impl.h 672-683. -/
def Core.getNormal (s : Core R P W) : Option (Core R P W × W) :=
  s.located.bind fun (f, p) =>
    match s.normal with
    | some n => some (s, n)
    | none => some ({ s with normal := some (g.normal f p) }, g.normal f p)

/-- `getRelativeSurfaceArea`, PhysicalFace_Impl.h 698-708. -/
def Core.getArea (s : Core R P W) : Option (Core R P W × R) :=
  s.located.bind fun _ =>
    match s.area with
    | some a => some (s, a)
    | none => (s.getNormal g).bind fun (s, n) => some ({ s with area := some (g.norm n) }, g.norm n)

/-- `getUnitNormalVector`, PhysicalFace_Impl.h 685-696. -/
def Core.getUnitNormal (s : Core R P W) : Option (Core R P W × W) :=
  s.located.bind fun _ =>
    match s.unitNormal with
    | some n => some (s, n)
    | none => (s.getNormal g).bind fun (s, n) => (s.getArea g).bind fun (s, a) =>
        some ({ s with unitNormal := some (g.divide n a) }, g.divide n a)

/-- The value answered by an element. -/
def askFn (s : Side) (k : Kind) (i : Nat) (u : Option Nat) : Call R P X M W W :=
  .ask s (.get k i u) fun v => .lift (theFn v)

/-- A value of the right element, turned if needed, e.g. PhysicalFace_Impl.h 53-57. -/
def Core.askRight (s : Core R P W) (k : Kind) (i : Nat) (u : Option Nat) : Call R P X M W W :=
  (askFn .right k i u).bind fun w => .lift <|
    match s.turn with
    | none => some w
    | some r => (s.trafos[u.getD 0]?.join).map fun t => g.turned t k r w

/-- `basisFunction(i)`, `(i, unknown)`, `(i, result)`, `(i, result, unknown)`, PhysicalFace_Impl.h 44-75, 266-296. -/
def Core.fn (s : Core R P W) (k : Kind) (i : Nat) (u : Option Nat) : Call R P X M W W :=
  (Call.lift s.located).bind fun _ => (Call.lift s.nLeft[u.getD 0]?).bind fun n =>
    if i < n then askFn .left k i u else if s.internal then s.askRight g k (i - n) u else .stop

/-- `basisFunction(side, ...)`, PhysicalFace_Impl.h 77-108, 298-332. -/
def Core.fnSide (s : Core R P W) (side : Side) (k : Kind) (i : Nat) (u : Option Nat) : Call R P X M W W :=
  (Call.lift s.located).bind fun _ =>
    match side with
    | .left => askFn .left k i u
    | .right => if s.internal then s.askRight g k i u else .stop

/-- The numbers of functions of the face, Face.cpp 170-185. -/
def Prog.number (f u : Nat) : Nat :=
  (g.elemAt f .left).size u + if (g.face f).internal then (g.elemAt f .right).size u else 0

/-- The assertions of `getNumberOfBasisFunctions()` or on the number of the unknown. -/
def Prog.allowed (f : Nat) (u : Option Nat) : Prop :=
  match u with
  | none => (g.elemAt f .left).uniform ∧ ((g.face f).internal = true → (g.elemAt f .right).uniform)
  | some u => u < (g.elemAt f .left).unknowns

instance (f : Nat) (u : Option Nat) : Decidable (g.allowed f u) := by unfold Prog.allowed; cases u <;> infer_instance

/-- `basisFunctionNormal`, `basisFunctionUnitNormal`, `basisFunctionNormalCross`, `basisFunctionUnitNormalCross` with a number over both
sides, PhysicalFace_Impl.h 126-166, 196-240, 368-414, 447-530. Scalar functions are those without unknown in all cases. -/
def Core.timesNormal (s : Core R P W) (cross unit : Bool) (i : Nat) (u : Option Nat) : Call R P X M W (Core R P W × W) :=
  (Call.lift s.located).bind fun (f, _) => if g.allowed f u then
    (Call.lift (s.hasTable cross unit)[u.getD 0]?).bind fun h =>
      if h then (Call.lift ((s.table cross unit)[u.getD 0]?.bind fun row => row[i]?)).bind fun w => .ret (s, w)
      else
        (Call.lift (if unit then s.getUnitNormal g else s.getNormal g)).bind fun (s, v) =>
        (Call.lift s.nLeft[u.getD 0]?).bind fun n => (Call.lift (s.table cross unit)[u.getD 0]?).bind fun row =>
        (Call.collect (fun j => (s.fn g (if cross then .vector else .value) j (if cross then u else none)).bind fun w =>
          .ret (if n ≤ j then -g.times cross unit v w else g.times cross unit v w)) (List.range (g.number f (u.getD 0)))).bind fun l =>
        if l.length ≤ row.length then
          let row' := l ++ row.drop l.length
          let table := Function.update s.table cross (Function.update (s.table cross) unit ((s.table cross unit).set (u.getD 0) row'))
          let hasTable := Function.update s.hasTable cross
            (Function.update (s.hasTable cross) unit ((s.hasTable cross unit).set (u.getD 0) true))
          (Call.lift row'[i]?).bind fun w => .ret ({ s with table := table, hasTable := hasTable }, w)
        else .stop
    else .stop

/-- The number over both sides of a function of one side: PhysicalFace_Impl.h 118-123, 170-195, 242-264, 340-347, 355-364. -/
def Core.number (s : Core R P W) (side : Option Side) (i u : Nat) : Option Nat :=
  match side with
  | some .right => s.nLeft[u]?.map fun n => i + n
  | _ => some i

/-- `computeBasisFunctionDeriv`, `...Curl`, `...Div`, PhysicalFace_Impl.h 1012-1076. -/
def Core.computeDer (s : Core R P W) (k : Der) (u : Nat) : Call R P X M W (List W) :=
  (Call.lift s.face).bind fun f => if u < (g.elemAt f .left).unknowns then
    (Call.lift s.nLeft[u]?).bind fun n =>
      Call.collect (fun j => if j < n then askFn .left k.kind j (some u) else s.askRight g k.kind (j - n) (some u))
        (List.range (g.number f u))
    else .stop

/-- `basisFunctionDeriv(i, unknown)`, PhysicalFace_Impl.h 110-114, 334-338, 349-353, with `LazyVectorCached::get`, LazyCached.h. -/
def Core.der (s : Core R P W) (k : Der) (i u : Nat) : Call R P X M W (Core R P W × W) :=
  (Call.lift (s.lazy k)[u]?).bind fun (h, l) =>
    if h then (Call.lift l[i]?).bind fun w => .ret (s, w)
    else (s.computeDer g k u).bind fun l => (Call.lift l[i]?).bind fun w =>
      .ret ({ s with lazy := Function.update s.lazy k ((s.lazy k).set u (true, l)) }, w)

/-- The end of all setters, e.g. PhysicalFace_Impl.h 822-837. -/
def Core.renew (s : Core R P W) : Core R P W :=
  { s with
    own := fun o => if s.has o then s.own o else (s.own o).map fun m => { m with entries := m.entries.map (· * 0) }
    has := fun _ => true }

/-- `resetLazyCaches`, PhysicalFace_Impl.h 1005-1010, LazyCached.h. -/
def resetLazy (l : List (Bool × List W)) (n : Nat) : List (Bool × List W) := resize (false, []) (l.map fun x => (false, x.2)) n

/-- The flags cleared by `setPointReference` and `setFace`, PhysicalFace_Impl.h 808-821, 894-907. -/
def Core.forget (s : Core R P W) (unknowns : Nat) : Core R P W :=
  { s with
    hasTable := fun _ _ => List.replicate unknowns false
    lazy := fun k => resetLazy (s.lazy k) unknowns
    normal := none
    unitNormal := none
    area := none }

/-- Both elements get the point, PhysicalFace_Impl.h 802-807, 886-892. -/
def tellPoint (f : Nat) (internal : Bool) (p : P) : Call R P X M W Unit :=
  (Call.tell .left (.setPoint (g.base.faceMap ((g.face f).map .left) p))).bind fun _ =>
    .when internal (.tell .right (.setPoint (g.base.faceMap ((g.face f).map .right) p)))

/-- `setPointReference`, PhysicalFace_Impl.h 797-838. Without a face the pointer to the face is not initialised. -/
def Core.setPoint (s : Core R P W) (p : P) : Call R P X M W (Core R P W) :=
  (Call.lift s.face).bind fun f => (tellPoint g f s.internal p).bind fun _ =>
    .ret (({ s with point := some p }.forget (g.elemAt f .left).unknowns).renew)

/-- Sizes of results, PhysicalFace_Impl.h 874-877. -/
def ownSizes (l r : Nat) : Own → List (Nat × Nat)
  | .matrix => [(l, l), (l, r), (r, l), (r, r)]
  | .leftRight => [(l, r)]
  | .rightLeft => [(r, l)]
  | .vector => [(l + r, 1)]

/-- The sizes set by `setFace`, PhysicalFace_Impl.h 846-878. The matrices are empty before, so that `resize` gives zeros. -/
def Core.size (s : Core R P W) (f : Nat) : Core R P W :=
  let e := g.elemAt f .left
  let rows := fun _ _ => (List.range e.unknowns).map fun u => List.replicate (g.number f u) 0
  { s with
    nLeft := (List.range e.unknowns).map e.size
    table := rows
    own := fun o => (ownSizes (g.count f .left) (g.count f .right) o).map zeros }

/-- `setFace`, PhysicalFace_Impl.h 840-927. Sizes are set for the first face only. -/
def Core.setFace (s : Core R P W) (f : Nat) : Call R P X M W (Core R P W) :=
  if s.internal = (g.face f).internal then
    let s' := if s.face.isNone then s.size g f else s
    (Call.tell .left (.setElement ((g.face f).elem .left))).bind fun _ =>
    (Call.when s.internal (.tell .right (.setElement ((g.face f).elem .right)))).bind fun _ =>
    (match s.point with
      | some p => tellPoint g f s.internal p
      | none => .ret ()).bind fun _ =>
    .ret (({ s' with face := some f, turn := (g.face f).turn }.forget (g.elemAt f .left).unknowns).renew)
  else .stop

/-- `setTransform`, PhysicalFace_Impl.h 929-975. -/
def Core.setTransform (s : Core R P W) (t u : Nat) : Call R P X M W (Core R P W) :=
  if s.trafos.length ≤ u ∧ s.face.isSome then .stop
  else
    (Call.tell .left (.setTransformation t u)).bind fun _ =>
    (Call.when s.internal (.tell .right (.setTransformation t u))).bind fun _ =>
    .ret { s with
      trafos := (if s.trafos.length ≤ u then resize none s.trafos (u + 1) else s.trafos).set u (some t)
      hasTable := fun c n => List.replicate (s.hasTable c n).length false
      lazy := fun k => resetLazy (s.lazy k) (s.lazy .deriv).length }.renew

/-- An element gets the rule of the face, PhysicalFace_Impl.h 980, 983, 996, 1000. -/
def Core.tellRule (s : Core R P W) (side : Side) (r : Nat) : Call R P X M W Unit :=
  (Call.lift (s.maps side)).bind fun m => .tell side (.setFaceRule r m)

/-- `setQuadraturePointIndex`, PhysicalFace_Impl.h 990-1003. -/
def Core.setIndex (s : Core R P W) (q : Nat) : Call R P X M W (Core R P W) :=
  (Call.lift s.rule).bind fun r => (Call.lift (g.base.points r)[q]?).bind fun p => (s.setPoint g p).bind fun s =>
    (s.tellRule .left r).bind fun _ => (Call.tell .left (.setIndex q)).bind fun _ =>
    (Call.when s.internal ((s.tellRule .right r).bind fun _ => .tell .right (.setIndex q))).bind fun _ => .ret s

/-- `setQuadratureRule`, PhysicalFace_Impl.h 977-988. -/
def Core.setRule (s : Core R P W) (r : Nat) : Call R P X M W (Core R P W) :=
  (Call.lift s.face).bind fun f =>
    let s := { s with maps := Function.update s.maps .left (some ((g.face f).map .left)) }
    (s.tellRule .left r).bind fun _ =>
    let s := if s.internal then { s with maps := Function.update s.maps .right (some ((g.face f).map .right)) } else s
    (Call.when s.internal (s.tellRule .right r)).bind fun _ => { s with rule := some r }.setIndex g 0

/-- Hand out a result of the face, PhysicalFace_Impl.h 710-720, 733-739, 745-751, 757-766, and what the user leaves in it. -/
def Core.handOut (s : Core R P W) (o : Own) (m : List (Mat R)) : Option (Core R P W × Ans R P X M W) :=
  s.located.bind fun _ => if s.has o then
    some ({ s with has := Function.update s.has o false, own := Function.update s.own o m }, .results (s.own o)) else none

/-- A result of an element. -/
def elemResult (s : Side) (m : List (Mat R)) (vec : Bool) : Call R P X M W (Ans R P X M W) :=
  match m with
  | [m] => .ask s (if vec then .vector m.entries else .matrix m) fun
    | .result m => .ret (.results [m])
    | .resultVector v => .ret (.results [⟨v.length, 1, v⟩])
    | _ => .stop
  | _ => .stop

/-- `getResultMatrix`, `getResultVector`, PhysicalFace_Impl.h 710-781. -/
def Core.result (s : Core R P W) (it : Item) (m : List (Mat R)) : Call R P X M W (Core R P W × Ans R P X M W) :=
  match it with
  | .matrix => .lift (s.handOut .matrix m)
  | .vector => .lift (s.handOut .vector m)
  | .leftRight => if s.internal then .lift (s.handOut .leftRight m) else .stop
  | .rightLeft => if s.internal then .lift (s.handOut .rightLeft m) else .stop
  | .elemMatrix side => (Call.lift s.located).bind fun _ =>
      if side = .left ∨ s.internal then (elemResult side m false).bind fun a => .ret (s, a) else .stop
  | .elemVector side => (Call.lift s.located).bind fun _ =>
      if side = .left ∨ s.internal then (elemResult side m true).bind fun a => .ret (s, a) else .stop

/-- The answer of the element on a side, e.g. `getSolution`, `getSolutionDeriv`, `getPointPhysical`, PhysicalFace_Impl.h 561-597, 663-669. -/
def Core.passOn (s : Core R P W) (side : Side) (a : PhysElem.Op R P) : Call R P X M W (Core R P W × Ans R P X M W) :=
  (Call.lift s.located).bind fun _ =>
    if side = .left ∨ s.internal then .ask side a fun v => .ret (s, .elem v) else .stop

/-- One request. -/
def Core.act (s : Core R P W) : Op R P → Call R P X M W (Core R P W × Ans R P X M W)
  | .setFace f => (s.setFace g f).bind fun s => .ret (s, .elem .done)
  | .setPoint p => (s.setPoint g p).bind fun s => .ret (s, .elem .done)
  | .setRule r => (s.setRule g r).bind fun s => .ret (s, .elem .done)
  | .setIndex q => (s.setIndex g q).bind fun s => .ret (s, .elem .done)
  | .setTransform t u => (s.setTransform t u).bind fun s => .ret (s, .elem .done)
  | .fn vec none i u => (s.fn g (if vec then .vector else .value) i u).bind fun w => .ret (s, .elem (.fn w))
  | .fn vec (some side) i u => (s.fnSide g side (if vec then .vector else .value) i u).bind fun w => .ret (s, .elem (.fn w))
  | .der k side i u => (Call.lift (s.number side i u)).bind fun j => (s.der g k j u).bind fun (s, w) => .ret (s, .elem (.fn w))
  | .timesNormal cross unit side i u =>
    if cross ∧ side.isSome then .stop
    else (Call.lift s.located).bind fun _ =>
      if side = some .right ∧ ¬ s.internal then .stop
      else (Call.lift (s.number side i (u.getD 0))).bind fun j =>
        (s.timesNormal g cross unit j u).bind fun (s, w) => .ret (s, .elem (.fn w))
  | .solution side => s.passOn side .solution
  | .solutionDeriv side => s.passOn side .solutionDeriv
  | .pointReference => .lift (s.point.map fun p => (s, .elem (.ref p)))
  | .pointPhysical => s.passOn .left .pointPhysical
  | .normal => .lift ((s.getNormal g).map fun (s, w) => (s, .elem (.fn w)))
  | .unitNormal => .lift ((s.getUnitNormal g).map fun (s, w) => (s, .elem (.fn w)))
  | .area => .lift ((s.getArea g).map fun (s, a) => (s, .elem (.num a)))
  | .result it m => s.result it m

/-- The answers to a sequence of requests, with elements that answer by `act`, up to the first that stops the program. -/
def answers {E : Type} (act : E → PhysElem.Op R P → Option (E × PhysElem.Ans R P X M W)) (s : Core R P W) (e : Side → E) :
    List (Op R P) → List (Ans R P X M W) × Bool
  | [] => ([], true)
  | a :: l =>
    match (s.act g a).run act e with
    | none => ([], false)
    | some (e, s, v) => let r := answers act s e l; (v :: r.1, r.2)

/-- The constructor, PhysicalFace.h 67-89; members without initial value are arbitrary. -/
def Core.init (internal : Bool) (turn : Option Nat) (normal unitNormal : Option W) (area : Option R) : Core R P W :=
  ⟨internal, none, none, [], [some 0], turn, fun _ => none, none, fun _ _ => [], fun _ _ => [], fun _ => [], normal, unitNormal, area,
    fun _ => [], fun _ => false⟩

end Verif.PhysFace
