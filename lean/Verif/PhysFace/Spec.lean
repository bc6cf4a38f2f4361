import Verif.PhysElem.Spec

/-!
# C76, C77: data at a point of a face, without stored results

What a user asks a `PhysicalFace` for: functions of the two elements next to the face, numbered one after the other or by side, their
derivatives, products with the normal, the solution on both sides, matrices and vectors to write results to. Here every answer
is computed when it is asked for, from the face, the point on it and the transformations set last.
-/
namespace Verif.PhysFace
open PhysElem (Kind Mat)

inductive Side
  | left | right
  deriving DecidableEq

/-- A face: whether there is an element on the right; the elements; the maps from the face to their reference elements; the turn from
the right to the left, if the sides do not coincide (C66). -/
structure FaceInfo where
  internal : Bool
  elem : Side → Nat
  map : Side → Nat
  turn : Option Nat

/-- What does not change: elements, rules, maps (`base`), faces, the normal of a face at a point, vector functions (`times cross unit`
multiplies a normal with a value), and how the turn acts on a transformed value. -/
structure Prog (R P X M W : Type) where
  base : PhysElem.Prog R P X M W
  face : Nat → FaceInfo
  normal : Nat → P → W
  norm : W → R
  divide : W → R → W
  times : Bool → Bool → W → W → W
  turned : Nat → Kind → Nat → W → W

/-- Derivatives. -/
inductive Der
  | deriv | curl | div
  deriving DecidableEq

def Der.kind : Der → Kind
  | .deriv => .deriv
  | .curl => .curl
  | .div => .div

/-- What results can be written to: a matrix for the face with four blocks, its blocks one by one, a vector for the face and one for each
side. -/
inductive Item
  | matrix | leftRight | rightLeft | vector
  | elemMatrix (s : Side)
  | elemVector (s : Side)
  deriving DecidableEq

/-- Requests. `fn vec s i u`: value of function `i`, counted on side `s` or over both sides, of the unknown `u` or "the" unknown;
`der` the same for derivatives; `timesNormal cross unit` for products with the (unit) normal. `result it m`: a request after which
the user leaves `m`. -/
inductive Op (R P : Type)
  | setFace (f : Nat)
  | setPoint (p : P)
  | setRule (r : Nat)
  | setIndex (q : Nat)
  | setTransform (t u : Nat)
  | fn (vec : Bool) (s : Option Side) (i : Nat) (u : Option Nat)
  | der (k : Der) (s : Option Side) (i u : Nat)
  | timesNormal (cross unit : Bool) (s : Option Side) (i : Nat) (u : Option Nat)
  | solution (s : Side)
  | solutionDeriv (s : Side)
  | pointReference | pointPhysical | normal | unitNormal | area
  | result (it : Item) (m : List (Mat R))

/-- Answers. -/
inductive Ans (R P X M W : Type)
  | elem (a : PhysElem.Ans R P X M W)
  | results (m : List (Mat R))
  deriving DecidableEq

/-- What the user has set. -/
structure Now (R P : Type) where
  internal : Bool
  face : Option Nat
  point : Option P
  rule : Option Nat
  trafos : List (Option Nat)
  coeffs : Nat → Nat → Nat → R
  there : Item → Bool

variable {R P X M W : Type} [CommRing R] [AddCommGroup W] [Module R W] (g : Prog R P X M W)

/-- The element on a side of a face. -/
def Prog.elemAt (f : Nat) (s : Side) : PhysElem.Elem P X M W := g.base.elem ((g.face f).elem s)

/-- The data of the element on one side, at the place of the point. -/
def Now.side (n : Now R P) (f : Nat) (p : P) (s : Side) : PhysElem.Now R P :=
  ⟨some ((g.face f).elem s), some (g.base.faceMap ((g.face f).map s) p), none, n.trafos, n.coeffs, (0, 0), 0, false, false⟩

/-- Answers that depend on the present face and point. -/
def Now.here {α : Type} (n : Now R P) (f : Nat → P → Option α) : Option α := n.face.bind fun e => n.point.bind fun p => f e p

/-- What the element on a side answers; there is a right side on internal faces only. -/
def Now.askSide (n : Now R P) (s : Side) (a : PhysElem.Op R P) : Option (PhysElem.Ans R P X M W) :=
  n.here fun f p => if s = .left ∨ n.internal then (n.side g f p s).ask g.base a else none

/-- The number answered. -/
def theFn : PhysElem.Ans R P X M W → Option W
  | .fn w => some w
  | _ => none

/-- The function `i` on side `s`; on the right turned to the left, if needed. -/
def Now.fnSide (n : Now R P) (s : Side) (k : Kind) (i : Nat) (u : Option Nat) : Option W :=
  n.here fun f _ => ((n.askSide g s (.get k i u)).bind theFn).bind fun w =>
    match s, (g.face f).turn with
    | .right, some r => (n.trafos[u.getD 0]?.join).map fun t => g.turned t k r w
    | _, _ => some w

/-- The function `i`, counting first the functions on the left, then those on the right. -/
def Now.fn (n : Now R P) (k : Kind) (i : Nat) (u : Option Nat) : Option W :=
  n.here fun f _ =>
    let m := (g.elemAt f .left).size (u.getD 0)
    if u.getD 0 < (g.elemAt f .left).unknowns then
      if i < m then n.fnSide g .left k i u else n.fnSide g .right k (i - m) u
    else none

/-- The (unit) normal. -/
def Now.normal (n : Now R P) (unit : Bool) : Option W :=
  n.here fun f p => some (if unit then g.divide (g.normal f p) (g.norm (g.normal f p)) else g.normal f p)

/-- The function `i` times the (unit) normal pointing out of its element. -/
def Now.timesNormal (n : Now R P) (cross unit : Bool) (i : Nat) (u : Option Nat) : Option W :=
  n.here fun f _ => (n.normal g unit).bind fun v => (n.fn g (if cross then .vector else .value) i u).bind fun w =>
    if u = none → (g.elemAt f .left).uniform ∧ (n.internal = true → (g.elemAt f .right).uniform) then
      some (if i < (g.elemAt f .left).size (u.getD 0) then g.times cross unit v w else -g.times cross unit v w)
    else none

/-- The same for function `i` on side `s`. -/
def Now.timesNormalSide (n : Now R P) (cross unit : Bool) (s : Side) (i : Nat) (u : Option Nat) : Option W :=
  n.here fun f _ => (n.normal g unit).bind fun v => (n.fnSide g s (if cross then .vector else .value) i u).bind fun w =>
    if u = none → (g.elemAt f .left).uniform ∧ (n.internal = true → (g.elemAt f .right).uniform) then
      some (match s with | .left => g.times cross unit v w | .right => -g.times cross unit v w)
    else none

/-- Sizes of the results, for elements with `l` and `r` functions. -/
def sizes (l r : Nat) : Item → List (Nat × Nat)
  | .matrix => [(l, l), (l, r), (r, l), (r, r)]
  | .leftRight => [(l, r)]
  | .rightLeft => [(r, l)]
  | .vector => [(l + r, 1)]
  | .elemMatrix .left => [(l, l)]
  | .elemMatrix .right => [(r, r)]
  | .elemVector .left => [(l, 1)]
  | .elemVector .right => [(r, 1)]

/-- Whether the item is about the right side only. -/
def Item.needsRight : Item → Bool
  | .leftRight | .rightLeft | .elemMatrix .right | .elemVector .right => true
  | _ => false

def zeros (s : Nat × Nat) : Mat R := ⟨s.1, s.2, List.replicate (s.1 * s.2) 0⟩

/-- The number of functions on a side of a face. -/
def Prog.count (f : Nat) : Side → Nat
  | .left => (g.elemAt f .left).total
  | .right => if (g.face f).internal then (g.elemAt f .right).total else 0

/-- The list answered. -/
def theFns : PhysElem.Ans R P X M W → Option (List W)
  | .fns w => some w
  | _ => none

/-- The solution or its derivatives on a side, for all unknowns; on the right turned to the left, if needed. -/
def Now.solution (n : Now R P) (s : Side) (k : Kind) (a : PhysElem.Op R P) : Option (List W) :=
  n.here fun f _ => ((n.askSide g s a).bind theFns).bind fun l =>
    match s, (g.face f).turn with
    | .right, some r => (n.trafos[0]?.join).map fun t => l.map (g.turned t k r)
    | _, _ => some l

/-- The answer to a request for data. -/
def Now.ask (n : Now R P) : Op R P → Option (Ans R P X M W)
  | .fn vec none i u => (n.fn g (if vec then .vector else .value) i u).map fun w => .elem (.fn w)
  | .fn vec (some s) i u => (n.fnSide g s (if vec then .vector else .value) i u).map fun w => .elem (.fn w)
  | .der k none i u => (n.fn g k.kind i (some u)).map fun w => .elem (.fn w)
  | .der k (some s) i u => (n.fnSide g s k.kind i (some u)).map fun w => .elem (.fn w)
  | .timesNormal cross unit none i u => (n.timesNormal g cross unit i u).map fun w => .elem (.fn w)
  | .timesNormal cross unit (some s) i u =>
    if cross then none else (n.timesNormalSide g cross unit s i u).map fun w => .elem (.fn w)
  | .solution s => (n.solution g s .value .solution).map fun l => .elem (.fns l)
  | .solutionDeriv s => (n.solution g s .deriv .solutionDeriv).map fun l => .elem (.fns l)
  | .pointReference => n.point.map fun p => .elem (.ref p)
  | .pointPhysical => (n.askSide g .left .pointPhysical).map .elem
  | .normal => (n.normal g false).map fun w => .elem (.fn w)
  | .unitNormal => (n.normal g true).map fun w => .elem (.fn w)
  | .area => (n.normal g false).map fun w => .elem (.num (g.norm w))
  | _ => none

/-- After a change all results are there again. -/
def Now.moved (n : Now R P) : Now R P := { n with there := fun _ => true }

/-- One request: what is set afterwards, and the answer. Points and rules can only be set on a face, and a rule has to be set for
each face; results are handed out once for each place, filled with zeros. -/
def Now.act (n : Now R P) : Op R P → Option (Now R P × Ans R P X M W)
  | .setFace f => if n.internal = (g.face f).internal then some ({ n with face := some f, rule := none }.moved, .elem .done) else none
  | .setPoint p => n.face.bind fun _ => some ({ n with point := some p }.moved, .elem .done)
  | .setRule r => n.face.bind fun _ => (g.base.points r)[0]?.bind fun p =>
      some ({ n with point := some p, rule := some r }.moved, .elem .done)
  | .setIndex q => n.face.bind fun _ => n.rule.bind fun r => (g.base.points r)[q]?.bind fun p =>
      some ({ n with point := some p }.moved, .elem .done)
  | .setTransform t u =>
    if u < n.trafos.length then some ({ n with trafos := n.trafos.set u (some t) }.moved, .elem .done)
    else if n.face.isNone then
      some ({ n with trafos := n.trafos ++ List.replicate (u - n.trafos.length) none ++ [some t] }.moved, .elem .done)
    else none
  | .result it _ => n.here fun f _ =>
      if n.there it = true ∧ (it.needsRight = true → n.internal = true) then
        some ({ n with there := fun j => if j = it then false else n.there j },
          .results ((sizes (g.count f .left) (g.count f .right) it).map zeros))
      else none
  | a => (n.ask g a).map fun r => (n, r)

/-- The answers to a sequence of requests, up to the first that is not possible (then the second entry is false). -/
def Now.answers (n : Now R P) : List (Op R P) → List (Ans R P X M W) × Bool
  | [] => ([], true)
  | a :: l =>
    match n.act g a with
    | none => ([], false)
    | some (n, v) => let r := n.answers l; (v :: r.1, r.2)

/-- At the start. -/
def Now.start (internal : Bool) (c : Nat → Nat → Nat → R) : Now R P := ⟨internal, none, none, none, [some 0], c, fun _ => false⟩

/-- All faces of the sequence have elements with `size s u` functions on the side `s` for each of the unknowns. -/
def alike (unknowns : Nat) (size : Side → Nat → Nat) (l : List (Op R P)) : Prop :=
  ∀ f, Op.setFace f ∈ l → ∀ s, s = .left ∨ (g.face f).internal = true →
    (g.elemAt f s).unknowns = unknowns ∧ ∀ u < unknowns, (g.elemAt f s).size u = size s u

/-- If the solution on the right is asked for, no face of the sequence has to be turned. -/
def straight (l : List (Op R P)) : Prop :=
  Op.solution .right ∈ l ∨ Op.solutionDeriv .right ∈ l → ∀ f, Op.setFace f ∈ l → (g.face f).turn = none

/-- A request within bounds: the user leaves matrices of the sizes they got; functions asked for by side exist there. -/
def Op.sound (internal : Bool) (unknowns : Nat) (size : Side → Nat → Nat) : Op R P → Prop
  | .result it m =>
    let n s := ((List.range unknowns).map (size s)).sum
    m.map (fun x => (x.rows, x.cols)) = sizes (n .left) (if internal then n .right else 0) it ∧ ∀ x ∈ m, x.entries.length = x.rows * x.cols
  | .der _ (some .left) i u => i < size .left u
  | .timesNormal _ _ (some .left) i u => i < size .left (u.getD 0)
  | _ => True

/-- After another face is set, a rule is set before one of its points is asked for (`fresh`: that is the case); and products of a
scalar function with the normal are asked for without unknown. -/
def regular (fresh : Bool) : List (Op R P) → Prop
  | [] => True
  | .setFace _ :: l => regular false l
  | .setRule _ :: l => regular true l
  | .setIndex _ :: l => fresh = true ∧ regular fresh l
  | .timesNormal false _ _ _ (some _) :: _ => False
  | _ :: l => regular fresh l

end Verif.PhysFace
