import Verif.FaceInt.Spec
import Verif.PhysFace.Model

/-!
# C77: `FaceIntegral`

Model of kernel/Integration/FaceIntegral.h and FaceIntegral_Impl.h, on the `PhysicalFace` of `Verif/PhysFace/Model.lean`.

Simplifications: the check that the rule is for the shape of the face is left out; a rule that is not given is that of the face, so
it is always given here; values can be added and multiplied by numbers (`integratePair`: pairs of values).
-/
namespace Verif.FaceInt
open PhysFace

variable {R P X M W V : Type} [CommRing R] [AddCommGroup W] [Module R W] [AddCommGroup V] [Module R V]
variable (g : PhysFace.Prog R P X M W) (weight : Nat → Nat → R)

def Script.bind {α β : Type} : Script R P X M W α → (α → Script R P X M W β) → Script R P X M W β
  | .ret a, f => f a
  | .stop, _ => .stop
  | .ask a k, f => .ask a fun v => (k v).bind f

/-- `getScaleFactor`, FaceIntegral.h 119-125. -/
def scale (scaled : Bool) : Script R P X M W R :=
  if scaled then .ask .area fun
    | .elem (.num a) => .ret a
    | _ => .stop
  else .ret 1

/-- The value at one point times `weight(i) * getScaleFactor`, FaceIntegral_Impl.h 112-113, 120-124. -/
def term (scaled : Bool) (r i : Nat) (body : Script R P X M W V) : Script R P X M W V :=
  body.bind fun v => (scale scaled).bind fun c => .ret ((weight r i * c) • v)

/-- The loop over the next points, FaceIntegral_Impl.h 115-125. -/
def more (scaled : Bool) (r : Nat) (body : Script R P X M W V) : List Nat → V → Script R P X M W V
  | [], acc => .ret acc
  | i :: l, acc => .ask (.setIndex i) fun _ => (term weight scaled r i body).bind fun v => more scaled r body l (v + acc)

/-- `integrate`, FaceIntegral_Impl.h 67-127, on the `PhysicalFace` chosen. -/
def integrate (scaled : Bool) (f r : Nat) (body : Script R P X M W V) : Script R P X M W V :=
  .ask (.setFace f) fun _ => .ask (.setRule r) fun _ => (term weight scaled r 0 body).bind fun v =>
    more weight scaled r body (List.range' 1 ((g.base.points r).length - 1)) v

/-- A `PhysicalFace` with its elements. -/
abbrev FaceState (R P X M W : Type) := Core R P W × (Side → PhysElem.State R P X M W)

/-- One request to a `PhysicalFace`. -/
def faceAct (s : FaceState R P X M W) (a : Op R P) : Option (FaceState R P X M W × Ans R P X M W) :=
  ((s.1.act g a).run (PhysElem.State.act g.base) s.2).map fun (e, c, v) => ((c, e), v)

/-- The members, FaceIntegral.h 127-129; `face true` is `internalFace_`, `face false` is `boundaryFace_`. -/
structure State (R P X M W : Type) where
  face : Bool → FaceState R P X M W
  scaled : Bool

/-- One request. `setTransformation`: FaceIntegral_Impl.h 260-266, for both faces. -/
def State.act (s : State R P X M W) : Job R P X M W V → Option (State R P X M W × Option V)
  | .transform t u =>
    (faceAct g (s.face true) (.setTransform t u)).bind fun (x, _) => (faceAct g (s.face false) (.setTransform t u)).map fun (y, _) =>
      ({ s with face := fun b => if b then x else y }, none)
  | .scaling b => some ({ s with scaled := b }, none)
  | .integrate f r body =>
    ((integrate g weight s.scaled f r body).run (faceAct g) (s.face (g.face f).internal)).map fun (x, v) =>
      ({ s with face := Function.update s.face (g.face f).internal x }, some v)

/-- The answers to a sequence of requests, up to the first that stops the program. -/
def State.answers (s : State R P X M W) : List (Job R P X M W V) → List (Option V) × Bool
  | [] => ([], true)
  | a :: l =>
    match s.act g weight a with
    | none => ([], false)
    | some (s, v) => let r := s.answers l; (v :: r.1, r.2)

/-- The constructor, FaceIntegral_Impl.h 252-254; `raw` is what members without initial value hold. -/
def State.init (coeffs : Nat → Nat → Nat → R) (turn : Bool → Option Nat) (normal unitNormal : Bool → Option W) (area : Bool → Option R)
    (cache : Bool → Side → PhysElem.Cache R X M W) (r m q : Bool → Side → Nat) (d : Bool → Side → Bool) : State R P X M W :=
  ⟨fun b => (Core.init b (turn b) (normal b) (unitNormal b) (area b),
    fun s => PhysElem.State.init coeffs (cache b s) (r b s) (m b s) (q b s) (d b s)), true⟩

end Verif.FaceInt
