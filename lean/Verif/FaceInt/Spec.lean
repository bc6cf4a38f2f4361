import Verif.PhysFace.Spec

/-!
# C77: integrals over faces

What a user asks a `FaceIntegral` for: the integral over a face of a function that gets its data from a `PhysicalFace`, by a
quadrature rule: the sum over the points of weight times surface element times value at the point.
-/
namespace Verif.FaceInt
open PhysFace

/-- A function of a `PhysicalFace`: requests, and a result computed from the answers. -/
inductive Script (R P X M W : Type) (α : Type) : Type
  | ret (a : α) : Script R P X M W α
  | stop : Script R P X M W α
  | ask (a : Op R P) (k : Ans R P X M W → Script R P X M W α) : Script R P X M W α

/-- Run the function with a face that answers by `act`. -/
def Script.run {R P X M W α S : Type} (act : S → Op R P → Option (S × Ans R P X M W)) : Script R P X M W α → S → Option (S × α)
  | .ret a, s => some (s, a)
  | .stop, _ => none
  | .ask a k, s => (act s a).bind fun (s, v) => (k v).run act s

/-- Requests an integrand makes: it does not move the face. -/
def reads {R P : Type} : Op R P → Prop
  | .setFace _ | .setPoint _ | .setRule _ | .setIndex _ | .setTransform _ _ => False
  | _ => True

/-- The requests of the integrand are within bounds, and the solution on the right is asked for only if `q`. -/
def Script.polite {R P X M W α : Type} (q : Prop) (internal : Bool) (unknowns : Nat) (size : Side → Nat → Nat) :
    Script R P X M W α → Prop
  | .ret _ => True
  | .stop => True
  | .ask a k => (reads a ∧ a.sound internal unknowns size ∧ (a = .solution .right ∨ a = .solutionDeriv .right → q) ∧
      ∀ d s i u, a ≠ .timesNormal false d s i (some u)) ∧ ∀ v, (k v).polite q internal unknowns size

/-- What is asked of a `FaceIntegral`: set a transformation for an unknown, switch the surface element on or off, integrate over face `f`
with rule `r`. -/
inductive Job (R P X M W V : Type)
  | transform (t u : Nat)
  | scaling (b : Bool)
  | integrate (f r : Nat) (body : Script R P X M W V)

variable {R P X M W V : Type} [CommRing R] [AddCommGroup W] [Module R W] [AddCommGroup V] [Module R V]
variable (g : PhysFace.Prog R P X M W) (weight : Nat → Nat → R)

/-- The face `f` at the point `p`. -/
def place (trafos : List (Option Nat)) (coeffs : Nat → Nat → Nat → R) (f : Nat) (p : P) : PhysFace.Now R P :=
  ⟨(g.face f).internal, some f, some p, none, trafos, coeffs, fun _ => true⟩

/-- The value of the integrand at the point. -/
def valueAt (trafos : List (Option Nat)) (coeffs : Nat → Nat → Nat → R) (f : Nat) (p : P) (body : Script R P X M W V) : Option V :=
  (body.run (PhysFace.Now.act g) (place g trafos coeffs f p)).map fun x => x.2

/-- The integral: the sum over all points of the rule, with the surface element if `scaled`. There is none if the rule has no points or the
integrand has no value at one of them. -/
def integral (trafos : List (Option Nat)) (coeffs : Nat → Nat → Nat → R) (scaled : Bool) (f r : Nat) (body : Script R P X M W V) : Option V :=
  if g.base.points r = [] then none
  else ((g.base.points r).zipIdx.mapM fun (x : P × Nat) => (valueAt g trafos coeffs f x.1 body).map fun v =>
      (weight r x.2 * if scaled then g.norm (g.normal f x.1) else 1) • v).map List.sum

/-- What is set. -/
structure Setting where
  trafos : List (Option Nat)
  scaled : Bool
  used : Bool

/-- One request; integrals are answered. The number of transformations can only grow before the first integral. -/
def Setting.act (coeffs : Nat → Nat → Nat → R) (s : Setting) : Job R P X M W V → Option (Setting × Option V)
  | .transform t u =>
    if u < s.trafos.length then some ({ s with trafos := s.trafos.set u (some t) }, none)
    else if s.used then none
    else some ({ s with trafos := s.trafos ++ List.replicate (u - s.trafos.length) none ++ [some t] }, none)
  | .scaling b => some ({ s with scaled := b }, none)
  | .integrate f r body => (integral g weight s.trafos coeffs s.scaled f r body).map fun v => ({ s with used := true }, some v)

/-- The answers to a sequence of requests, up to the first that is not possible (then the second entry is false). -/
def Setting.answers (coeffs : Nat → Nat → Nat → R) (s : Setting) : List (Job R P X M W V) → List (Option V) × Bool
  | [] => ([], true)
  | a :: l =>
    match s.act g weight coeffs a with
    | none => ([], false)
    | some (s, v) => let r := s.answers coeffs l; (v :: r.1, r.2)

/-- At the start. -/
def Setting.start : Setting := ⟨[some 0], true, false⟩

/-- All faces have elements with `size s u` functions on side `s` for each of the unknowns (not necessarily the same for faces on the
boundary); integrands are within bounds; if they ask for the solution on the right, no face is turned. -/
def Job.fits (q : Prop) (unknowns : Bool → Nat) (size : Bool → Side → Nat → Nat) : Job R P X M W V → Prop
  | .integrate f _ body =>
    let b := (g.face f).internal
    (∀ s, s = .left ∨ b = true → (g.elemAt f s).unknowns = unknowns b ∧ ∀ u < unknowns b, (g.elemAt f s).size u = size b s u) ∧
      body.polite q b (unknowns b) (size b) ∧ (q → (g.face f).turn = none)
  | _ => True

end Verif.FaceInt
