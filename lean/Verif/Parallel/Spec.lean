import Verif.Parallel.Model
import Mathlib.Data.List.Perm.Basic
import Mathlib.Algebra.BigOperators.Group.List.Basic
import Mathlib.Algebra.Module.Pi

/-! # What the operations are to do to the coefficients of the whole mesh -/
namespace Verif.Parallel
open Verif.Submesh

variable {V : Type} [AddCommGroup V] [Module ℝ V]

/-- The two values that an internal face adds, to the left and to the right. -/
def sides (P : Problem V) (t : ℝ) (f : Nat) (a b : V) : V × V :=
  if P.computeBoth then P.both f a b t else (P.atSide f true a b t, P.atSide f false a b t)

/-- What a face contributes to element `e` if `left a b`, `right a b` and `wall a` are the values for the coefficients `a` on the left and
`b` on the right. An element can be on both sides (a periodic mesh). -/
def share (left right : Nat → V → V → V) (wall : Nat → V → V) (u : Nat → V) (e : Nat) (f : Face) : V :=
  match f.right with
  | some r => (if f.left = e then left f.id (u f.left) (u r) else 0) + (if r = e then right f.id (u f.left) (u r) else 0)
  | none => if f.left = e then wall f.id (u f.left) else 0

/-- The right hand side at element `e`: the integral over the element and those over its faces. -/
def rightHandSide (P : Problem V) (faces : List Face) (t : ℝ) (u : Nat → V) (e : Nat) : V :=
  P.atElement e (u e) t + (faces.map (share (fun f a b => (sides P t f a b).1) (fun f a b => (sides P t f a b).2)
    (fun f a => P.atBoundary f a t) u e)).sum

/-- The product with the stiffness matrix of the whole mesh. -/
def stiffness (P : Problem V) (faces : List Face) (u : Nat → V) (e : Nat) : V :=
  P.elementMatrix e (u e) + (faces.map (share (fun f a b => P.faceMatrix f true true a + P.faceMatrix f true false b)
    (fun f a b => P.faceMatrix f false true a + P.faceMatrix f false false b) (fun f a => P.faceMatrix f true true a) u e)).sum

/-- The sources at the boundary of element `e`. -/
def boundarySources (P : Problem V) (faces : List Face) (t : ℝ) (k e : Nat) : V :=
  (faces.map (share (fun _ _ _ => 0) (fun _ _ _ => 0) (fun f _ => P.boundarySource f t k) (fun _ => 0) e)).sum

/-- A combination of vectors of the whole mesh. -/
def combined (g : Data V) (ins : List (Nat × ℝ)) (e : Nat) : V := (ins.map fun p => p.2 • g p.1 e).sum

/-- The new target of an operation, for the vectors `g` of the whole mesh, which has the given faces. -/
def Op.value (P : Problem V) (faces : List Face) (g : Data V) : Op → Nat → V
  | .rhs inp _ t => rightHandSide P faces t (g inp)
  | .rhsOf ins _ t => rightHandSide P faces t (combined g ins)
  | .mass v => fun e => P.solveMass e (g v e)
  | .scale v c => fun e => c • g v e
  | .add v w c => fun e => g v e + c • g w e
  | .initial _ t k => fun e => P.initial e t k
  | .multiply inp _ => stiffness P faces (g inp)
  | .multiplyOf ins _ => stiffness P faces (combined g ins)
  | .source v t k => fun e => g v e + P.source e t k
  | .boundary v t k => fun e => g v e + boundarySources P faces t k e
  | .sync v => g v

/-- Only the target changes. -/
def Op.effect (P : Problem V) (faces : List Face) (g : Data V) (op : Op) : Data V :=
  Function.update g op.target (op.value P faces g)

/-- The result is different from the inputs, and there are inputs. -/
def Op.Allowed : Op → Prop
  | .rhs inp res _ => inp ≠ res
  | .rhsOf ins res _ => ins ≠ [] ∧ ∀ p ∈ ins, p.1 ≠ res
  | .multiply inp res => inp ≠ res
  | .multiplyOf ins res => ins ≠ [] ∧ ∀ p ∈ ins, p.1 ≠ res
  | _ => True

/-- An element that the process has or receives. -/
def Known (w : Rank) (e : Nat) : Prop := e ∈ w.elems ∨ ∃ p, e ∈ w.pull p

/-- All processes have the values of the whole mesh for the elements they know. -/
def Coherent (ws : List Rank) (D : Nat → Data V) (g : Data V) : Prop :=
  ∀ (q : Nat) (w : Rank), ws[q]? = some w → ∀ v e, Known w e → D q v e = g v e

/-- The face is next to the element. -/
def Face.at (f : Face) (e : Nat) : Prop := f.left = e ∨ f.right = some e

instance (f : Face) (e : Nat) : Decidable (f.at e) := inferInstanceAs (Decidable (_ ∨ _))

/-- Every process has the faces of the mesh next to its own elements, and knows the elements next to these faces. Nothing is asked of
its other faces. -/
structure Complete (ws : List Rank) (faces : Nat → List Face) (all : List Face) : Prop where
  nodup : ∀ w ∈ ws, w.elems.Nodup
  own : ∀ (q : Nat) (w : Rank), ws[q]? = some w → ∀ e ∈ w.elems,
    ((faces q).filter fun f => f.at e).Perm (all.filter fun f => f.at e)
  left : ∀ (q : Nat) (w : Rank), ws[q]? = some w → ∀ e ∈ w.elems, ∀ f ∈ faces q, f.at e → Known w f.left
  right : ∀ (q : Nat) (w : Rank), ws[q]? = some w → ∀ e ∈ w.elems, ∀ f ∈ faces q, f.at e → ∀ r, f.right = some r → Known w r

/-- The time derivative of the coefficients of the whole mesh. -/
def derivative (P : Problem V) (all : List Face) (t : ℝ) (u : Nat → V) (e : Nat) : V := P.solveMass e (rightHandSide P all t u e)

/-- The time derivative of a linear problem, with or without sources. -/
def linearDerivative (P : Problem V) (all : List Face) (useSource useBoundary : Bool) (t : ℝ) (u : Nat → V) (e : Nat) : V :=
  P.solveMass e (stiffness P all u e + (if useSource then P.source e t 0 else 0) + (if useBoundary then boundarySources P all t 0 e else 0))

/-- The Runge-Kutta steps of the whole mesh. -/
def march (T : RungeKutta.Tableau) (f : ℝ → (Nat → V) → Nat → V) (dt : ℝ) : Nat → ℝ → Data V → Data V
  | 0, _, g => g
  | n + 1, time, g => march T f dt n (time + dt) (RungeKutta.computeOneTimeStep (V := Nat → V) T f g time dt).1

end Verif.Parallel
