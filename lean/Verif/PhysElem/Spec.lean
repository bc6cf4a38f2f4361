import Mathlib.Algebra.BigOperators.Group.Finset.Basic
import Mathlib.Algebra.Module.Basic

/-!
# C64, C65: data at a point of an element, without stored results

What a user asks a `PhysicalElement` for: basis functions and their derivatives, the Jacobian and what follows from it, the
position, the solution, all at the present point of the present element. Here every answer is computed when it is asked for.
-/
namespace Verif.PhysElem

/-- What can be asked of a basis function. -/
inductive Kind
  | value | vector | deriv | curl | div
  deriving DecidableEq

/-- An element: the number of unknowns, the number of functions of each, the functions (and derivatives) on the reference
element, the map to physical space and its Jacobian. -/
structure Elem (P X M W : Type) where
  unknowns : Nat
  size : Nat → Nat
  fn : Kind → Nat → Nat → P → W
  phys : P → X
  jac : P → M

/-- What does not change: the elements, the quadrature rules, the maps from faces, the transformations (given the reference value, the
Jacobian, its transpose and its determinant), and matrix functions. -/
structure Prog (R P X M W : Type) where
  elem : Nat → Elem P X M W
  points : Nat → List P
  faceMap : Nat → P → P
  transform : Nat → Kind → W → M → M → R → W
  transpose : M → M
  inverse : M → M
  det : M → R
  abs : R → R

/-- A matrix by its sizes and entries. -/
structure Mat (R : Type) where
  rows : Nat
  cols : Nat
  entries : List R
  deriving DecidableEq

/-- Requests. `get k i u` asks for the function `i` of the unknown `u`, or of "the" unknown. A result matrix is handed out to be
written to: `matrix m` is a request after which the user leaves `m`. `change c` changes coefficients of elements. -/
inductive Op (R P : Type)
  | setElement (e : Nat)
  | setPoint (p : P)
  | setRule (r : Nat)
  | setFaceRule (r m : Nat)
  | setIndex (q : Nat)
  | setTransformation (t u : Nat)
  | change (c : Nat → Nat → Nat → R)
  | get (k : Kind) (i : Nat) (u : Option Nat)
  | solution | solutionDeriv
  | pointReference | pointPhysical
  | jacobian | transposeJacobian | inverseTransposeJacobian | det | absDet
  | matrix (m : Mat R)
  | vector (v : List R)

/-- Answers. -/
inductive Ans (R P X M W : Type)
  | done
  | fn (w : W)
  | fns (w : List W)
  | ref (p : P)
  | phys (x : X)
  | mat (m : M)
  | num (r : R)
  | result (m : Mat R)
  | resultVector (v : List R)
  deriving DecidableEq

/-- What the user has set: the element, the point, the quadrature rule in use (with the map from a face), the transformation for each
unknown, the coefficients of all elements (element, unknown, function); the sizes of the result matrix and vector, and whether
they are still to be handed out. -/
structure Now (R P : Type) where
  elem : Option Nat
  point : Option P
  rule : Option (Nat × Option Nat)
  trafos : List (Option Nat)
  coeffs : Nat → Nat → Nat → R
  matrixSize : Nat × Nat
  vectorSize : Nat
  matrixThere : Bool
  vectorThere : Bool

variable {R P X M W : Type} [CommRing R] [AddCommGroup W] [Module R W] (g : Prog R P X M W)

/-- The value of function `j` of the unknown `u` on element `e` at `p`, transformed by `t`. -/
def value (e : Elem P X M W) (t : Nat) (k : Kind) (u j : Nat) (p : P) : W :=
  g.transform t k (e.fn k u j p) (e.jac p) (g.transpose (e.jac p)) (g.det (e.jac p))

/-- The total number of functions of an element. -/
def Elem.total (e : Elem P X M W) : Nat := ((List.range e.unknowns).map e.size).sum

/-- Answers that depend on the present element and point. -/
def Now.here (n : Now R P) (f : Elem P X M W → P → Option (Ans R P X M W)) : Option (Ans R P X M W) :=
  n.elem.bind fun e => n.point.bind fun p => f (g.elem e) p

/-- The expansion in the functions of the first unknown. -/
def Now.expansion (n : Now R P) (e : Elem P X M W) (id : Nat) (t : Nat) (k : Kind) (p : P) : List W :=
  (List.range e.unknowns).map fun v => ∑ b ∈ Finset.range (e.size v), n.coeffs id v b • value g e t k 0 b p

/-- All unknowns have the same number of functions. -/
def Elem.uniform (e : Elem P X M W) : Prop := ∀ v < e.unknowns, e.size v = e.size 0

instance (e : Elem P X M W) : Decidable e.uniform := by unfold Elem.uniform; infer_instance

/-- The answer to a request for data. -/
def Now.ask (n : Now R P) : Op R P → Option (Ans R P X M W)
  | .get k i (some u) => n.here g fun e p =>
    (n.trafos[u]?.join).bind fun t =>
      if u < e.unknowns ∧ i < e.size u then some (.fn (value g e t k u i p)) else none
  | .get k i none => n.here g fun e p =>
    (n.trafos[0]?.join).bind fun t =>
      if 0 < e.unknowns ∧ i < e.size 0 ∧ e.uniform then some (.fn (value g e t k 0 i p)) else none
  | .solution => n.elem.bind fun id => n.here g fun e p => (n.trafos[0]?.join).bind fun t =>
      if e.uniform then some (.fns (n.expansion g e id t .value p)) else none
  | .solutionDeriv => n.elem.bind fun id => n.here g fun e p => (n.trafos[0]?.join).bind fun t =>
      if e.uniform then some (.fns (n.expansion g e id t .deriv p)) else none
  | .pointReference => n.point.map .ref
  | .pointPhysical => n.here g fun e p => some (.phys (e.phys p))
  | .jacobian => n.here g fun e p => some (.mat (e.jac p))
  | .transposeJacobian => n.here g fun e p => some (.mat (g.transpose (e.jac p)))
  | .inverseTransposeJacobian => n.here g fun e p => some (.mat (g.inverse (g.transpose (e.jac p))))
  | .det => n.here g fun e p => some (.num (g.det (e.jac p)))
  | .absDet => n.here g fun e p => some (.num (g.abs (g.det (e.jac p))))
  | _ => none

/-- The point a rule gives. -/
def place (r : Nat) (m : Option Nat) (q : Nat) : Option P :=
  (g.points r)[q]?.map fun x => match m with | some m => g.faceMap m x | none => x

/-- After a change of place the matrix and the vector are there again. -/
def Now.moved (n : Now R P) : Now R P := { n with matrixThere := true, vectorThere := true }

/-- One request: what is set afterwards, and the answer. The point, and so the rule, can only be set for an element; a result
matrix is handed out once for each place; the numbers of transformations can only grow before there is an element. -/
def Now.act (n : Now R P) : Op R P → Option (Now R P × Ans R P X M W)
  | .setElement e =>
    let s := (g.elem e).total
    some ({ n with elem := some e, matrixSize := (s, s), vectorSize := s }.moved, .done)
  | .setPoint p => n.elem.bind fun _ => some ({ n with point := some p, rule := none }.moved, .done)
  | .setRule r => n.elem.bind fun _ => (place g r none 0).bind fun p =>
      some ({ n with point := some p, rule := some (r, none) }.moved, .done)
  | .setFaceRule r m => n.elem.bind fun _ => (place g r (some m) 0).bind fun p =>
      some ({ n with point := some p, rule := some (r, some m) }.moved, .done)
  | .setIndex q => n.elem.bind fun _ => n.rule.bind fun r => (place g r.1 r.2 q).bind fun p =>
      some ({ n with point := some p }.moved, .done)
  | .setTransformation t u =>
    if u < n.trafos.length then some ({ n with trafos := n.trafos.set u (some t) }.moved, .done)
    else if n.elem.isNone then
      some ({ n with trafos := n.trafos ++ List.replicate (u - n.trafos.length) none ++ [some t] }.moved, .done)
    else none
  | .change c => some ({ n with coeffs := c }, .done)
  | .matrix m =>
    if n.elem.isSome ∧ n.point.isSome ∧ n.matrixThere then
      some ({ n with matrixThere := false, matrixSize := (m.rows, m.cols) },
        .result ⟨n.matrixSize.1, n.matrixSize.2, List.replicate (n.matrixSize.1 * n.matrixSize.2) 0⟩)
    else none
  | .vector v =>
    if n.elem.isSome ∧ n.point.isSome ∧ n.vectorThere then
      some ({ n with vectorThere := false, vectorSize := v.length }, .resultVector (List.replicate n.vectorSize 0))
    else none
  | a => (n.ask g a).map fun r => (n, r)

/-- The answers to a sequence of requests, up to the first that is not possible (then the second entry is false). -/
def Now.answers (n : Now R P) : List (Op R P) → List (Ans R P X M W) × Bool
  | [] => ([], true)
  | a :: l =>
    match n.act g a with
    | none => ([], false)
    | some (n, v) => let r := n.answers l; (v :: r.1, r.2)

/-- At the start the transformation `0` is set for the first unknown. -/
def Now.start (c : Nat → Nat → Nat → R) : Now R P := ⟨none, none, none, [some 0], c, (0, 0), 0, false, false⟩

/-- The user leaves matrices with as many entries as they should have. -/
def Op.sound : Op R P → Prop
  | .matrix m => m.entries.length = m.rows * m.cols
  | _ => True

/-- In a sequence of requests, nobody asks for the solution again after a change of coefficients without having set something in
between. `asked`: the solution was asked for since something was set; `changed`: coefficients have changed since. -/
def upToDate (asked changed : Bool) : List (Op R P) → Bool
  | [] => true
  | .setElement _ :: l | .setPoint _ :: l | .setRule _ :: l | .setFaceRule _ _ :: l | .setIndex _ :: l
  | .setTransformation _ _ :: l => upToDate false false l
  | .change _ :: l => upToDate asked (changed || asked) l
  | .solution :: l | .solutionDeriv :: l => !changed && upToDate true changed l
  | _ :: l => upToDate asked changed l

end Verif.PhysElem
