import Verif.Submesh.Spec
import Verif.RungeKutta.Model
import Mathlib.Algebra.Module.Basic
import Mathlib.Data.Real.Basic

/-!
# Model of the operations of the solver on the coefficients of all elements

The functions of `HpgemAPISimplified` and `HpgemAPILinear` that go through the elements and faces of a mesh and end with
`synchronize` (kernel/Base/HpgemAPISimplified_Impl.h:212-225, 279-291, 532-717, 751-820; kernel/Base/HpgemAPILinear_Impl.h:290-498). What an application provides for elements and faces, and the integrals over them, are parameters. Elements and
faces are given by their numbers. The time integration vectors of a process are a function of the number of the vector and the
element. All vectors of coefficients are in one real vector space (in the code their lengths depend on the element).
-/
namespace Verif.Parallel
open Verif.Submesh

variable {V : Type} [AddCommGroup V] [Module ℝ V]

/-- A face as a process sees it: its number, the element on the left and, if `isInternal()`, the element on the right. -/
structure Face where
  id : Nat
  left : Nat
  right : Option Nat
deriving DecidableEq

/-- What the application provides. `atSide` is `computeRightHandSideAtFace(face, side, left, right, time)`, with `true` for the
left side; `both` is `computeBothRightHandSidesAtFace`; `computeBoth` is `computeBothFaces_`; `solveMass` is
`solveMassMatrixEquationsAtElement`. The rest is used by the linear version only: the stiffness matrices as functions
(`true` for `Side::LEFT`, test side first) and the source terms. -/
structure Problem (V : Type) where
  atElement : Nat → V → ℝ → V
  atSide : Nat → Bool → V → V → ℝ → V
  both : Nat → V → V → ℝ → V × V
  computeBoth : Bool
  atBoundary : Nat → V → ℝ → V
  solveMass : Nat → V → V
  initial : Nat → ℝ → Nat → V
  elementMatrix : Nat → V → V
  faceMatrix : Nat → Bool → Bool → V → V
  source : Nat → ℝ → Nat → V
  boundarySource : Nat → ℝ → Nat → V

/-- `getTimeIntegrationVector(v)` of element `e` as `d v e`. -/
abbrev Data (V : Type) := Nat → Nat → V

/-- Assignment to a vector of an element. -/
def Data.set (d : Data V) (v e : Nat) (x : V) : Data V := Function.update d v (Function.update (d v) e x)

/-- `getLinearCombinationOfVectors` (HpgemAPISimplified_Impl.h:599-620) for one element; without vectors an assertion fails and the value here
is 0. -/
def combination (d : Data V) (e : Nat) : List (Nat × ℝ) → V
  | [] => 0
  | (v, c) :: l => l.foldl (fun acc p => acc + p.2 • d p.1 e) (c • d v e)

/-- The body of the loop over faces of `computeRightHandSide(inputVectorId, resultVectorId, time)`
(HpgemAPISimplified_Impl.h:550-597). The coefficients are references, so that the second call on the right side reads the vectors after the
first addition. -/
def faceRef (P : Problem V) (t : ℝ) (inp res : Nat) (d : Data V) (f : Face) : Data V :=
  match f.right with
  | some r =>
    if P.computeBoth then
      let x := P.both f.id (d inp f.left) (d inp r) t
      let d := d.set res f.left (d res f.left + x.1)
      d.set res r (d res r + x.2)
    else
      let d := d.set res f.left (d res f.left + P.atSide f.id true (d inp f.left) (d inp r) t)
      d.set res r (d res r + P.atSide f.id false (d inp f.left) (d inp r) t)
  | none => d.set res f.left (d res f.left + P.atBoundary f.id (d inp f.left) t)

/-- HpgemAPISimplified_Impl.h:533-597 `computeRightHandSide(inputVectorId, resultVectorId, time)`, up to `synchronize`. -/
def rhsRef (P : Problem V) (t : ℝ) (inp res : Nat) (elems : List Nat) (faces : List Face) (d : Data V) : Data V :=
  faces.foldl (faceRef P t inp res) (elems.foldl (fun d e => d.set res e (P.atElement e (d inp e) t)) d)

/-- The body of the loop over faces of the version for a combination of vectors (HpgemAPISimplified_Impl.h:645-692), which
copies the combinations first. -/
def faceCopy (P : Problem V) (t : ℝ) (ins : List (Nat × ℝ)) (res : Nat) (d : Data V) (f : Face) : Data V :=
  match f.right with
  | some r =>
    let a := combination d f.left ins
    let b := combination d r ins
    if P.computeBoth then
      let x := P.both f.id a b t
      let d := d.set res f.left (d res f.left + x.1)
      d.set res r (d res r + x.2)
    else
      let d := d.set res f.left (d res f.left + P.atSide f.id true a b t)
      d.set res r (d res r + P.atSide f.id false a b t)
  | none => d.set res f.left (d res f.left + P.atBoundary f.id (combination d f.left ins) t)

/-- HpgemAPISimplified_Impl.h:626-692 `computeRightHandSide(inputVectorIds, coefficientsInputVectors, resultVectorId, time)`,
up to `synchronize`. -/
def rhsCopy (P : Problem V) (t : ℝ) (ins : List (Nat × ℝ)) (res : Nat) (elems : List Nat) (faces : List Face) (d : Data V) :
    Data V :=
  faces.foldl (faceCopy P t ins res) (elems.foldl (fun d e => d.set res e (P.atElement e (combination d e ins) t)) d)

/-- The body of the loop over faces of `multiplyStiffnessMatrices(inputVectorId, resultVectorId)`
(HpgemAPILinear_Impl.h:307-354). -/
def multiplyFaceRef (P : Problem V) (inp res : Nat) (d : Data V) (f : Face) : Data V :=
  match f.right with
  | some r =>
    let d := d.set res f.left (d res f.left +
      (P.faceMatrix f.id true true (d inp f.left) + P.faceMatrix f.id true false (d inp r)))
    d.set res r (d res r + (P.faceMatrix f.id false true (d inp f.left) + P.faceMatrix f.id false false (d inp r)))
  | none => d.set res f.left (d res f.left + P.faceMatrix f.id true true (d inp f.left))

/-- HpgemAPILinear_Impl.h:291-354 `multiplyStiffnessMatrices(inputVectorId, resultVectorId)`, up to `synchronize`. -/
def multiplyRef (P : Problem V) (inp res : Nat) (elems : List Nat) (faces : List Face) (d : Data V) : Data V :=
  faces.foldl (multiplyFaceRef P inp res) (elems.foldl (fun d e => d.set res e (P.elementMatrix e (d inp e))) d)

/-- The body of the loop over faces of the version for a combination (HpgemAPILinear_Impl.h:379-431). -/
def multiplyFaceCopy (P : Problem V) (ins : List (Nat × ℝ)) (res : Nat) (d : Data V) (f : Face) : Data V :=
  match f.right with
  | some r =>
    let a := combination d f.left ins
    let b := combination d r ins
    let d := d.set res f.left (d res f.left + P.faceMatrix f.id true true a)
    let d := d.set res f.left (d res f.left + P.faceMatrix f.id true false b)
    let d := d.set res r (d res r + P.faceMatrix f.id false true a)
    d.set res r (d res r + P.faceMatrix f.id false false b)
  | none => d.set res f.left (d res f.left + P.faceMatrix f.id true true (combination d f.left ins))

/-- HpgemAPILinear_Impl.h:360-431 `multiplyStiffnessMatrices(inputVectorIds, coefficientsInputVectors, resultVectorId)`, up to
`synchronize`. -/
def multiplyCopy (P : Problem V) (ins : List (Nat × ℝ)) (res : Nat) (elems : List Nat) (faces : List Face) (d : Data V) :
    Data V :=
  faces.foldl (multiplyFaceCopy P ins res) (elems.foldl (fun d e => d.set res e (P.elementMatrix e (combination d e ins))) d)

/-- The body of the loop of `addSourceTermAtBoundary` (HpgemAPILinear_Impl.h:457-466). -/
def boundaryFace (P : Problem V) (t : ℝ) (k v : Nat) (d : Data V) (f : Face) : Data V :=
  match f.right with
  | some _ => d
  | none => d.set v f.left (d v f.left + P.boundarySource f.id t k)

/-- The operations that end with `synchronize`. -/
inductive Op where
  /-- `computeRightHandSide(inputVectorId, resultVectorId, time)` -/
  | rhs (inp res : Nat) (t : ℝ)
  /-- `computeRightHandSide(inputVectorIds, coefficientsInputVectors, resultVectorId, time)` -/
  | rhsOf (ins : List (Nat × ℝ)) (res : Nat) (t : ℝ)
  /-- `solveMassMatrixEquations(timeIntegrationVectorId)` -/
  | mass (v : Nat)
  /-- `scaleVector(timeIntegrationVectorId, scale)` -/
  | scale (v : Nat) (c : ℝ)
  /-- `scaleAndAddVector(vectorToChangeId, vectorToAddId, scale)` -/
  | add (v w : Nat) (c : ℝ)
  /-- `integrateInitialSolution(resultVectorId, initialTime, orderTimeDerivative)` -/
  | initial (v : Nat) (t : ℝ) (k : Nat)
  /-- `multiplyStiffnessMatrices(inputVectorId, resultVectorId)` -/
  | multiply (inp res : Nat)
  /-- `multiplyStiffnessMatrices(inputVectorIds, coefficientsInputVectors, resultVectorId)` -/
  | multiplyOf (ins : List (Nat × ℝ)) (res : Nat)
  /-- `addSourceTerm(resultVectorId, time, orderTimeDerivative)` -/
  | source (v : Nat) (t : ℝ) (k : Nat)
  /-- `addSourceTermAtBoundary(resultVectorId, time, orderTimeDerivative)` -/
  | boundary (v : Nat) (t : ℝ) (k : Nat)
  /-- a mere `synchronize` -/
  | sync (v : Nat)

/-- The vector that is synchronised at the end. -/
def Op.target : Op → Nat
  | .rhs _ res _ => res | .rhsOf _ res _ => res | .mass v => v | .scale v _ => v | .add v _ _ => v | .initial v _ _ => v
  | .multiply _ res => res | .multiplyOf _ res => res | .source v _ _ => v | .boundary v _ _ => v | .sync v => v

/-- What a process with the given own elements (`getElementsList()`) and known faces (`getFacesList()`) does before
`synchronize`: HpgemAPISimplified_Impl.h:215-222 `solveMassMatrixEquations`, 280-288 `integrateInitialSolution`, 698-702 `scaleVector`,
708-714 `scaleAndAddVector`, HpgemAPILinear_Impl.h:437-448 `addSourceTerm`, 453-466 `addSourceTermAtBoundary`, and the above. -/
def Op.work (P : Problem V) (elems : List Nat) (faces : List Face) (d : Data V) : Op → Data V
  | .rhs inp res t => rhsRef P t inp res elems faces d
  | .rhsOf ins res t => rhsCopy P t ins res elems faces d
  | .mass v => elems.foldl (fun d e => d.set v e (P.solveMass e (d v e))) d
  | .scale v c => elems.foldl (fun d e => d.set v e (c • d v e)) d
  | .add v w c => elems.foldl (fun d e => d.set v e (d v e + c • d w e)) d
  | .initial v t k => elems.foldl (fun d e => d.set v e (P.initial e t k)) d
  | .multiply inp res => multiplyRef P inp res elems faces d
  | .multiplyOf ins res => multiplyCopy P ins res elems faces d
  | .source v t k => elems.foldl (fun d e => d.set v e (d v e + P.source e t k)) d
  | .boundary v t k => faces.foldl (boundaryFace P t k v) d
  | .sync _ => d

/-- One operation on all processes: each does its work, then the target is synchronised, with the messages in any order
(`Submesh.Step`), until some process has passed the barrier at the end (the data no longer change
after that, C57). `D p` are the vectors of process `p`. -/
def After (P : Problem V) (ws : List Rank) (faces : Nat → List Face) (op : Op) (D D' : Nat → Data V) : Prop :=
  let W : Nat → Data V := fun p => op.work P ((ws[p]?).elim [] Rank.elems) (faces p) (D p)
  ∃ (s : State V) (r : Nat), Steps ws.length (initial ws fun p e => W p op.target e) s ∧ r < ws.length ∧
    s.phase r = .done ∧ D' = fun p => Function.update (W p) op.target (s.data p)

/-- Operations in turn. -/
inductive Run (P : Problem V) (ws : List Rank) (faces : Nat → List Face) : List Op → (Nat → Data V) → (Nat → Data V) → Prop
  | nil (D) : Run P ws faces [] D D
  | cons {op ops D D' D''} : After P ws faces op D D' → Run P ws faces ops D' D'' → Run P ws faces (op :: ops) D D''

/-- HpgemAPISimplified_Impl.h:778-786 `computeTimeDerivative(inputVectorIds, coefficientsInputVectors, resultVectorId, time)`. -/
def timeDerivative (ins : List (Nat × ℝ)) (res : Nat) (t : ℝ) : List Op := [.rhsOf ins res t, .mass res, .sync res]

/-- HpgemAPILinear_Impl.h:485-498: the same with the `computeRightHandSide` of the linear version. -/
def linearTimeDerivative (useSource useBoundary : Bool) (ins : List (Nat × ℝ)) (res : Nat) (t : ℝ) : List Op :=
  [.multiplyOf ins res] ++ (if useSource then [.source res t 0] else []) ++ (if useBoundary then [.boundary res t 0] else []) ++
    [.mass res, .sync res]

/-- HpgemAPISimplified_Impl.h:789-820 `computeOneTimeStep(time, dt)` (C08) for a way to compute time derivatives. -/
def timeStep (T : RungeKutta.Tableau) (deriv : List (Nat × ℝ) → Nat → ℝ → List Op) (time dt : ℝ) : List Op :=
  ((List.range T.stages).flatMap fun i =>
    deriv (RungeKutta.stageInputs T dt i) (RungeKutta.auxId i) (time + (T.getC i : ℝ) * dt)) ++
  (List.range T.stages).map fun j => .add RungeKutta.solId (RungeKutta.auxId j) (dt * (T.getB j : ℝ))

/-- HpgemAPISimplified_Impl.h:1028-1036 (`solve` with a fixed step): `n` steps in turn. Output between the steps does not change the vectors. -/
def timeSteps (T : RungeKutta.Tableau) (deriv : List (Nat × ℝ) → Nat → ℝ → List Op) (dt : ℝ) : Nat → ℝ → List Op
  | 0, _ => []
  | n + 1, time => timeStep T deriv time dt ++ timeSteps T deriv dt n (time + dt)

/-- HpgemAPISimplified_Impl.h:752-758 `setInitialSolution`. -/
def setInitialSolution (v : Nat) (t : ℝ) (k : Nat) : List Op := [.initial v t k, .mass v]

end Verif.Parallel
