import Mathlib.Algebra.Module.Basic
import Mathlib.Algebra.BigOperators.Group.List.Basic
import Mathlib.Data.Real.Basic

/-!
# Model of the solver for a sequence of harmonic problems

applications/DG-Max/Algorithms/HarmonicSolver.cpp with `AbstractDiscretization` (Algorithms/AbstractDiscretization.h) and the dispersive materials (Utils/Dispersive.h). The
local integrals are functions of what the code of the discretisation reads; the solver keeps what it computed for earlier problems in the elements, the faces and
the global matrices. PETSc operations are exact.
-/
namespace Verif.Harmonic

/-- The data of a mesh and a discretisation. `A` holds matrices and `B` vectors of the whole system. -/
structure Discretisation (E F BC Src Val A B : Type) where
  /-- the elements and faces of the mesh -/
  elements : List E
  faces : List F
  /-- `none`: a material that does not depend on the wave number (`isDispersive()` is false); `some o`: the element has the object `o` of class `Dispersive` -/
  object : E → Option Nat
  /-- the element on the left and, of an internal face, on the right -/
  left : F → E
  right : F → Option E
  /-- `computeElementMatrices` (DGMaxDiscretization.cpp:192-269): mass and stiffness. The argument is the wave number the material of the element knows; a material that is
  not dispersive has none. -/
  mass : E → Option ℝ → A
  stiff : E → Option ℝ → A
  /-- `elementInnerProduct` with the source of the problem -/
  elementVector : E → Src → B
  /-- `computeFaceMatrix` (DGMaxDiscretization.cpp:343-436) for a type of boundary condition, with the wave numbers the materials on both sides know. The impedance does
  not depend on them, `getImpedance` (ElementInfos.h:168) is a constant of the material. -/
  faceStiff : F → BC → Option ℝ → Option ℝ → A
  impedance : F → BC → A
  /-- `faceVector` (DGMaxDiscretization.cpp:475-521) -/
  faceVector : F → BC → Val → Option ℝ → Option ℝ → B

/-- HarmonicProblem.h:73-98: what is asked of a problem. -/
structure Problem (F BC Src Val : Type) where
  omega : ℝ
  source : Src
  bcType : F → BC
  bcValue : Val

/-- HarmonicProblem.h:129-141 and AbstractHarmonicSolverDriver.h: the answers of `hasChanged` of the driver. -/
structure Changes where
  omega : Bool
  source : Bool
  bcType : Bool
  bcValue : Bool

/-- What is kept from one problem to the next: the wave numbers of the objects (`none`: not a number), the matrices and vectors of elements and faces, the global matrices
and vectors. -/
structure State (E F A B : Type) where
  wave : Nat → Option ℝ
  eMass : E → A
  eStiff : E → A
  eVec : E → B
  fStiff : F → A
  fImp : F → A
  fVec : F → B
  mass : A
  stiff : A
  imp : A
  solver : Option A
  load : B

variable {E F BC Src Val A B : Type} [AddCommGroup A] [Module ℝ A] [AddCommGroup B]

/-- HarmonicSolver.cpp:245-262 `checkDispersion`. The elements of all processes are in one list, as the reduction with the maximum has it. -/
def checkDispersion (D : Discretisation E F BC Src Val A B) : Bool := D.elements.any fun e => (D.object e).isSome

/-- The wave number the material of an element knows (Dispersive.h:66-68 `getDispersionWavenumber`). -/
def seen (D : Discretisation E F BC Src Val A B) (wave : Nat → Option ℝ) (e : E) : Option ℝ := (D.object e).bind wave

/-- As above, for the element on the right, if any. -/
def seenRight (D : Discretisation E F BC Src Val A B) (wave : Nat → Option ℝ) (f : F) : Option ℝ := (D.right f).bind (seen D wave)

/-- Dispersive.h:79-86 `setDispersionWavenumber` of the container with the objects `registered`; they exist as long as the solver. -/
def setWave (registered : List Nat) (omega : ℝ) (s : State E F A B) : State E F A B :=
  { s with wave := fun o => if o ∈ registered then some omega else s.wave o }

/-- `computeElementIntegrals` (DGMaxDiscretization.cpp:92-136) with `ALL` if `full`, otherwise `ONLY_VECTORS`. -/
def elementIntegrals (D : Discretisation E F BC Src Val A B) (full : Bool) (p : Problem F BC Src Val) (s : State E F A B) : State E F A B :=
  { s with
    eMass := if full then fun e => D.mass e (seen D s.wave e) else s.eMass
    eStiff := if full then fun e => D.stiff e (seen D s.wave e) else s.eStiff
    eVec := fun e => D.elementVector e p.source }

/-- `computeFaceIntegrals` (DGMaxDiscretization.cpp:138-189). -/
def faceIntegrals (D : Discretisation E F BC Src Val A B) (full : Bool) (p : Problem F BC Src Val) (s : State E F A B) : State E F A B :=
  { s with
    fStiff := if full then fun f => D.faceStiff f (p.bcType f) (seen D s.wave (D.left f)) (seenRight D s.wave f) else s.fStiff
    fImp := if full then fun f => D.impedance f (p.bcType f) else s.fImp
    fVec := fun f => D.faceVector f (p.bcType f) p.bcValue (seen D s.wave (D.left f)) (seenRight D s.wave f) }

/-- `reinit` of the global matrices and the copy to the solver (HarmonicSolver.cpp:314-328). -/
def assemble (D : Discretisation E F BC Src Val A B) (s : State E F A B) : State E F A B :=
  let stiff := (D.elements.map s.eStiff).sum + (D.faces.map s.fStiff).sum
  { s with
    mass := (D.elements.map s.eMass).sum
    stiff := stiff
    imp := (D.faces.map s.fImp).sum
    solver := some stiff }

/-- HarmonicSolver.cpp:264-332 `computeIntegrals`. -/
def computeIntegrals (D : Discretisation E F BC Src Val A B) (c : Changes) (p : Problem F BC Src Val) (s : State E F A B) : State E F A B :=
  let full := c.bcType || (checkDispersion D && c.omega)
  let s := if full || c.source then elementIntegrals D full p s else s
  let s := if full || c.bcValue then faceIntegrals D full p s else s
  let s := if full then assemble D s else s
  { s with load := (D.elements.map s.eVec).sum + (D.faces.map s.fVec).sum }

/-- HarmonicSolver.cpp:334-355 `assembleSolverMatrix`. `none`: there is no solver matrix to copy to. -/
def assembleSolverMatrix (omega : ℝ) (s : State E F A B) : Option (State E F A B) :=
  match s.solver with
  | none => none
  | some _ => some { s with solver := some (s.stiff + omega • s.imp + (-omega * omega) • s.mass) }

/-- HarmonicSolver.cpp:405-427: one pass of the loop of `solve`, with the matrix and the right hand side of the system that is solved. `none`: a matrix is missing. -/
def pass (D : Discretisation E F BC Src Val A B) (registered : List Nat) (c : Changes) (p : Problem F BC Src Val) (s : State E F A B) :
    Option (State E F A B × A × B) := do
  let s := if c.omega then setWave registered p.omega s else s
  let s := computeIntegrals D c p s
  let s ← if c.omega || c.bcType then assembleSolverMatrix p.omega s else some s
  let m ← s.solver
  return (s, m, s.load)

/-- HarmonicSolver.cpp:397-428 `solve`: the problems of the driver, in order, with its answers, and the systems that are solved. -/
def solve (D : Discretisation E F BC Src Val A B) (registered : List Nat) : List (Changes × Problem F BC Src Val) → State E F A B → Option (List (A × B))
  | [], _ => some []
  | (c, p) :: rest, s => do
    let (s, m, b) ← pass D registered c p s
    let r ← solve D registered rest s
    return (m, b) :: r

/-- DGMaxSource.cpp:286-328 `nextProblem` and `hasChanged` of the driver of the application for problem number `n`. -/
def sourceDriver (n : Nat) : Changes :=
  if n = 0 then ⟨true, true, true, true⟩ else ⟨true, true, false, true⟩

end Verif.Harmonic
