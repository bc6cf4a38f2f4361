import Verif.ElementData.Model
import Mathlib.Algebra.BigOperators.Group.Finset.Basic

/-! # Vocabulary for statements about the coefficients of elements -/
namespace Verif.ElementData

/-! ## Basis functions -/

/-- Calls that change which basis functions an element has. -/
inductive BasisOp where
  | clear (unknown : Nat)
  | register (unknown place position : Nat)
deriving DecidableEq

/-- The call. -/
def BasisOp.exec (sets : List BSet) (b : EBF) : BasisOp → Option EBF
  | .clear u => b.clear u
  | .register u p pos => b.register sets u p pos

/-- A sequence of calls on a new `ElementBasisFunctions`, oldest first. -/
def runBasis (sets : List BSet) (numberOfUnknowns : Nat) (h : List BasisOp) : Option EBF :=
  h.foldlM (BasisOp.exec sets) (EBF.init numberOfUnknowns)

/-- The arguments are in range. -/
def BasisOp.Valid (sets : List BSet) (numberOfUnknowns : Nat) : BasisOp → Prop
  | .clear u => u < numberOfUnknowns
  | .register u _ pos => u < numberOfUnknowns ∧ pos < sets.length

/-- The set that was registered last for an unknown and a place and is not cleared since. -/
def registered (h : List BasisOp) : Nat → Nat → Option Nat :=
  h.foldl (fun f op => match op with
    | .clear u => fun v q => if v = u then none else f v q
    | .register u p pos => fun v q => if v = u ∧ q = p then some pos else f v q) fun _ _ => none

/-- The number of basis functions of a place. -/
def sizeAt (sets : List BSet) : Option Nat → Nat
  | none => 0
  | some pos => (sets[pos]?.map BSet.size).getD 0

/-- The number of basis functions of an unknown at the places in front of `place`. -/
def before (sets : List BSet) (h : List BasisOp) (unknown place : Nat) : Nat :=
  ∑ q ∈ Finset.range place, sizeAt sets (registered h unknown q)

/-! ## Coefficients -/

/-- The coefficients as the user sees them: a value for every time level, unknown and basis function,
once the time level has been written to, and the same for the time integration vectors. -/
structure Mem (α : Type) where
  counts : List Nat
  timeLevels : Nat
  level : Nat → Option (Nat → Nat → α)
  numVectors : Nat
  vector : Nat → Nat → Nat → α

variable {α : Type}

/-- The coefficients of an unknown. -/
def part (n : Nat) (f : Nat → α) : List α := (List.range n).map f

/-- The vector with the coefficients of unknown 0, then those of unknown 1, and so on. -/
def flat (counts : List Nat) (f : Nat → Nat → α) : List α :=
  (List.range counts.length).flatMap fun u => part (counts.getD u 0) (f u)

/-- Calls that change coefficients. Whole vectors are given by their entries for an unknown and a basis
function; every vector of the right length is of that form (`exists_flat`). -/
inductive Op (α : Type) where
  /-- `setNumberOfBasisFunctions(n, unknown)` -/
  | number (n unknown : Nat)
  /-- `setNumberOfBasisFunctions(n)` -/
  | numberAll (n : Nat)
  /-- `setData` -/
  | data (timeLevel unknown basisFunction : Nat) (val : α)
  /-- `setTimeLevelData(timeLevel, unknown, val)` -/
  | levelData (timeLevel unknown : Nat) (val : Nat → α)
  /-- `setTimeLevelData(timeLevel, val)` -/
  | levelDataFirst (timeLevel : Nat) (val : Nat → α)
  /-- `setTimeLevelDataVector` -/
  | level (timeLevel : Nat) (val : Nat → Nat → α)
  /-- an assignment to the entry of `getTimeLevelDataVector` for an unknown and a basis function -/
  | levelEntry (timeLevel unknown basisFunction : Nat) (val : α)
  /-- `setNumberOfTimeIntegrationVectors` -/
  | numberOfVectors (n : Nat)
  /-- `setTimeIntegrationVector` -/
  | vector (id : Nat) (val : Nat → Nat → α)
  /-- `setTimeIntegrationSubvector` -/
  | subvector (id unknown : Nat) (val : Nat → α)
  /-- `setTimeIntegrationData` -/
  | vectorData (id unknown basisFunction : Nat) (val : α)

variable [Zero α]

/-- The call on an element. -/
def Op.exec (d : Data α) : Op α → Option (Data α)
  | .number n u => d.setNumber n u
  | .numberAll n => some (d.setNumberAll n)
  | .data t u b x => d.setData t u b x
  | .levelData t u f => d.setTimeLevelData t u (part (d.counts.getD u 0) f)
  | .levelDataFirst t f => d.setTimeLevelDataFirst t (part (d.counts.getD 0 0) f)
  | .level t f => d.setTimeLevelDataVector t (flat d.counts f)
  | .levelEntry t u b x => d.writeLevel t ((d.counts.take u).sum + b) x
  | .numberOfVectors n => some (d.setNumberOfVectors n)
  | .vector i f => d.setVector i (flat d.counts f)
  | .subvector i u f => d.setSubvector i u (part (d.counts.getD u 0) f)
  | .vectorData i u b x => d.setVectorData i u b x

/-- One value changed. -/
def upd (f : Nat → Nat → α) (u b : Nat) (x : α) : Nat → Nat → α :=
  fun v c => if v = u ∧ c = b then x else f v c

/-- The values of one unknown changed. -/
def updAll (f : Nat → Nat → α) (u : Nat) (g : Nat → α) : Nat → Nat → α :=
  fun v c => if v = u then g c else f v c

/-- All values of a time level that was never written to are zero. -/
def Mem.at (m : Mem α) (t : Nat) : Nat → Nat → α := (m.level t).getD fun _ _ => 0

/-- The time level `t` is given the values `f`. -/
def Mem.setLevel (m : Mem α) (t : Nat) (f : Nat → Nat → α) : Mem α :=
  { m with level := fun s => if s = t then some f else m.level s }

/-- The time integration vector `i` is given the values `f`. -/
def Mem.setVector (m : Mem α) (i : Nat) (f : Nat → Nat → α) : Mem α :=
  { m with vector := fun j => if j = i then f else m.vector j }

/-- What a call does. -/
def Op.effect (m : Mem α) : Op α → Mem α
  | .number n u => { m with counts := m.counts.set u n }
  | .numberAll n => { m with counts := m.counts.map fun _ => n }
  | .data t u b x => m.setLevel t (upd (m.at t) u b x)
  | .levelData t u f => m.setLevel t (updAll (m.at t) u f)
  | .levelDataFirst t f => m.setLevel t (updAll (m.at t) 0 f)
  | .level t f => m.setLevel t f
  | .levelEntry t u b x => m.setLevel t (upd (m.at t) u b x)
  | .numberOfVectors n =>
    { m with numVectors := n, vector := fun j => if j < m.numVectors then m.vector j else fun _ _ => 0 }
  | .vector i f => m.setVector i f
  | .subvector i u f => m.setVector i (updAll (m.vector i) u f)
  | .vectorData i u b x => m.setVector i (upd (m.vector i) u b x)

/-- `u` is an unknown and `b` one of its basis functions. -/
def InRange (counts : List Nat) (u b : Nat) : Prop := u < counts.length ∧ b < counts.getD u 0

/-- The arguments are in range. The number of basis functions may only change while there are no
coefficients. -/
def Op.Valid (m : Mem α) : Op α → Prop
  | .number _ u => u < m.counts.length ∧ (∀ t, m.level t = none) ∧
      ∀ i < m.numVectors, ∀ v b, m.vector i v b = 0
  | .numberAll _ => (∀ t, m.level t = none) ∧ ∀ i < m.numVectors, ∀ v b, m.vector i v b = 0
  | .data t u b _ => t < m.timeLevels ∧ InRange m.counts u b
  | .levelData t u _ => t < m.timeLevels ∧ u < m.counts.length
  | .levelDataFirst t _ => t < m.timeLevels ∧ m.counts ≠ [] ∧ ∀ n ∈ m.counts, n = m.counts.getD 0 0
  | .level t _ => t < m.timeLevels
  | .levelEntry t u b _ => t < m.timeLevels ∧ InRange m.counts u b
  | .numberOfVectors _ => True
  | .vector i _ => i < m.numVectors
  | .subvector i u _ => i < m.numVectors ∧ u < m.counts.length
  | .vectorData i u b _ => i < m.numVectors ∧ InRange m.counts u b

/-- No coefficients and no basis functions. -/
def Mem.init (timeLevels numberOfUnknowns : Nat) : Mem α :=
  ⟨List.replicate numberOfUnknowns 0, timeLevels, fun _ => none, 0, fun _ _ _ => 0⟩

/-- All calls of a history are valid. -/
def History : Mem α → List (Op α) → Prop
  | _, [] => True
  | m, op :: h => op.Valid m ∧ History (op.effect m) h

/-- Everything that can be read from the element is what is expected. A time level that was not written
to yet stops the (debug) program, except when there is nothing to read. -/
structure Agree (d : Data α) (m : Mem α) : Prop where
  counts : d.counts = m.counts
  levels : d.levels.length = m.timeLevels
  vectors : d.vectors.length = m.numVectors
  data : ∀ t f, m.level t = some f → ∀ u b, InRange m.counts u b → d.getData t u b = some (f u b)
  levelData : ∀ t f, m.level t = some f → ∀ u < m.counts.length,
    d.getTimeLevelData t u = some (part (m.counts.getD u 0) (f u))
  level : ∀ t f, m.level t = some f → d.getTimeLevelDataVector t = some (flat m.counts f)
  unused : ∀ t, m.level t = none → ∀ u b, d.getData t u b = none
  vectorData : ∀ i < m.numVectors, ∀ u b, InRange m.counts u b →
    d.getVectorData i u b = some (m.vector i u b)
  subvector : ∀ i < m.numVectors, ∀ u < m.counts.length,
    d.getSubvector i u = some (part (m.counts.getD u 0) (m.vector i u))
  vector : ∀ i < m.numVectors, d.getVector i = some (flat m.counts (m.vector i))

/-! ## Elements -/

/-- Calls that give basis functions to an element. -/
inductive ElemOp where
  | default (position unknown : Nat)
  | face (position localFace unknown : Nat)
  | edge (position localEdge unknown : Nat)
  | vertex (position localNode unknown : Nat)
deriving DecidableEq

/-- The call on an element. -/
def ElemOp.exec (sets : List BSet) (e : Elem α) : ElemOp → Option (Elem α)
  | .default pos u => e.setDefault sets pos u
  | .face pos i u => e.setFace sets pos i u
  | .edge pos i u => e.setEdge sets pos i u
  | .vertex pos i u => e.setVertex sets pos i u

/-- The registrations made by a call, for an element with the given numbers of faces and edges. -/
def ElemOp.basis (faces edges : Nat) : ElemOp → List BasisOp
  | .default pos u => [.clear u, .register u 0 pos]
  | .face pos i u => [.register u (1 + i) pos]
  | .edge pos i u => [.register u (1 + faces + i) pos]
  | .vertex pos i u => [.register u (1 + faces + edges + i) pos]

/-- The arguments are in range. -/
def ElemOp.Valid (sets : List BSet) (unknowns faces edges nodes : Nat) : ElemOp → Prop
  | .default pos u => pos < sets.length ∧ u < unknowns
  | .face pos i u => pos < sets.length ∧ u < unknowns ∧ i < faces
  | .edge pos i u => pos < sets.length ∧ u < unknowns ∧ i < edges
  | .vertex pos i u => pos < sets.length ∧ u < unknowns ∧ i < nodes

/-- The numbers of basis functions that an element announces are those of its sets. -/
structure Consistent (sets : List BSet) (e : Elem α) : Prop where
  length : e.data.counts.length = e.basis.positions.length
  counts : ∀ u < e.data.counts.length, e.basis.number sets u = some (e.data.counts.getD u 0)

end Verif.ElementData
