import Verif.GlobalIndexing.Exchange
import Mathlib.Data.Finset.Sort
import Mathlib.Data.Prod.Lex
import Mathlib.Algebra.BigOperators.Group.Finset.Basic

/-!
# Model of the assembly of global matrices and vectors and of the sparsity estimate

kernel/Utilities/GlobalMatrix.cpp, GlobalVector.cpp, SparsityEstimator.cpp, Table2D.h. The mesh and the
indices are those of `Verif.GlobalIndexing`. PETSc is modelled by its documentation: a matrix is a function
of the row and the column, `MatSetValues` with `ADD_VALUES` adds, and after `MatAssemblyEnd` the additions of
all ranks are in the matrix, in an order that is not specified.
-/
namespace Verif.Assembly
open GlobalIndexing
open Function (update)

/-- What the assembly uses of the mesh of each rank. -/
structure Parts where
  /-- `getElementsList(GLOBAL)` of a rank: its own elements and the layer around them -/
  present : Nat → List Nat
  /-- `getFacesList()` of a rank -/
  faces : Nat → List Nat
  /-- The one or two elements of a face on a rank, the left one first; the arguments are the rank and the
  face. -/
  around : Nat → Nat → List Nat
  /-- `isSubdomainBoundary()` of a face on a rank -/
  subdomain : Nat → Nat → Bool

/-- Face.h:356-359 `isOwnedByCurrentProcessor` -/
def Parts.ownsFace (P : Parts) (m : Mesh) (rank f : Nat) : Bool := m.owner ((P.around rank f).headD 0) = rank

/-- MiddleSizeMatrix: the data are stored column after column; only the first `rows * cols` are used. -/
structure LocalMatrix (α : Type) where
  rows : Nat
  cols : Nat
  data : Nat → α

/-- The arguments of a call of `MatSetValues`. -/
structure Call (α : Type) where
  rows : List Nat
  cols : List Nat
  data : Nat → α
  rowOriented : Bool

/-- `MatSetValues` with `ADD_VALUES`: row `a`, column `b` of the block is `data[a * n + b]`, or
`data[a + b * m]` if the matrix is not row oriented. -/
def Call.entries {α : Type} (c : Call α) : List (Nat × Nat × α) :=
  c.rows.zipIdx.flatMap fun (i, a) => c.cols.zipIdx.map fun (j, b) =>
    (i, j, c.data (if c.rowOriented then a * c.cols.length + b else a + b * c.rows.length))

/-- A matrix of PETSc. -/
abbrev Mat (α : Type) := Nat → Nat → α

/-- `MatSetValues` -/
def setValues {α : Type} [Add α] (A : Mat α) (c : Call α) : Mat α :=
  c.entries.foldl (fun A (i, j, v) => update A i (update (A i) j (A i j + v))) A

/-- The arguments of the matrix: `elementMatrixID_ >= 0`, `faceMatrixID_ >= 0`, `symmetricIndexing_`, the
element matrices and the face matrices as the functions `getElementMatrix(elementMatrixID_)` and
`getFaceMatrixMatrix(faceMatrixID_)` return them. -/
structure Input (α : Type) where
  useElements : Bool
  useFaces : Bool
  symmetric : Bool
  elementMatrix : Nat → LocalMatrix α
  faceMatrix : Nat → LocalMatrix α

/-- GlobalMatrix.cpp:313-328: the call for one element. `none` if an index is not known or the size of the
matrix does not fit (an assertion in debug builds). -/
def elementCall {α : Type} (m : Mesh) (I : Input α) (R C : State) (e : Nat) : Option (Call α) := do
  let rows ← R.getGlobalIndices m e
  let cols ← if I.symmetric then some rows else C.getGlobalIndices m e
  let M := I.elementMatrix e
  if M.rows = rows.length ∧ M.cols = cols.length then some ⟨rows, cols, M.data, false⟩ else none

/-- GlobalIndexing.cpp:139-150 `getGlobalIndices(face, indices)` on a rank. -/
def faceIndices (m : Mesh) (P : Parts) (rank : Nat) (s : State) (f : Nat) : Option (List Nat) := do
  let l ← (P.around rank f).mapM (s.getGlobalIndices m)
  some l.flatten

/-- GlobalMatrix.cpp:339-356: the call for one face. -/
def faceCall {α : Type} (m : Mesh) (P : Parts) (I : Input α) (R C : State) (rank f : Nat) :
    Option (Call α) := do
  let rows ← faceIndices m P rank R f
  let cols ← if I.symmetric then some rows else faceIndices m P rank C f
  let M := I.faceMatrix f
  if M.rows = rows.length ∧ M.cols = cols.length then some ⟨rows, cols, M.data, false⟩ else none

/-- GlobalMatrix.cpp:297-358 `assemble` on one rank: the calls of `MatSetValues`. -/
def assembleCalls {α : Type} (m : Mesh) (P : Parts) (I : Input α) (R C : State) (rank : Nat) :
    Option (List (Call α)) := do
  let a ← if I.useElements then (m.owned rank).mapM (elementCall m I R C) else some []
  let b ← if I.useFaces then
      ((P.faces rank).filter fun f => P.ownsFace m rank f).mapM (faceCall m P I R C rank)
    else some []
  some (a ++ b)

/-- GlobalMatrix.cpp:297-368: the matrix after `MatZeroEntries`, all the calls in the order given, and
`MatAssemblyEnd`. -/
def assembled {α : Type} [AddCommMonoid α] (calls : List (Call α)) : Mat α :=
  calls.foldl setValues (fun _ _ => 0)

/-! ### Vectors -/

/-- The arguments of a call of `VecSetValues`. -/
structure VCall (α : Type) where
  rows : List Nat
  data : List α

/-- `VecSetValues` with `ADD_VALUES` -/
def VCall.add {α : Type} [Add α] (b : Nat → α) (c : VCall α) : Nat → α :=
  (c.rows.zip c.data).foldl (fun b (i, v) => update b i (b i + v)) b

/-- GlobalVector.cpp:126-140: the call for one element. -/
def elementVCall {α : Type} (m : Mesh) (s : State) (v : Nat → List α) (e : Nat) : Option (VCall α) := do
  let rows ← s.getGlobalIndices m e
  if (v e).length = rows.length then some ⟨rows, v e⟩ else none

/-- GlobalVector.cpp:144-156: the call for one face. -/
def faceVCall {α : Type} (m : Mesh) (P : Parts) (s : State) (v : Nat → List α) (rank f : Nat) :
    Option (VCall α) := do
  let rows ← faceIndices m P rank s f
  if (v f).length = rows.length then some ⟨rows, v f⟩ else none

/-- GlobalVector.cpp:115-161 `assemble` on one rank: the calls of `VecSetValues`. -/
def assembleVCalls {α : Type} (m : Mesh) (P : Parts) (elements faces : Bool) (elementVector faceVector : Nat → List α)
    (s : State) (rank : Nat) : Option (List (VCall α)) := do
  let a ← if elements then (m.owned rank).mapM (elementVCall m s elementVector) else some []
  let b ← if faces then
      ((P.faces rank).filter fun f => P.ownsFace m rank f).mapM (faceVCall m P s faceVector rank)
    else some []
  some (a ++ b)

/-- GlobalVector.cpp:115-161: the vector after all calls. -/
def assembledVec {α : Type} [AddCommMonoid α] (calls : List (VCall α)) : Nat → α :=
  calls.foldl VCall.add fun _ => 0

/-- `VecSetValues` with `INSERT_VALUES` -/
def VCall.insert {α : Type} (b : Nat → α) (c : VCall α) : Nat → α :=
  (c.rows.zip c.data).foldl (fun b (i, v) => update b i v) b

/-- GlobalVector.cpp:200-226 `constructFromTimeIntegrationVector`: the calls of one rank. `v e` is
`getTimeIntegrationVector`; its length is `getTotalNumberOfBasisFunctions`, the number of indices that are read. -/
def constructCalls {α : Type} (m : Mesh) (v : Nat → List α) (s : State) (rank : Nat) : Option (List (VCall α)) :=
  (m.owned rank).mapM fun e => do
    let rows ← s.getGlobalIndices m e
    if (v e).length ≤ rows.length then some ⟨rows.take (v e).length, v e⟩ else none

/-- The vector after `zeroVector` and all the calls in the order given. -/
def constructed {α : Type} [Zero α] (calls : List (VCall α)) : Nat → α :=
  calls.foldl VCall.insert fun _ => 0

/-- GlobalVector.cpp:228-358 `writeTimeIntegrationVector` on one rank: for each element the vector that is
stored, read from the values `b` that the scatter delivers. The loop runs over all unknowns. -/
def writeBack {α : Type} (m : Mesh) (P : Parts) (s : State) (b : Nat → α) (rank : Nat) :
    Option (List (Nat × List α)) :=
  (P.present rank).mapM fun e => do
    let l ← (List.range m.unknowns).mapM fun u => do
      let l ← (objects m e).mapM fun o => do
        let start ← s.getGlobalIndex o u
        some ((List.range (m.count o u)).map fun i => b (start + i))
      some l.flatten
    some (e, l.flatten)

/-! ### The sparsity estimate -/

/-- SparsityEstimator.cpp:28-35: `std::pair<std::size_t, std::size_t>`, start and size, with its order. -/
abbrev Interval := Nat ×ₗ Nat

/-- SparsityEstimator.cpp:40-167 `LocalMatrixSideDoFs`, the members that change. `std::set<DoFInterval>` is a
finite set; the vectors are functions of the unknown. -/
structure Side where
  onlyElement : Nat → Bool := fun _ => true
  owned : Nat → Finset Interval := fun _ => ∅
  nonOwned : Nat → Finset Interval := fun _ => ∅

/-- SparsityEstimator.cpp:55-62 `clear` -/
def Side.clear (x : Side) : Side := { x with owned := fun _ => ∅, nonOwned := fun _ => ∅ }

/-- `isOwnedByCurrentProcessor` of an element, face, edge or node. A rank may know only some of the elements of a face,
edge or node, but then it owns none of them and the first one known is not owned either. -/
def ownsObj (m : Mesh) (rank : Nat) (o : Obj) : Bool :=
  match o.kind with
  | .element => m.owner o.id = rank
  | k => m.ownedBy rank k o.id

/-- SparsityEstimator.cpp:113-143: the body of the loop of `addLocal`. `none` if an index is not known. -/
def addUnknown (m : Mesh) (s : State) (rows : Bool) (rank : Nat) (o : Obj) (x : Side) (u : Nat) : Option Side :=
  let size := m.count o u
  if size = 0 then some x
  else
    let x := if o.kind ≠ .element then { x with onlyElement := update x.onlyElement u false } else x
    if rows && !ownsObj m rank o then some x
    else do
      let start ← if rows then (s.getProcessorLocalIndex o u).map Int.toNat else s.getGlobalIndex o u
      if ownsObj m rank o then some { x with owned := update x.owned u (insert (toLex (start, size)) (x.owned u)) }
      else some { x with nonOwned := update x.nonOwned u (insert (toLex (start, size)) (x.nonOwned u)) }

/-- SparsityEstimator.cpp:111-144 `addLocal` -/
def addLocal (m : Mesh) (s : State) (rows : Bool) (rank : Nat) (x : Side) (o : Obj) : Option Side :=
  s.included.foldlM (addUnknown m s rows rank o) x

/-- SparsityEstimator.cpp:81-94 `addLocalElementMatrixDoFs` -/
def addElement (m : Mesh) (s : State) (rows : Bool) (rank : Nat) (x : Side) (e : Nat) : Option Side :=
  (objects m e).foldlM (addLocal m s rows rank) x

/-- SparsityEstimator.cpp:68-75 `addLocalFaceMatrixDoFs` -/
def addFace (m : Mesh) (P : Parts) (s : State) (rows : Bool) (rank : Nat) (x : Side) (f : Nat) : Option Side :=
  (P.around rank f).foldlM (addElement m s rows rank) x

/-- `std::map<DoFInterval, DoFIntervals>` -/
structure IMap where
  keys : Finset Interval := ∅
  val : Interval → Finset Interval := fun _ => ∅

/-- SparsityEstimator.cpp:259-264 and 310-319: `map[rowInterval].insert(…)` for all intervals of `rows`. -/
def IMap.add (a : IMap) (rows cols : Finset Interval) : IMap :=
  { keys := a.keys ∪ rows, val := fun k => if k ∈ rows then a.val k ∪ cols else a.val k }

/-- The variables of the loops. -/
structure Est where
  row : Side := {}
  col : Side := {}
  owned : IMap := {}
  nonOwned : IMap := {}

/-- The bodies of the loops over the unknowns; `coupled` says which positions of the two lists of unknowns
are coupled. -/
def Est.couple (x : Est) (R C : State) (coupled : Nat → Nat → Bool) : Est :=
  R.included.zipIdx.foldl (fun x ru => C.included.zipIdx.foldl (fun x cu =>
    if coupled ru.2 cu.2 then
      { x with owned := x.owned.add (x.row.owned ru.1) (x.col.owned cu.1)
               nonOwned := x.nonOwned.add (x.row.owned ru.1) (x.col.nonOwned cu.1) }
    else x) x) x

/-- SparsityEstimator.cpp:239-267: the body of the loop over the elements. -/
def Est.element (m : Mesh) (R C : State) (rank : Nat) (x : Est) (e : Nat) : Option Est := do
  let row ← addElement m R true rank x.row.clear e
  let col ← addElement m C false rank x.col.clear e
  some (Est.couple { x with row := row, col := col } R C fun _ _ => true)

/-- SparsityEstimator.cpp:288-322: the body of the loop over the faces. -/
def Est.face (m : Mesh) (P : Parts) (R C : State) (coupling : Nat → Nat → Bool) (rank : Nat) (x : Est) (f : Nat) :
    Option Est := do
  let row ← addFace m P R true rank x.row.clear f
  let col ← addFace m P C false rank x.col.clear f
  some (Est.couple { x with row := row, col := col } R C coupling)

/-- Table2D.h: the entries are stored column after column. -/
structure Table2D where
  rows : Nat
  cols : Nat
  entries : List Bool

/-- Table2D.h:96-106 `operator()` -/
def Table2D.get (t : Table2D) (n c : Nat) : Bool := t.entries.getD (n + c * t.rows) false

/-- SparsityEstimator.cpp:274-280: `anyFaceCoupling` -/
def Table2D.any (t : Table2D) : Bool := (List.range (t.rows * t.cols)).any fun i => t.entries.getD i false

/-- SparsityEstimator.cpp:404-407: write the count to the rows of an interval; `none` for a write outside of
the vector. -/
def writeRows (v : List Nat) (k : Interval) (n : Nat) : Option (List Nat) :=
  (List.range' (ofLex k).1 (ofLex k).2).foldlM (fun v i => if i < v.length then some (v.set i n) else none) v

/-- SparsityEstimator.cpp:395-408 -/
def IMap.write (a : IMap) (v : List Nat) : Option (List Nat) :=
  (a.keys.sort (· ≤ ·)).foldlM (fun v k => writeRows v k (∑ c ∈ a.val k, (ofLex c).2)) v

/-- SparsityEstimator.cpp:384-394: whether the program stops because of the face coupling. The vector
`isOnlyElementBased_` is indexed with the position `i` of the unknown, not with the unknown. -/
def stops (t : Table2D) (nR nC : Nat) (row : Side) : Bool :=
  (List.range nR).any fun i => (List.range nC).any fun j => t.get i j && !row.onlyElement i

/-- SparsityEstimator.cpp:178-421 `computeSparsityEstimate(faceCoupling)` on one rank, for an indexing with a
mesh. `none` for a failed assertion or an error. -/
def estimate (m : Mesh) (P : Parts) (R C : State) (t : Table2D) (rank : Nat) : Option (List Nat × List Nat) :=
  if t.rows ≠ R.included.length ∨ t.cols ≠ C.included.length then none
  else if R.localNumber = 0 then some ([], [])
  else do
    let x ← (P.present rank).foldlM (Est.element m R C rank) {}
    let x ← if t.any then (P.faces rank).foldlM (Est.face m P R C t.get rank) x else some x
    if t.any && (P.faces rank).any (P.subdomain rank) && stops t t.rows t.cols x.row then none
    else do
      let a ← x.owned.write (List.replicate R.localNumber 0)
      let b ← x.nonOwned.write (List.replicate R.localNumber 0)
      some (a, b)

end Verif.Assembly
