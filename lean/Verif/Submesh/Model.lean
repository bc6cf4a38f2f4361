import Mathlib.Logic.Function.Basic
import Mathlib.Data.List.Sort

/-! # Which elements processes exchange

Models `Submesh` (`kernel/Base/Submesh.h`, `kernel/Base/Submesh.cpp`), as built with MPI, and
`HpgemAPIBase::synchronize` (`kernel/Base/HpgemAPIBase_Impl.h`).

Elements are represented by their ids. The trees of elements have no refined elements, so that the number of trees is the
number of entries of an iteration. The maps from processes to lists of elements are functions; processes without an
entry have the empty list. Counts do not overflow `int`. `none` stands for reading outside a buffer or for using the
result of an unsuccessful search. -/
namespace Verif.Submesh

/-- The lists of a process (Submesh.h:171-215): own elements, pending requests, elements to receive and to send. -/
structure Rank where
  elems : List Nat
  other : List Nat
  pull : Nat → List Nat
  push : Nat → List Nat

/-- `std::numeric_limits<std::size_t>::max()`. -/
def sentinel : Nat := 18446744073709551615

/-- The loop of `std::lower_bound` on the range of length `len` from `first`. -/
def lowerBound (l : List Nat) (x : Nat) (first len : Nat) : Option Nat :=
  if len = 0 then some first
  else do
    let half := len / 2
    let a ← l[first + half]?
    if a < x then lowerBound l x (first + half + 1) (len - half - 1) else lowerBound l x first half
termination_by len
decreasing_by all_goals omega

/-- `std::binary_search`. -/
def binarySearch (l : List Nat) (x : Nat) : Option Bool := do
  let i ← lowerBound l x 0 l.length
  match l[i]? with
  | none => some false
  | some a => some (decide (¬ x < a))

/-- `std::inplace_merge` of a sorted range and a single entry behind it: the entry goes behind all that are not larger. -/
def mergeLast (l : List Nat) (x : Nat) : List Nat := l.takeWhile (fun a => decide (a ≤ x)) ++ x :: l.dropWhile fun a => decide (a ≤ x)

/-- `addPullElement` (Submesh.h:79-92). -/
def addPullElement (w : Rank) (x : Nat) : Option Rank := do
  if ← binarySearch w.other x then some w else some { w with other := mergeLast w.other x }

/-- `std::partial_sum`. -/
def partialSum : Nat → List Nat → List Nat
  | _, [] => []
  | s, a :: l => (s + a) :: partialSum (s + a) l

/-- Writes a block into a buffer. -/
def place (buf : List Nat) (pos : Nat) (block : List Nat) : List Nat := buf.take pos ++ block ++ buf.drop (pos + block.length)

/-- Writes the blocks of all processes at the given displacements, as `MPI_Allgatherv` and `MPI_Alltoallv` do. -/
def placeAll (buf : List Nat) (displs : List Nat) (blocks : List (List Nat)) : List Nat :=
  (displs.zip blocks).foldl (fun b x => place b x.1 x.2) buf

/-- The ids of a process with the sentinel, sorted (Submesh.cpp:113-121). -/
def segment (w : Rank) : List Nat := (w.elems ++ [sentinel]).insertionSort (· ≤ ·)

/-- `numberOfElements` (Submesh.cpp:101-108). -/
def numberOfElements (ws : List Rank) : List Nat := 0 :: ws.map fun w => w.elems.length + 1

/-- `elementIDs` after the communication (Submesh.cpp:109-125). -/
def elementIDs (ws : List Rank) : Option (List Nat) := do
  let total ← (partialSum 0 (numberOfElements ws))[ws.length]?
  some (placeAll (List.replicate total 0) (partialSum 0 (numberOfElements ws)) (ws.map segment))

/-- `while (*it < id) it++`; an iterator is the part of the buffer from it on. -/
def advance (id : Nat) : List Nat → Option (List Nat)
  | [] => none
  | a :: l => if a < id then advance id l else some (a :: l)

/-- The variables of the search. -/
structure Search where
  it : Nat → List Nat
  pull : Nat → List Nat
  news : Nat → List Nat

/-- The search for an element on one process (Submesh.cpp:142-152). -/
def searchOne (rank id : Nat) (s : Search) (i : Nat) : Option Search :=
  if i = rank then some s
  else do
    let it ← advance id (s.it i)
    let a ← it.head?
    if a = id then some ⟨Function.update s.it i it, Function.update s.pull i (s.pull i ++ [id]), Function.update s.news i (s.news i ++ [id])⟩
    else some { s with it := Function.update s.it i it }

/-- The search for an element on all processes (Submesh.cpp:141-154). -/
def searchAll (n rank : Nat) (s : Search) (id : Nat) : Option Search := (List.range n).foldlM (searchOne rank id) s

/-- The first part of `processPullRequests` on a process (Submesh.cpp:127-155). -/
def search (ws : List Rank) (rank : Nat) (w : Rank) : Option Search := do
  let ids ← elementIDs ws
  let cum := partialSum 0 (numberOfElements ws)
  w.other.foldlM (searchAll ws.length rank) ⟨fun i => ids.drop (cum.getD i 0), w.pull, fun _ => []⟩

/-- `numberOfSendElements` (Submesh.cpp:159-163). -/
def numberOfSends (n : Nat) (s : Search) : List Nat := 0 :: (List.range n).map fun i => (s.news i).length

/-- `sendBuffer` (Submesh.cpp:164-166). -/
def sendBuffer (n : Nat) (s : Search) : List Nat := (List.range n).flatMap s.news

/-- The part of the buffer of a process that is sent to process `r` (Submesh.cpp:168-188). -/
def sentTo (n r : Nat) (s : Search) : Option (List Nat) := do
  let pos ← (partialSum 0 (numberOfSends n s))[r]?
  let count ← (numberOfSends n s)[r + 1]?
  some (((sendBuffer n s).drop pos).take count)

/-- `numberOfRecieveElements` of process `r` (Submesh.cpp:173-176). -/
def numberOfReceives (n r : Nat) (ss : List Search) : Option (List Nat) := do
  let cs ← ss.mapM fun s => (numberOfSends n s)[r + 1]?
  some (0 :: cs)

/-- `recieveBuffer` of process `r` after the communication (Submesh.cpp:177-188). -/
def receiveBuffer (n r : Nat) (ss : List Search) : Option (List Nat) := do
  let counts ← numberOfReceives n r ss
  let total ← (partialSum 0 counts)[n]?
  let blocks ← ss.mapM (sentTo n r)
  some (placeAll (List.replicate total 0) (partialSum 0 counts) blocks)

/-- The requests of process `i` (Submesh.cpp:191-202); `it` is the part of the buffer from `pushIterator` on and `pos` its
position. An element that is not found is only noticed in debug builds; otherwise an invalid iterator is used. -/
def pushOne (elems : List Nat) (cum : List Nat) (s : List Nat × Nat × (Nat → List Nat)) (i : Nat) :
    Option (List Nat × Nat × (Nat → List Nat)) := do
  let stop ← cum[i + 1]?
  if s.2.1 + s.1.length < stop ∨ stop < s.2.1 then none
  else
    let ids := s.1.take (stop - s.2.1)
    if ids.all (fun id => decide (id ∈ elems)) then some (s.1.drop (stop - s.2.1), stop, Function.update s.2.2 i (s.2.2 i ++ ids)) else none

/-- The second part of `processPullRequests` on process `r` (Submesh.cpp:157-204). -/
def finish (n : Nat) (ss : List Search) (r : Nat) (w : Rank) : Option Rank := do
  let s ← ss[r]?
  let buf ← receiveBuffer n r ss
  let counts ← numberOfReceives n r ss
  let (_, _, push) ← (List.range n).foldlM (pushOne w.elems (partialSum 0 counts)) (buf, 0, w.push)
  some ⟨w.elems, [], s.pull, push⟩

/-- `processPullRequests` on all processes (Submesh.cpp:89-207). -/
def processPullRequests (ws : List Rank) : Option (List Rank) :=
  if ws.any fun w => decide (w.other ≠ []) then do
    let ss ← ws.zipIdx.mapM fun x => search ws x.2 x.1
    ws.zipIdx.mapM fun x => finish ws.length ss x.2 x.1
  else some ws

/-! ## Synchronisation -/

/-- A request of a process: to receive the data of an element from a process, or to send it there. -/
inductive Request where
  | receive (src id : Nat)
  | send (dst id : Nat)
deriving DecidableEq

/-- The requests in the order of `synchronize` (HpgemAPIBase_Impl.h:104-135). -/
def requests (n : Nat) (w : Rank) : List Request :=
  ((List.range n).flatMap fun p => (w.pull p).map (Request.receive p)) ++ (List.range n).flatMap fun q => (w.push q).map (Request.send q)

/-- Where a process is: starting requests or waiting for them (`MPI_Waitall`), at the barrier, or done
(MpiContainer.h:138-146). -/
inductive Phase where
  | communicating | barrier | done
deriving DecidableEq

/-- A state of all processes. `todo` are requests still to be started, `open_` those started and not completed; `data` is the
vector of an element on a process. -/
structure State (V : Type) where
  todo : Nat → List Request
  open_ : Nat → List Request
  phase : Nat → Phase
  data : Nat → Nat → V

/-- One step of some process or of the network. The network may deliver in any order; the tag of a message is the id of the
element. -/
inductive Step {V : Type} (n : Nat) : State V → State V → Prop
  /-- Process `p` starts its next request (`MPI_Irecv`, `MPI_Isend`). -/
  | start (s : State V) (p : Nat) (a : Request) (l : List Request) : p < n → s.todo p = a :: l →
      Step n s { s with todo := Function.update s.todo p l, open_ := Function.update s.open_ p (a :: s.open_ p) }
  /-- The data of element `id` goes from process `p` to process `q`. -/
  | transfer (s : State V) (p q id : Nat) : p < n → q < n → p ≠ q → Request.send q id ∈ s.open_ p → Request.receive p id ∈ s.open_ q →
      Step n s { s with
        open_ := Function.update (Function.update s.open_ p ((s.open_ p).erase (.send q id))) q ((s.open_ q).erase (.receive p id))
        data := Function.update s.data q (Function.update (s.data q) id (s.data p id)) }
  /-- `MPI_Waitall` returns on process `p`. -/
  | wait (s : State V) (p : Nat) : p < n → s.phase p = .communicating → s.todo p = [] → s.open_ p = [] →
      Step n s { s with phase := Function.update s.phase p .barrier }
  /-- `MPI_Barrier` returns on process `p`. -/
  | leave (s : State V) (p : Nat) : p < n → s.phase p = .barrier → (∀ q < n, s.phase q ≠ .communicating) →
      Step n s { s with phase := Function.update s.phase p .done }

/-- The state before `synchronize`. -/
def initial {V : Type} (ws : List Rank) (data : Nat → Nat → V) : State V where
  todo p := (ws[p]?).elim [] (requests ws.length)
  open_ _ := []
  phase _ := .communicating
  data := data

end Verif.Submesh
