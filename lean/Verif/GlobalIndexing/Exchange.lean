import Verif.GlobalIndexing.Model

/-!
# Model of the exchange of indices between the ranks

kernel/Utilities/GlobalIndexing.cpp:484-862, the variant with MPI. A message is a list of numbers; its
tags are below `2 ^ 64`. The network is a list of messages in flight. A receive takes any message that is
addressed to the rank (`MPI_ANY_SOURCE`); no order between messages is assumed, which allows more
executions than MPI does. `std::set` is an `SMap Unit`.
-/
namespace Verif.GlobalIndexing
open Function (update)

/-- GlobalIndexing.cpp:588-621: `4 * id` plus 0 for elements, 1 for faces, 2 for edges, 3 for nodes. -/
def Obj.tag (o : Obj) : Nat :=
  4 * o.id + match o.kind with | .element => 0 | .face => 1 | .edge => 2 | .node => 3

/-- The object of a tag, GlobalIndexing.cpp:643-668. -/
def ofTag (tag : Nat) : Obj :=
  ⟨match tag % 4 with | 0 => .element | 1 => .face | 2 => .edge | _ => .node, tag / 4⟩

/-- GlobalIndexing.cpp:588-621 `elementMessage`, `faceMessage`, `edgeMessage`, `nodeMessage`: what is
appended to the message. `none` if `at` throws. -/
def State.objMessage (s : State) (o : Obj) : Option (List Nat) := do
  let us := match o.kind with
    | .element => s.included
    | .face => s.included
    | _ => s.included.filter fun u => (s.table u).included
  let l ← us.mapM fun u => if u < s.unknowns then s.table.find o u else none
  some (o.tag :: l)

/-- The variables of the loop in `createInitialMessage`. -/
structure Initial where
  message : List Nat := []
  sendTags : SMap Unit := []
  secondRoundTags : SMap Unit := []

/-- Face.cpp, Edge.cpp:110, Node.cpp:145 `isOwnedByCurrentProcessor`: the first element is owned. -/
def Mesh.ownedBy (m : Mesh) (rank : Nat) (k : Kind) (x : Nat) : Bool := m.owner (m.first k x) = rank

/-- GlobalIndexing.cpp:514-515, 526-532, 547-553: the condition for the second round, for an object that is
not owned by the sender. -/
def Mesh.later (m : Mesh) (target : Nat) (o : Obj) : Bool :=
  match o.kind with
  | .face => m.owner (m.first .face o.id) ≠ target
  | k => (m.adj k o.id).all fun e => m.owner e ≠ target

/-- GlobalIndexing.cpp:501-517, 520-537, 541-558: the body of the loops over the faces, edges and nodes of
one element. -/
def State.initialStep (s : State) (m : Mesh) (rank target : Nat) (a : Initial) (o : Obj) : Option Initial :=
  if m.ownedBy rank o.kind o.id then
    if (a.sendTags.find o.tag).isSome then some a
    else do
      let l ← s.objMessage o
      some { a with sendTags := a.sendTags.insert o.tag (), message := a.message ++ l }
  else if m.later target o then some { a with secondRoundTags := a.secondRoundTags.insert o.tag () }
  else some a

/-- GlobalIndexing.cpp:486-564 `createInitialMessage` -/
def State.createInitialMessage (s : State) (m : Mesh) (rank : Nat) (elements : List Nat) (target : Nat) :
    Option Initial :=
  elements.foldlM (fun a e => do
    let l ← s.objMessage ⟨.element, e⟩
    (objects m e).tail.foldlM (s.initialStep m rank target) { a with message := a.message ++ l }) {}

/-- GlobalIndexing.cpp:566-586 `createSecondMessage`; `none` for an invalid tag or if `at` throws. -/
def State.createSecondMessage (s : State) (tags : List Nat) : Option (List Nat) := do
  let l ← tags.mapM fun tag => if tag % 4 = 0 then none else s.objMessage (ofTag tag)
  some l.flatten

/-- GlobalIndexing.cpp:646-668: one part of the message. -/
def writePart (included : List Nat) (t : Table) (tag : Nat) (values : List Nat) : Table :=
  (included.zip values).foldl (fun t (u, v) => t.set (ofTag tag) u v) t

/-- GlobalIndexing.cpp:623-670 `processMessage` on the first `count` words. `none` if the part at the end
is too short (the assertion of line 640). -/
def processMessage (included : List Nat) (t : Table) : List Nat → Option Table
  | [] => some t
  | tag :: l =>
    if l.length < included.length then none
    else processMessage included (writePart included t tag (l.take included.length))
      (l.drop included.length)
termination_by l => l.length
decreasing_by simp; omega

/-- A message in flight. -/
structure Msg where
  src : Nat
  dst : Nat
  data : List Nat

/-- Where a rank is in `communicatePushPullElements`. -/
inductive Pc
  /-- GlobalIndexing.cpp:770-790, with the entries of `getPushElements()` still to be sent -/
  | send1 (todo : List (Nat × List Nat))
  /-- GlobalIndexing.cpp:799-807, with the number of messages still to be received -/
  | recv1 (n : Nat)
  /-- waiting in the barrier of line 821 -/
  | barrier1
  /-- GlobalIndexing.cpp:826-837, with the entries of `secondRound` still to be sent -/
  | send2 (todo : List (Nat × List Nat))
  /-- GlobalIndexing.cpp:841-846 -/
  | recv2 (n : Nat)
  /-- waiting in the barrier of line 855 -/
  | barrier2
  /-- the method returns -/
  | done
  /-- an exception or a failed assertion -/
  | error

/-- The state of one rank: its position, the members of `GlobalIndexing` and the variables `secondRound`
(target ↦ sorted tags) and `secondRoundReceives`. -/
structure Rank where
  pc : Pc
  st : State
  secondRound : SMap (List Nat) := []
  secondRoundReceives : Nat := 0

/-- All ranks and the messages in flight. -/
structure Config where
  rank : Nat → Rank
  net : List Msg

/-- GlobalIndexing.cpp:771-789: the message to one target; the last word tells whether there will be a second
message. -/
def Rank.send1 (m : Mesh) (p : Nat) (r : Rank) (q : Nat) (elements : List Nat)
    (rest : List (Nat × List Nat)) : Rank × List Msg :=
  match r.st.createInitialMessage m p elements q with
  | none => ({ r with pc := .error }, [])
  | some a =>
    if a.secondRoundTags.isEmpty then
      ({ r with pc := .send1 rest }, [⟨p, q, a.message ++ [0]⟩])
    else
      ({ r with pc := .send1 rest, secondRound := r.secondRound.insert q a.secondRoundTags.keys },
        [⟨p, q, a.message ++ [1]⟩])

/-- GlobalIndexing.cpp:800-806 -/
def Rank.recv1 (r : Rank) (n : Nat) (data : List Nat) : Rank :=
  match data.getLast? with
  | none => { r with pc := .error }
  | some flag =>
    match processMessage r.st.included r.st.table data.dropLast with
    | none => { r with pc := .error }
    | some t => { r with pc := .recv1 n, st := { r.st with table := t }
                         secondRoundReceives := r.secondRoundReceives + if flag ≠ 0 then 1 else 0 }

/-- GlobalIndexing.cpp:829-836 -/
def Rank.send2 (p : Nat) (r : Rank) (q : Nat) (tags : List Nat) (rest : List (Nat × List Nat)) :
    Rank × List Msg :=
  match r.st.createSecondMessage tags with
  | none => ({ r with pc := .error }, [])
  | some l => ({ r with pc := .send2 rest }, [⟨p, q, l⟩])

/-- GlobalIndexing.cpp:844-845 -/
def Rank.recv2 (r : Rank) (n : Nat) (data : List Nat) : Rank :=
  match processMessage r.st.included r.st.table data with
  | none => { r with pc := .error }
  | some t => { r with pc := .recv2 n, st := { r.st with table := t } }

/-- Rank `p` changes to `r`. -/
def Config.set (c : Config) (p : Nat) (r : Rank) (net : List Msg) : Config := ⟨update c.rank p r, net⟩

/-- `MPI_Waitall` in lines 814 and 852: with `strict` it blocks until all messages of the rank were received,
without it may return before that (buffered messages). -/
def waited (strict : Bool) (c : Config) (p : Nat) : Prop := strict = true → ∀ x ∈ c.net, x.src ≠ p

/-- GlobalIndexing.cpp:705-862 `communicatePushPullElements`: one step of one rank, or all ranks leaving a
barrier. -/
inductive Step (m : Mesh) (strict : Bool) : Config → Config → Prop
  | send1 (c : Config) (p : Nat) (q : Nat) (els : List Nat) (rest : List (Nat × List Nat)) : p < m.ranks →
      (c.rank p).pc = .send1 ((q, els) :: rest) →
      Step m strict c (c.set p ((c.rank p).send1 m p q els rest).1
        (c.net ++ ((c.rank p).send1 m p q els rest).2))
  | sent1 (c : Config) (p : Nat) : p < m.ranks → (c.rank p).pc = .send1 [] →
      Step m strict c (c.set p { c.rank p with pc := .recv1 (m.pulls p) } c.net)
  | recv1 (c : Config) (p n : Nat) (x : Msg) (a b : List Msg) : p < m.ranks →
      (c.rank p).pc = .recv1 (n + 1) → c.net = a ++ x :: b → x.dst = p →
      Step m strict c (c.set p ((c.rank p).recv1 n x.data) (a ++ b))
  | wait1 (c : Config) (p : Nat) : p < m.ranks → (c.rank p).pc = .recv1 0 → waited strict c p →
      Step m strict c (c.set p { c.rank p with pc := .barrier1 } c.net)
  | barrier1 (c : Config) : 0 < m.ranks → (∀ p < m.ranks, (c.rank p).pc = .barrier1) →
      Step m strict c ⟨fun p => if p < m.ranks then { c.rank p with pc := .send2 (c.rank p).secondRound }
        else c.rank p, c.net⟩
  | send2 (c : Config) (p : Nat) (q : Nat) (tags : List Nat) (rest : List (Nat × List Nat)) : p < m.ranks →
      (c.rank p).pc = .send2 ((q, tags) :: rest) →
      Step m strict c (c.set p ((c.rank p).send2 p q tags rest).1
        (c.net ++ ((c.rank p).send2 p q tags rest).2))
  | sent2 (c : Config) (p : Nat) : p < m.ranks → (c.rank p).pc = .send2 [] →
      Step m strict c (c.set p { c.rank p with pc := .recv2 (c.rank p).secondRoundReceives } c.net)
  | recv2 (c : Config) (p n : Nat) (x : Msg) (a b : List Msg) : p < m.ranks →
      (c.rank p).pc = .recv2 (n + 1) → c.net = a ++ x :: b → x.dst = p →
      Step m strict c (c.set p ((c.rank p).recv2 n x.data) (a ++ b))
  | wait2 (c : Config) (p : Nat) : p < m.ranks → (c.rank p).pc = .recv2 0 → waited strict c p →
      Step m strict c (c.set p { c.rank p with pc := .barrier2 } c.net)
  | barrier2 (c : Config) : 0 < m.ranks → (∀ p < m.ranks, (c.rank p).pc = .barrier2) →
      Step m strict c ⟨fun p => if p < m.ranks then { c.rank p with pc := .done } else c.rank p, c.net⟩

/-- GlobalIndexing.cpp:215: the exchange starts with the states `S` of the ranks and no messages. -/
def Config.start (m : Mesh) (S : Nat → State) : Config :=
  ⟨fun p => { pc := .send1 (m.push p), st := S p }, []⟩

end Verif.GlobalIndexing
