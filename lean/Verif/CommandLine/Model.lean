/-! # The command line options

Models `kernel/Base/CommandLineOptions.h` and `kernel/Base/CommandLineOptions.cpp`. `none` is an abort
(`logger.assert_always`, `logger(ERROR, …)`) or undefined behaviour. A `std::string` is a list of characters.
Not modelled: the text of the help message, the initialisation of MPI and PETSc, and the handler for thrown
strings (CommandLineOptions.cpp:206-224), since nothing throws strings. -/
namespace Verif.CommandLine

/-- `std::string` and `char*`. -/
abbrev Str := List Char

/-- The value of an option. Floating point values are texts: their conversion is an arbitrary function, see
`Kind.arg`. -/
inductive Val where
  | bool (b : Bool)
  | int (z : Int)
  | str (s : Str)
deriving DecidableEq

/-! ## Converting arguments -/

/-- `std::isspace` in the "C" locale. -/
def isSpace (c : Char) : Bool := c = ' ' || c = '\t' || c = '\n' || c = '\x0b' || c = '\x0c' || c = '\r'

/-- The value of a digit. -/
def digit (c : Char) : Nat := c.toNat - '0'.toNat

/-- `arg >> retVal` for an integer type with the values `lo … hi`, decimal: the value stored and the text that
is not read. The stream skips white space, reads a sign and digits. Without digits it stores 0 and sets
`failbit`; a value out of range is clamped, with `failbit`. An unsigned type (`lo = 0`) takes the negative of
the absolute value modulo `hi + 1`. The flag is not part of the result as `parse_argument` does not read it. -/
def extractInt (lo hi : Int) (s : Str) : Int × Str :=
  let s := s.dropWhile isSpace
  let neg := s.head? == some '-'
  let s := if s.head? = some '-' ∨ s.head? = some '+' then s.tail else s
  let digits := s.takeWhile Char.isDigit
  let rest := s.dropWhile Char.isDigit
  let n : Int := ((digits.foldl (fun a c => 10 * a + digit c) 0 : Nat) : Int)
  let v :=
    if lo = 0 then
      if n > hi then hi else if neg then (if n = 0 then 0 else hi + 1 - n) else n
    else if neg then max lo (-n) else min hi n
  (v, rest)

/-- `parse_argument` for an integer type (CommandLineOptions.h:146-168), on the text of the argument: the stream
has to be at its end. -/
def parseInt (lo hi : Int) (s : Str) : Option Val :=
  let r := extractInt lo hi s
  if r.2 = [] then some (.int r.1) else none

/-- `parse_argument` for texts (CommandLineOptions.h:170-179). -/
def parseStr (s : Str) : Option Val := some (.str s)

/-- The types of an option: `bool`, or a type that needs an argument, with its conversion
(CommandLineOptions.h:140-179). Floating point types have an arbitrary conversion. -/
inductive Kind where
  | flag
  | arg (conv : Str → Option Val)

/-- `hasArgument` (CommandLineOptions.h:229). -/
def Kind.hasArgument : Kind → Bool
  | .flag => false
  | .arg _ => true

/-- What `register_argument` is given (CommandLineOptions.h:184-203); the description is left out. A tag '\0' is
no short tag. -/
structure Opt where
  tag : Char
  long : Str
  required : Bool
  kind : Kind
  default : Val

/-- The static registry (CommandLineOptions.h:136-138): two maps and a list. Options are numbers, the order of
their registration. -/
structure Registry where
  lmapping : List (Str × Nat)
  smapping : List (Char × Nat)
  list : List Opt

/-- The registry before any registration. -/
def Registry.empty : Registry := ⟨[], [], []⟩

/-- `register_argument` (CommandLineOptions.h:233-255): the first option with a tag keeps it. -/
def Registry.register (r : Registry) (o : Opt) : Registry where
  lmapping := if (r.lmapping.lookup o.long).isNone then (o.long, r.list.length) :: r.lmapping else r.lmapping
  smapping :=
    if o.tag ≠ '\x00' ∧ (r.smapping.lookup o.tag).isNone then (o.tag, r.list.length) :: r.smapping else r.smapping
  list := r.list ++ [o]

/-- The registry after the static initialisers of a program have run. -/
def registry (opts : List Opt) : Registry := opts.foldl Registry.register .empty

/-- `value` and `used` of the options. -/
abbrev State := Nat → Val × Bool

/-- The state before parsing (CommandLineOptions.h:93-100, 212-215). -/
def initial (opts : List Opt) : State := fun i => ((opts[i]?.map Opt.default).getD (.bool false), false)

/-- `CommandLineOption::parse` (CommandLineOptions.h:217-220): the new state. `next` is the argument after
the current one, if the option needs it. -/
def parse (k : Kind) (next : Option Str) (i : Nat) (st : State) : Option State :=
  match k with
  | .flag => some fun j => if j = i then (.bool true, true) else st j
  | .arg conv => do
    let s ← next
    let v ← conv s
    some fun j => if j = i then (v, true) else st j

/-- The loop over the letters of a short argument (CommandLineOptions.cpp:186-203). `rest` are the arguments
after the current one. The result says whether one of them has been read. -/
def letters (r : Registry) (rest : List Str) : Str → State → Option (State × Bool)
  | [], st => some (st, false)
  | c :: cs, st => do
    let i ← r.smapping.lookup c
    let o ← r.list[i]?
    if o.kind.hasArgument && (!cs.isEmpty || rest.isEmpty) then none
    else do
      let st ← parse o.kind rest.head? i st
      if o.kind.hasArgument then some (st, true) else letters r rest cs st

/-- One round of the loop (CommandLineOptions.cpp:167-203). -/
def token (r : Registry) (tag : Str) (rest : List Str) (st : State) : Option (State × Bool) :=
  if ¬ (tag.length ≥ 2 ∧ tag.head? = some '-') then none
  else if tag[1]? = some '-' then do
    let i ← r.lmapping.lookup (tag.drop 2)
    let o ← r.list[i]?
    if o.kind.hasArgument && rest.isEmpty then none
    else do
      let st ← parse o.kind rest.head? i st
      some (st, o.kind.hasArgument)
  else letters r rest (tag.drop 1) st

/-- `isDone.isUsed() && isDone.getValue()` (CommandLineOptions.cpp:204). -/
def isDone (done : Nat) (st : State) : Bool := (st done).2 && (st done).1 == .bool true

/-- The loop (CommandLineOptions.cpp:165-211) over the arguments from `currCount` on. The result is the state
and the arguments from `currCount` on at the end. `done` is the option `isDone`. -/
def loop (r : Registry) (done : Nat) : List Str → State → Option (State × List Str)
  | [], st => some (st, [])
  | tag :: rest, st =>
    match token r tag rest st with
    | none => none
    | some (st, false) => if isDone done st then some (st, tag :: rest) else loop r done rest st
    | some (st, true) => if isDone done st then some (st, rest) else loop r done rest.tail st
termination_by args => args.length
decreasing_by all_goals simp_wf <;> omega

/-- `base->isRequired() && !base->isUsed()` (CommandLineOptions.cpp:230) for the option with number `i`. -/
def missing (r : Registry) (st : State) (i : Nat) : Bool :=
  match r.list[i]? with
  | some o => o.required && !(st i).2
  | none => false

/-- `CLOParser::go` (CommandLineOptions.cpp:157-271). An empty argument vector makes `remaining()` wrap around.
`help` is the option `printHelp`. -/
def go (opts : List Opt) (done help : Nat) (argv : List Str) : Option (State × List Str) :=
  match argv with
  | [] => none
  | _ :: args => do
    let (st, left) ← loop (registry opts) done args (initial opts)
    let kill := (List.range opts.length).any (missing (registry opts) st)
    if (st help).1 = .bool true ∨ kill = true then none else some (st, left)

/-- `parse_options` (CommandLineOptions.cpp:88-156): the values, and the argument vector (with its length) that
the linked libraries are given. The name of the program overwrites the argument at `count`. If there is none the
length is 0. -/
def parseOptions (opts : List Opt) (done help : Nat) (argv : List Str) : Option (State × List Str) := do
  let (st, left) ← go opts done help argv
  let prog ← argv.head?
  some (st, match left with | [] => [] | _ :: rest => prog :: rest)

end Verif.CommandLine
