import Mathlib.Data.List.Basic

/-!
# The logger

`kernel/Logger.h` and `kernel/Logger.cpp`.  Texts are lists of characters without the
character 0 (a C string ends there).  Arguments are the texts `operator<<` writes for
them.  The stack trace is not modelled.
-/

namespace Verif.Logging

abbrev Text := List Char

/-- The loop of `createMessage`, `Logger.h` 496-510 and 525-539: the characters
written before the next placeholder, and the format behind it (`none`: the format
ended). The argument is `doSkipNext`. -/
def scan : Bool → Text → Text × Option Text
  | _, [] => ([], none)
  | skip, c :: fmt =>
    if c ≠ '%' ∨ skip then
      if c = '\\' ∧ ¬ skip then scan true fmt
      else
        let r := scan false fmt
        (c :: r.1, r.2)
    else ([], some fmt)

/-- `createMessage`, lines 493-549: several arguments, one argument, none. -/
def createMessage : Text → List Text → Text
  | message, [] => message
  | fmt, [arg] =>
    match scan false fmt with
    | (msg, none) => msg
    | (msg, some rest) => msg ++ (arg ++ rest)
  | fmt, arg :: args =>
    match scan false fmt with
    | (msg, none) => msg
    | (msg, some rest) => msg ++ (arg ++ createMessage rest args)

/-- `enum class Log`, lines 162-170. -/
inductive Log
  | fatal | error | warn | info | default | verbose | debug
  deriving DecidableEq, Repr

/-- The values of the enumeration. -/
def Log.val : Log → Int
  | .fatal => -20
  | .error => -15
  | .warn => -10
  | .info => -5
  | .default => 0
  | .verbose => 5
  | .debug => 10

/-- The members of `LoggerOutput`. -/
inductive Channel
  | onFatal | onError | onWarn | onInfo | onVerbose | onDebug | onFail
  deriving DecidableEq, Repr

/-- The cases of lines 366-378 (and 464-476). -/
def channel (level : Log) : Channel :=
  if level.val ≤ Log.fatal.val then .onFatal
  else if level.val ≤ Log.error.val then .onError
  else if level.val ≤ Log.warn.val then .onWarn
  else if level.val ≤ Log.info.val then .onInfo
  else if level.val ≤ Log.verbose.val then .onVerbose
  else .onDebug

/-- `operator()`, lines 360-384: `L` is the level of the logger, `G` is
`HPGEM_LOGLEVEL`; the handler that is called and the text it gets. -/
def operatorCall (L G level : Log) (fmt : Text) (args : List Text) : Option (Channel × Text) :=
  if L.val < level.val ∧ G.val < level.val then none
  else some (channel level, createMessage fmt args)

/-- `log`, lines 458-478. -/
def log (L G level : Log) (fmt : Text) (args : List Text) : Option (Channel × Text) :=
  if level.val ≤ L.val ∨ level.val ≤ G.val then some (channel level, createMessage fmt args)
  else none

/-- What happens: text on the output or the error output, and whether the call came
back (`exit`, an exception). -/
inductive End
  | returned | exited | thrown
  deriving DecidableEq, Repr

/-- Effect of a handler on the text of both outputs. -/
structure Effect where
  out : Text
  err : Text
  fin : End
  deriving DecidableEq, Repr

/-- A handler: a function of the module name and the message. -/
abbrev Handler := Text → Text → Effect

/-- The rank in front of a line if MPI runs. -/
def rankPrefix (rank : Option Text) (suffix : Text) : Text :=
  match rank with
  | none => []
  | some r => '[' :: r ++ ']' :: suffix

/-- `printInfo`, `Logger.cpp` 81-95. -/
def printInfo (rank : Option Text) : Handler := fun _ msg =>
  ⟨rankPrefix rank [':'] ++ msg ++ ['\n'], [], .returned⟩

/-- The text of warnings and errors. -/
def moduleText (rank : Option Text) (module msg : Text) : Text :=
  rankPrefix rank [' '] ++ "Module ".toList ++ module ++ ":\n".toList ++ msg ++ ['\n']

/-- `printMessage`, lines 98-113. -/
def printMessage (rank : Option Text) : Handler := fun module msg =>
  ⟨moduleText rank module msg, [], .returned⟩

/-- `printError`, lines 117-188. -/
def printError (rank : Option Text) : Handler := fun module msg =>
  ⟨[], moduleText rank module msg, .exited⟩

/-- `LoggerOutput`. -/
abbrev Output := Channel → Handler

/-- `loggerOutputDefaultImpl`, lines 191-199. -/
def defaultOutput (rank : Option Text) : Output
  | .onFatal => printError rank
  | .onError => printError rank
  | .onWarn => printMessage rank
  | .onInfo => printInfo rank
  | .onVerbose => printInfo rank
  | .onDebug => printMessage rank
  | .onFail => printError rank

/-- The effect of nothing. -/
def Effect.none : Effect := ⟨[], [], .returned⟩

/-- A call of the logger with given handlers. -/
def run (o : Output) (module : Text) : Option (Channel × Text) → Effect
  | none => Effect.none
  | some (c, msg) => o c module msg

/-- `assert_always`, lines 424-431. -/
def assertAlways (o : Output) (module : Text) (assertion : Bool) (fmt : Text) (args : List Text) :
    Effect :=
  if ¬ assertion then o .onFatal module (createMessage fmt args) else Effect.none

/-- `assert_debug`, lines 409-417; `asserts` is `HPGEM_ASSERTS`. -/
def assertDebug (asserts : Bool) (o : Output) (module : Text) (assertion : Bool) (fmt : Text)
    (args : List Text) : Effect :=
  if asserts then assertAlways o module assertion fmt args else Effect.none

/-- `fail`, lines 440-447: `exit(1)` behind the handler. -/
def fail (o : Output) (module fmt : Text) (args : List Text) : Effect :=
  let e := o .onFail module (createMessage fmt args)
  if e.fin = .returned then { e with fin := .exited } else e

/-- `suppressWarnings`, lines 480-486.  The body is given by what it leaves behind:
the handlers and how it ended. -/
def suppressWarnings (o : Output) (body : Output → Output × End) : Output × End :=
  let silent : Output := fun c => if c = .onWarn then fun _ _ => Effect.none else o c
  match body silent with
  | (o', .returned) => (fun c => if c = .onWarn then o .onWarn else o' c, .returned)
  | r => r

end Verif.Logging
