import Verif.CommandLine.Model

/-! # The language of command lines -/
namespace Verif.CommandLine

/-- The option with a long tag: the first that is registered with it. -/
def longOpt (opts : List Opt) (name : Str) : Option Nat := opts.findIdx? fun o => o.long = name

/-- The option with a short tag. -/
def shortOpt (opts : List Opt) (c : Char) : Option Nat := if c = '\x00' then none else opts.findIdx? fun o => o.tag = c

/-- What a user can write. -/
inductive Item where
  /-- `--name` -/
  | long (name : Str)
  /-- `--name value` -/
  | longArg (name value : Str)
  /-- `-abc` -/
  | short (flags : Str)
  /-- `-abc value`, where the value is for `c` -/
  | shortArg (flags : Str) (c : Char) (value : Str)

/-- How it is written. -/
def Item.words : Item → List Str
  | .long name => ['-' :: '-' :: name]
  | .longArg name value => ['-' :: '-' :: name, value]
  | .short flags => ['-' :: flags]
  | .shortArg flags c value => ['-' :: (flags ++ [c]), value]

/-- A flag is set. -/
def Sets (opts : List Opt) (i : Option Nat) (a : Nat × Val) : Prop :=
  ∃ o, i = some a.1 ∧ opts[a.1]? = some o ∧ (match o.kind with | .flag => True | .arg _ => False) ∧ a.2 = .bool true

/-- An option with an argument is set to the value of its argument. -/
def SetsTo (opts : List Opt) (i : Option Nat) (value : Str) (a : Nat × Val) : Prop :=
  ∃ o conv, i = some a.1 ∧ opts[a.1]? = some o ∧ o.kind = .arg conv ∧ conv value = some a.2

/-- What it means: the options it sets, in order. -/
inductive Item.Means (opts : List Opt) : Item → List (Nat × Val) → Prop
  | long (name : Str) (a : Nat × Val) : Sets opts (longOpt opts name) a → Means opts (.long name) [a]
  | longArg (name value : Str) (a : Nat × Val) :
      SetsTo opts (longOpt opts name) value a → Means opts (.longArg name value) [a]
  | short (flags : Str) (as : List (Nat × Val)) : flags ≠ [] → flags.head? ≠ some '-' →
      flags.length = as.length → (∀ p ∈ flags.zip as, Sets opts (shortOpt opts p.1) p.2) → Means opts (.short flags) as
  | shortArg (flags : Str) (c : Char) (value : Str) (as : List (Nat × Val)) (a : Nat × Val) :
      (flags ++ [c]).head? ≠ some '-' → flags.length = as.length →
      (∀ p ∈ flags.zip as, Sets opts (shortOpt opts p.1) p.2) → SetsTo opts (shortOpt opts c) value a →
      Means opts (.shortArg flags c value) (as ++ [a])

/-- The meaning of a list of items. -/
inductive Means (opts : List Opt) : List Item → List (Nat × Val) → Prop
  | nil : Means opts [] []
  | cons (it : Item) (its : List Item) (a as : List (Nat × Val)) :
      it.Means opts a → Means opts its as → Means opts (it :: its) (a ++ as)

/-- The words of a list of items. -/
def words (its : List Item) : List Str := its.flatMap Item.words

/-- The value of an option is that of the last item that sets it. -/
def result (opts : List Opt) (as : List (Nat × Val)) (i : Nat) : Val × Bool :=
  match (as.filter fun a => a.1 = i).getLast? with
  | some a => (a.2, true)
  | none => ((opts[i]?.map Opt.default).getD (.bool false), false)

/-- The two special options: `--` ends the arguments for hpGEM, the other one asks for help. -/
structure Special (opts : List Opt) (done help : Nat) : Prop where
  ends : longOpt opts [] = some done
  flag : ∃ o, opts[done]? = some o ∧ o.kind = .flag ∧ o.tag = '\x00' ∧ o.default = .bool false
  asks : ∃ o, opts[help]? = some o ∧ o.kind = .flag ∧ o.default = .bool false

end Verif.CommandLine
