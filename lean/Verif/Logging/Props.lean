import Verif.Logging.Lemmas

/-!
# What the logger prints
-/

namespace Verif.Logging

open Spec

/-! ## C151: the text of a message -/

/-- A format without backslash: the placeholders are replaced from the left, one
argument each, and the text of an argument is never read as a format. -/
theorem message_plain (fmt : Text) (h : '\\' ∉ fmt) (args : List Text) :
    createMessage fmt args = fill fmt args :=
  plain fmt h args

/-- A format in which every `%` and every backslash that is meant as a character is
escaped: up to the last replaced placeholder the escapes are undone, and whatever
stands behind it is copied as it is. -/
theorem message_escaped (l : List Piece) (args : List Text) (h : args.length = holes l)
    (hl : l.getLast? = some .hole) (tail : Text) :
    createMessage (l.flatMap Piece.write ++ tail) args = render l args ++ tail :=
  pieces_tail l args h tail hl

/-- With more arguments than placeholders all escapes are undone, and the arguments
that are left over do not appear. -/
theorem message_surplus (l : List Piece) (args : List Text) (h : args.length > holes l) :
    createMessage (l.flatMap Piece.write) args = render l args :=
  pieces l args h

/-- With as many arguments as placeholders the escapes behind the last placeholder stay
in the message, so an escaped percent sign is printed with its backslash; the same sign
in front of the placeholder is not. -/
theorem message_escape_left (a tail : Text) :
    createMessage ('%' :: Piece.write (.char '%') ++ tail) [a] = a ++ '\\' :: '%' :: tail ∧
    createMessage (Piece.write (.char '%') ++ '%' :: tail) [a] = '%' :: a ++ tail ∧
    createMessage (Piece.write (.char '%') ++ tail) [] = '\\' :: '%' :: tail := by
  have hw : Piece.write (.char '%') = ['\\', '%'] := by decide
  rw [hw]
  refine ⟨?_, ?_, ?_⟩
  · simp only [List.cons_append, List.nil_append]
    rw [createMessage_hole]; simp [createMessage]
  · simp only [List.cons_append, List.nil_append]
    rw [createMessage_escape, createMessage_hole]; simp [createMessage]
  · simp [createMessage]

/-- Hence there are formats and arguments whose message is not the one meant. -/
theorem message_not_rendered :
    ¬ ∀ (l : List Piece) (args : List Text), args.length = holes l →
      createMessage (l.flatMap Piece.write) args = render l args := by
  intro h
  have := h [.hole, .char '%'] [['5']] rfl
  revert this
  decide

/-- An example: the format `step % of % (100\%)`. -/
example : createMessage "step % of % (100\\%)".toList ["3".toList, "%".toList]
    = "step 3 of % (100\\%)".toList := by decide

/-- An example for the escapes that are undone. -/
example : createMessage "a\\%b\\\\c%d".toList ["1".toList] = "a%b\\c1d".toList := by decide

/-! ## C152: which messages appear and which calls come back -/

/-- A message appears exactly if its level is at most that of the logger or at most that
of the build, and the old and the new interface agree. -/
theorem shown_iff (L G level : Log) (fmt : Text) (args : List Text) :
    ((operatorCall L G level fmt args).isSome ↔ level.val ≤ max L.val G.val) ∧
    log L G level fmt args = operatorCall L G level fmt args := by
  unfold operatorCall log
  constructor
  · split <;> rename_i h <;> simp <;> omega
  · by_cases h : L.val < level.val ∧ G.val < level.val
    · rw [if_pos h, if_neg (by omega)]
    · rw [if_neg h, if_pos (by omega)]

/-- A fatal message or an error appears at every level of the logger and the build, and
with the handlers of the library the call does not come back; every other message comes
back and writes nothing to the error output. -/
theorem severe_ends (rank : Option Text) (module : Text) (L G level : Log) (fmt : Text)
    (args : List Text) (hL : Log.error.val ≤ max L.val G.val) :
    let e := run (defaultOutput rank) module (operatorCall L G level fmt args)
    (level.val ≤ Log.error.val →
      e = ⟨[], moduleText rank module (createMessage fmt args), .exited⟩) ∧
    (Log.error.val < level.val → e.fin = .returned ∧ e.err = []) := by
  intro e
  constructor
  · intro h
    have hs : ¬ (L.val < level.val ∧ G.val < level.val) := by omega
    simp only [e, operatorCall, if_neg hs, run]
    cases level <;> simp_all [Log.val, channel, defaultOutput, printError]
  · intro h
    simp only [e, operatorCall]
    split
    · simp [run, Effect.none]
    · cases level <;> simp_all [Log.val, channel, run, defaultOutput, printMessage, printInfo]

/-- The message of every level that appears is written exactly once, at the end of the
line it is on. -/
theorem shown_text (rank : Option Text) (module : Text) (L G level : Log) (fmt : Text)
    (args : List Text) (h : level.val ≤ max L.val G.val) :
    let e := run (defaultOutput rank) module (operatorCall L G level fmt args)
    ∃ head : Text, e.out ++ e.err = head ++ createMessage fmt args ++ ['\n'] ∧
      (level = .info ∨ level = .default ∨ level = .verbose →
        head = rankPrefix rank [':']) ∧
      (level ≠ .info → level ≠ .default → level ≠ .verbose →
        head = rankPrefix rank [' '] ++ "Module ".toList ++ module ++ ":\n".toList) := by
  intro e
  have hs : ¬ (L.val < level.val ∧ G.val < level.val) := by omega
  simp only [e, operatorCall, if_neg hs, run]
  cases level <;> simp [Log.val, channel, defaultOutput, printMessage, printInfo, printError,
    moduleText]

/-- With the handlers of the library the code behind an assertion runs exactly if the
assertion holds, without any output; with debug assertions switched off it always runs. -/
theorem assert_guards (rank : Option Text) (module : Text) (b : Bool) (fmt : Text)
    (args : List Text) :
    ((assertAlways (defaultOutput rank) module b fmt args).fin = .returned ↔ b = true) ∧
    (∀ o, assertAlways o module true fmt args = Effect.none) ∧
    ((assertDebug true (defaultOutput rank) module b fmt args).fin = .returned ↔ b = true) ∧
    (∀ o, assertDebug false o module b fmt args = Effect.none) := by
  refine ⟨?_, ?_, ?_, ?_⟩ <;>
    cases b <;> simp [assertAlways, assertDebug, defaultOutput, printError, Effect.none]

/-- A failure does not come back, whatever the handlers do. -/
theorem fail_ends (o : Output) (module fmt : Text) (args : List Text) :
    (fail o module fmt args).fin ≠ .returned := by
  unfold fail
  simp only
  split
  · simp
  · assumption

/-- A custom handler that comes back lets the code behind a violated assertion run. -/
theorem assert_needs_handler :
    ∃ o : Output, ∀ module fmt args,
      (assertAlways o module false fmt args).fin = .returned :=
  ⟨fun _ _ _ => Effect.none, fun _ _ _ => by simp [assertAlways, Effect.none]⟩

/-- While warnings are suppressed a warning has no effect and the other levels act as
before; if the body comes back the old handler is in place again, also if the body
changed it or suppressed warnings itself. -/
theorem suppress_restores (o : Output) (body : Output → Output × End) :
    (∃ silent : Output,
      (∀ module msg, silent .onWarn module msg = ⟨[], [], .returned⟩) ∧
      (∀ c, c ≠ .onWarn → silent c = o c) ∧
      ((body silent).2 = .returned →
        (suppressWarnings o body).2 = .returned ∧
        (suppressWarnings o body).1 .onWarn = o .onWarn ∧
        ∀ c, c ≠ .onWarn → (suppressWarnings o body).1 c = (body silent).1 c)) := by
  refine ⟨fun c => if c = .onWarn then fun _ _ => Effect.none else o c, ?_, ?_, ?_⟩
  · intro module msg; simp [Effect.none]
  · intro c hc; simp [hc]
  · intro h
    unfold suppressWarnings
    simp only
    rcases hb : body (fun c => if c = .onWarn then fun _ _ => Effect.none else o c) with ⟨o', f⟩
    rw [hb] at h
    simp only at h
    subst h
    refine ⟨rfl, by simp, fun c hc => by simp [hc]⟩

/-- If the body throws, warnings stay suppressed. -/
theorem suppress_throws (o : Output) (module msg : Text) :
    (suppressWarnings o (fun s => (s, .thrown))).1 .onWarn module msg
      = ⟨[], [], .returned⟩ := by
  simp [suppressWarnings, Effect.none]

/-- An example: a warning of a logger of level `default`. -/
example : run (defaultOutput none) "M".toList
    (operatorCall .default .fatal .warn "x=%".toList ["1".toList])
    = ⟨"Module M:\nx=1\n".toList, [], .returned⟩ := by decide

/-- A debug message of that logger does not appear. -/
example : operatorCall .default .fatal .debug "x".toList [] = none := by decide

end Verif.Logging
