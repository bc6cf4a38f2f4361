import Verif.Logging.Model
import Verif.Logging.Spec

set_option linter.all false

namespace Verif.Logging

open Spec

theorem createMessage_cons (fmt arg : Text) (args : List Text) :
    createMessage fmt (arg :: args)
      = match scan false fmt with
        | (msg, none) => msg
        | (msg, some rest) => msg ++ (arg ++ createMessage rest args) := by
  cases args with
  | nil => rcases h : scan false fmt with ⟨m, _ | r⟩ <;> simp [createMessage, h]
  | cons b l => rcases h : scan false fmt with ⟨m, _ | r⟩ <;> simp [createMessage, h]

theorem scan_char {c : Char} (h1 : c ≠ '%') (h2 : c ≠ '\\') (fmt : Text) :
    scan false (c :: fmt) = (c :: (scan false fmt).1, (scan false fmt).2) := by
  simp [scan, h1, h2]

theorem scan_hole (fmt : Text) : scan false ('%' :: fmt) = ([], some fmt) := by
  simp [scan]

theorem scan_escape (c : Char) (fmt : Text) :
    scan false ('\\' :: c :: fmt) = (c :: (scan false fmt).1, (scan false fmt).2) := by
  simp [scan]

theorem createMessage_char {c : Char} (h1 : c ≠ '%') (h2 : c ≠ '\\') (fmt : Text)
    (args : List Text) : createMessage (c :: fmt) args = c :: createMessage fmt args := by
  cases args with
  | nil => simp [createMessage]
  | cons a l =>
    rw [createMessage_cons, createMessage_cons, scan_char h1 h2]
    rcases scan false fmt with ⟨m, _ | r⟩ <;> simp

theorem createMessage_escape (c : Char) (fmt a : Text) (args : List Text) :
    createMessage ('\\' :: c :: fmt) (a :: args) = c :: createMessage fmt (a :: args) := by
  rw [createMessage_cons, createMessage_cons, scan_escape]
  rcases scan false fmt with ⟨m, _ | r⟩ <;> simp

theorem createMessage_hole (fmt a : Text) (args : List Text) :
    createMessage ('%' :: fmt) (a :: args) = a ++ createMessage fmt args := by
  rw [createMessage_cons, scan_hole]; simp

theorem createMessage_empty (args : List Text) : createMessage [] args = [] := by
  cases args with
  | nil => simp [createMessage]
  | cons a l => rw [createMessage_cons]; simp [scan]

theorem fill_nil (fmt : Text) : fill fmt [] = fmt := by
  cases fmt <;> simp [fill]

theorem plain (fmt : Text) (h : '\\' ∉ fmt) (args : List Text) :
    createMessage fmt args = fill fmt args := by
  induction fmt generalizing args with
  | nil => rw [createMessage_empty]; simp [fill]
  | cons c fmt ih =>
    have h2 : c ≠ '\\' := fun e => h (by simp [e])
    have ih := fun args => ih (fun e => h (by simp [e])) args
    cases args with
    | nil => rw [fill_nil]; simp [createMessage]
    | cons a l =>
      by_cases h1 : c = '%'
      · subst h1
        rw [createMessage_hole, ih]; simp [fill]
      · rw [createMessage_char h1 h2, ih]
        rw [fill]
        intro e; exact h1 e

theorem pieces (l : List Piece) (args : List Text) (h : args.length > holes l) :
    createMessage (l.flatMap Piece.write) args = render l args := by
  induction l generalizing args with
  | nil => simp [createMessage_empty, render]
  | cons p l ih =>
    cases args with
    | nil => simp at h
    | cons a as =>
      cases p with
      | hole =>
        simp only [holes, List.length_cons] at h
        have : Piece.hole.write = ['%'] := rfl
        rw [List.flatMap_cons, this, List.singleton_append, createMessage_hole,
          ih as (by omega), render]
      | char c =>
        simp only [holes] at h
        rw [List.flatMap_cons]
        by_cases hc : c = '%' ∨ c = '\\'
        · have : (Piece.char c).write = ['\\', c] := by simp [Piece.write, hc]
          rw [this]
          simp only [List.cons_append, List.nil_append]
          rw [createMessage_escape, ih _ h, render]
        · have : (Piece.char c).write = [c] := by simp [Piece.write, hc]
          rw [this, List.singleton_append,
            createMessage_char (fun e => hc (Or.inl e)) (fun e => hc (Or.inr e)), ih _ h, render]

/-- Up to the last replaced placeholder the escapes are undone, what is behind it is
copied. -/
theorem pieces_tail (l : List Piece) (args : List Text) (h : args.length = holes l)
    (tail : Text) (hl : l.getLast? = some .hole) :
    createMessage (l.flatMap Piece.write ++ tail) args = render l args ++ tail := by
  induction l generalizing args with
  | nil => simp at hl
  | cons p l ih =>
    have step : ∀ {b : List Piece}, l = b → b ≠ [] → l.getLast? = some .hole := by
      intro b hb hne
      subst hb
      rw [List.getLast?_cons] at hl
      cases hh : l.getLast? with
      | none => exact absurd (List.getLast?_eq_none_iff.1 hh) hne
      | some v => rw [hh] at hl; simpa using hl
    cases p with
    | hole =>
      cases args with
      | nil => simp [holes] at h
      | cons a as =>
        simp only [holes, List.length_cons] at h
        have : Piece.hole.write = ['%'] := rfl
        rw [List.flatMap_cons, this, List.append_assoc, List.singleton_append,
          createMessage_hole, render, List.append_assoc]
        congr 1
        cases l with
        | nil =>
          have : as = [] := by
            have : as.length = 0 := by simpa [holes] using h
            exact List.length_eq_zero_iff.1 this
          subst this; simp [createMessage, render]
        | cons q l => exact ih as (by omega) (step rfl (by simp))
    | char c =>
      simp only [holes] at h
      have hne : l ≠ [] := by rintro rfl; simp at hl
      have hl' := step rfl hne
      have hpos : 0 < args.length := by
        rw [h]
        clear ih step h hl
        induction l with
        | nil => exact absurd rfl hne
        | cons q l ih =>
          cases q with
          | hole => simp [holes]
          | char d =>
            simp only [holes]
            have hq : l ≠ [] := by rintro rfl; simp at hl'
            refine ih hq ?_
            rw [List.getLast?_cons] at hl'
            cases hh : l.getLast? with
            | none => exact absurd (List.getLast?_eq_none_iff.1 hh) hq
            | some v => rw [hh] at hl'; simpa using hl'
      cases args with
      | nil => simp at hpos
      | cons a as =>
        rw [List.flatMap_cons]
        by_cases hc : c = '%' ∨ c = '\\'
        · have : (Piece.char c).write = ['\\', c] := by simp [Piece.write, hc]
          rw [this]
          simp only [List.cons_append, List.nil_append]
          rw [createMessage_escape, ih _ h hl', render, List.cons_append]
        · have : (Piece.char c).write = [c] := by simp [Piece.write, hc]
          rw [this, List.singleton_append, List.cons_append,
            createMessage_char (fun e => hc (Or.inl e)) (fun e => hc (Or.inr e)), ih _ h hl',
            render, List.cons_append]

end Verif.Logging
