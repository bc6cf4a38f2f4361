/-!
# What a message is
-/

namespace Verif.Logging.Spec

/-- Every placeholder is replaced by the next argument; placeholders without argument
stay, arguments without placeholder are dropped. -/
def fill : List Char → List (List Char) → List Char
  | [], _ => []
  | fmt, [] => fmt
  | '%' :: fmt, a :: args => a ++ fill fmt args
  | c :: fmt, a :: args => c :: fill fmt (a :: args)

/-- A piece of a format: a character or a placeholder. -/
inductive Piece
  | char (c : Char) | hole

/-- How a piece is written in a format: a backslash in front of `%` and backslash. -/
def Piece.write : Piece → List Char
  | .hole => ['%']
  | .char c => if c = '%' ∨ c = '\\' then ['\\', c] else [c]

/-- The message of a list of pieces. -/
def render : List Piece → List (List Char) → List Char
  | [], _ => []
  | .char c :: l, args => c :: render l args
  | .hole :: l, a :: args => a ++ render l args
  | .hole :: l, [] => '%' :: render l []

/-- Number of placeholders. -/
def holes : List Piece → Nat
  | [] => 0
  | .hole :: l => holes l + 1
  | .char _ :: l => holes l

end Verif.Logging.Spec
