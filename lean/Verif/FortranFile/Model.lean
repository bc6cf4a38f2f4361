import Mathlib.Data.List.Basic

/-!
# Fortran record files

`applications/Preprocessor/lib/FortranUnformattedFile.cpp`.  A file is a list of bytes
(numbers below 256) and a position.  `debug` says whether `assert_debug` is active; its
arguments are evaluated in every build.
-/

namespace Verif.FortranFile

/-- `std::filebuf file_`. -/
structure File where
  bytes : List ℕ
  pos : ℕ
deriving DecidableEq

/-- What a call does: return a value and the file; end the program; or read an
uninitialised variable or write behind the end of a buffer. -/
inductive Result (α : Type) where
  | ok (value : α) (file : File)
  | abort
  | undefined
deriving DecidableEq

/-- `sgetn`: at most `n` bytes. -/
def sgetn (f : File) (n : ℕ) : List ℕ × File :=
  let b := (f.bytes.drop f.pos).take n
  (b, { f with pos := f.pos + b.length })

/-- Four bytes as `std::uint32_t` on a little-endian machine. -/
def uint32 : List ℕ → ℕ
  | [] => 0
  | b :: bs => b + 256 * uint32 bs

/-- `readRecordSize`, lines 99-110: the size if four bytes could be read. -/
def readRecordSize (f : File) : Option ℕ × File :=
  let (b, g) := sgetn f 4
  if b.length = 4 then (some (uint32 b), g) else (none, { g with pos := g.pos - b.length })

/-- `readRawRecord`, lines 48-64, into a buffer of `size` bytes: the bytes written to the
buffer.  Without `assert_debug` a size marker that cannot be read is an uninitialised
variable; at the end marker it is not used. -/
def readRawRecord (debug : Bool) (f : File) (size : ℕ) : Result (List ℕ) :=
  match readRecordSize f with
  | (none, _) => if debug then .abort else .undefined
  | (some recordSize, f) =>
    if debug && recordSize != size then .abort
    else
      let (data, f) := sgetn f recordSize
      if data.length > size then .undefined
      else if debug && data.length != recordSize then .abort
      else
        match readRecordSize f with
        | (none, f) => if debug then .undefined else .ok data f
        | (some endSize, f) => if debug && recordSize != endSize then .abort else .ok data f

/-- `peekRecordSize`, lines 66-78. -/
def peekRecordSize (debug : Bool) (f : File) : Result ℕ :=
  let (b, g) := sgetn f 4
  let g := { g with pos := g.pos - b.length }
  if b.length = 4 then .ok (uint32 b) g else if debug then .abort else .undefined

/-- `skipRecord`, lines 80-95.  Seeking past the end of the file is allowed. -/
def skipRecord (debug : Bool) (f : File) (size : ℕ) : Result Unit :=
  match readRecordSize f with
  | (none, _) => if debug then .abort else .undefined
  | (some recordSize, f) =>
    if debug && recordSize != size then .abort
    else
      let f := { f with pos := f.pos + recordSize }
      match readRecordSize f with
      | (none, f) => if debug then .abort else .ok () f
      | (some endSize, f) => if debug && recordSize != endSize then .abort else .ok () f

/-- `eof`, lines 97-100. -/
def eof (f : File) : Bool := (f.bytes.drop f.pos).isEmpty

/-- How the readers of mesh files use it: records of unknown sizes until the end of the
file, at most `n` of them. -/
def readAll (debug : Bool) : ℕ → File → Result (List (List ℕ))
  | 0, f => .ok [] f
  | n + 1, f =>
    if eof f then .ok [] f
    else match peekRecordSize debug f with
      | .ok size f => match readRawRecord debug f size with
        | .ok data f => match readAll debug n f with
          | .ok rest f => .ok (data :: rest) f
          | .abort => .abort
          | .undefined => .undefined
        | .abort => .abort
        | .undefined => .undefined
      | .abort => .abort
      | .undefined => .undefined

end Verif.FortranFile
