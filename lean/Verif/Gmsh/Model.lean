import Verif.ElementReorder.Model
import Mathlib.Algebra.Order.Ring.Rat
import Mathlib.Algebra.Order.Group.Unbundled.Abs

/-!
# Reading gmsh files

Models `applications/Preprocessor/lib/gmsh.cpp` and the part of `MeshFactory.h` that turns nodes into
coordinates. Numbers in a section are a list of tokens, as `operator>>` delivers them; `double` is `ℚ`.
`assert_always`, exceptions, undefined behaviour and running out of tokens are `none`.
-/

namespace Verif.Gmsh

/-! ### Lines and sections -/

/-- gmsh.cpp:79: a line feed behind a carriage return belongs to it. -/
def skipLF : List Char → List Char
  | [] => []
  | d :: r => if d = '\n' then r else d :: r

/-- gmsh.cpp:60-89 `safeGetline`: the line and what follows. The end-of-file flag is set exactly if
nothing was left to read. -/
def getLine : List Char → List Char × List Char
  | [] => ([], [])
  | c :: cs =>
    if c = '\n' then ([], cs)
    else if c = '\r' then ([], skipLF cs)
    else (c :: (getLine cs).1, (getLine cs).2)

theorem getLine_shorter : ∀ s : List Char, s ≠ [] → (getLine s).2.length < s.length := by
  intro s
  induction s with
  | nil => intro h; exact absurd rfl h
  | cons c cs ih =>
    intro _
    rw [getLine]
    split
    · simp
    · split
      · cases cs with
        | nil => simp [skipLF]
        | cons d r => simp only [skipLF]; split <;> simp <;> omega
      · cases cs with
        | nil => simp [getLine]
        | cons d r =>
          have := ih (by simp)
          simp only [List.length_cons] at this ⊢
          omega

/-- The lines seen by a loop `while (!eof) safeGetline` (lines 98-105, 514, 529, 569). -/
def readLines (s : List Char) : List (List Char) :=
  if h : s = [] then [[]]
  else (getLine s).1 :: readLines (getLine s).2
termination_by s.length
decreasing_by exact getLine_shorter s h

/-- gmsh.cpp:512-525 `skipSection`: the lines behind the section. At the end of the file the condition
of the assertion is the message itself, which is true. -/
def skipSection (name : List Char) : List (List Char) → Option (List (List Char))
  | [] => some []
  | l :: ls =>
    if "$End".toList.isPrefixOf l then
      if l.drop 4 = name then some ls else none
    else skipSection name ls

/-- `std::isspace` -/
def isSpace (c : Char) : Bool := c = ' ' || (9 ≤ c.toNat && c.toNat ≤ 13)

/-- gmsh.cpp:527-545 `readSectionEnd`; a line that does not start with `$End` is only warned about.
`substr(4)` of a shorter line throws. -/
def readSectionEnd (name : List Char) : List (List Char) → Option (List (List Char))
  | [] => some []
  | l :: ls =>
    if l.all isSpace then readSectionEnd name ls
    else if l.length < 4 then none
    else if l.drop 4 = name then some ls else none

/-! ### Nodes and the dimension -/

/-- A line of the section of nodes: the tag and the coordinates. -/
structure Node where
  tag : Nat
  x : ℚ
  y : ℚ
  z : ℚ

/-- gmsh.h:104, `tol = 1e-12` -/
def tol : ℚ := 1 / 10 ^ 12

/-- gmsh.cpp:291-297: the dimension after another node. -/
def dimStep (dim : Nat) (n : Node) : Nat :=
  if dim < 3 ∧ |n.z| > tol then 3
  else if dim < 2 ∧ |n.y| > tol then 2
  else if dim < 1 ∧ |n.x| > tol then 1
  else dim

/-- A line of the section of physical names. -/
structure PhysName where
  dim : Nat
  tag : Int
  name : String

/-- gmsh.cpp:249-276, 279-305: names come before nodes; each may raise the dimension. -/
def meshDimension (names : List PhysName) (nodes : List Node) : Nat :=
  nodes.foldl dimStep (names.foldl (fun d p => if p.dim > d then p.dim else d) 0)

/-- gmsh.cpp:299-303, 503-510: the stored coordinates, cut to the dimension. -/
def coords (dim : Nat) (n : Node) : List ℚ :=
  if dim = 3 then [n.x, n.y, n.z] else [n.x, n.y, n.z].take dim

/-- MeshFactory.h:88-106, 116: the coordinates are numbered in the order of the file, and an element's
index is used as such a number. -/
def coordOf (dim : Nat) (nodes : List Node) (index : Nat) : Option (List ℚ) :=
  (nodes[index]?).map (coords dim)

/-! ### Elements -/

/-- gmsh.cpp:112-245 `fillElementTypeMap`, the types that the reordering knows: dimension and number of
nodes. -/
def elementType : Nat → Option (Nat × Nat)
  | 1 => some (1, 2)
  | 2 => some (2, 3)
  | 3 => some (2, 4)
  | 4 => some (3, 4)
  | 5 => some (3, 8)
  | 6 => some (3, 6)
  | 7 => some (3, 5)
  | 8 => some (1, 3)
  | 9 => some (2, 6)
  | 11 => some (3, 10)
  | 15 => some (0, 1)
  | _ => none

/-- gmsh.h `GmshReader::Element`; `tag = none` is `NO_TAG`. -/
structure RawElement where
  dim : Nat
  tag : Option Nat
  coordinates : List Nat
  deriving DecidableEq

/-- The number of values of a `size_t`. -/
def S : Nat := 2 ^ 64

/-- gmsh.cpp:338-375: one element. `no_tags - 1` is a `size_t`. -/
def readElement (index : Nat) (toks : List Nat) : Option (RawElement × List Nat) :=
  match toks with
  | number :: type :: noTags :: rest =>
    (elementType type).bind fun dn =>
      if number = index + 1 then
        let tag := if noTags > 0 then rest.head? else none
        let rest := if noTags > 0 then rest.drop 1 else rest
        let skip := (noTags + (S - 1)) % S
        if rest.length < skip + dn.2 then none
        else
          let rest := rest.drop skip
          (ElementReorder.reorderToHpGem ElementReorder.gmshTypes dn.1
              ((rest.take dn.2).map fun t => (t + (S - 1)) % S)).map
            fun c => (⟨dn.1, tag, c⟩, rest.drop dn.2)
      else none
  | _ => none

/-- gmsh.cpp:332-379: all elements. -/
def readElements : Nat → Nat → List Nat → Option (List RawElement × List Nat)
  | 0, _, toks => some ([], toks)
  | n + 1, index, toks =>
    (readElement index toks).bind fun p =>
      (readElements n (index + 1) p.2).map fun q => (p.1 :: q.1, q.2)

/-- gmsh.cpp:262-273: the name for a dimension and a tag. A later line replaces an earlier one; a name
that is not there is inserted as an empty string. -/
def nameOf (names : List PhysName) (dim tag : Nat) : String :=
  names.foldl (fun s p => if p.dim = dim ∧ p.tag.natAbs = tag then p.name else s) ""

/-- gmsh.cpp:486-494: the zone of an element. `physicalNames_[dimension_]` is out of range if no name has
this or a higher dimension. MeshFactory.h:111 rejects an empty name. -/
def zoneName (names : List PhysName) (dim : Nat) (e : RawElement) : Option String :=
  match e.tag with
  | none => some "Main"
  | some t =>
    if names = [] then some (toString t)
    else if names.any (fun p => p.dim ≥ dim) then
      let s := nameOf names dim t
      if s = "" then none else some s
    else none

/-- gmsh.cpp:466-501 `convertRawElements`: nodes and zone of the elements of full dimension. -/
def convert (names : List PhysName) (dim : Nat) (raw : List RawElement) :
    Option (List (List Nat × String)) :=
  (raw.filter fun e => e.dim = dim).mapM fun e => (zoneName names dim e).map fun z => (e.coordinates, z)

end Verif.Gmsh
