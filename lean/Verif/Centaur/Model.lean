import Mathlib.Data.List.Basic
import Mathlib.Logic.Function.Basic
import Mathlib.Order.Basic

/-!
# Reading Centaur meshes

Models `applications/Preprocessor/lib/centaur.cpp` (the reader behind `.hyb` files). A file is the list
of its Fortran records; a record is the list of its entries (the byte level is the subject of the topic
`FortranFile`: a record of another length than asked for is an error). `uint32_t` is a natural number
below `2 ^ 32`, its arithmetic is modulo `2 ^ 32`; `size_t` is `Nat`. `assert_always`, reading past the
end of the file and accesses out of range are `none`.
-/

namespace Verif.Centaur

/-- The number of values of a `uint32_t`. -/
def W : Nat := 2 ^ 32

/-- `x - 1` in `uint32_t`. -/
def dec (x : Nat) : Nat := (x + (W - 1)) % W

/-! ### Header -/

/-- centaur.h:71-75 `getDimension`; the file type is a signed number. -/
def dimension (fileType : Int) : Nat := if fileType > 0 then 3 else 2

/-- centaur.cpp:116-122 (constructor) and 311-317 (`readPeriodicNodeConnections`): the file types that
are not rejected. -/
def accepts (fileType : Int) : Bool :=
  decide (fileType ≠ 1) && decide (fileType ≠ 6) && decide (fileType < 6) &&
    (decide (fileType > 3) || decide (dimension fileType = 2))

/-- centaur.cpp:101-109 `fromFortranString`: drops the trailing blanks. -/
def fromFortranString (s : List Char) : List Char :=
  (s.reverse.dropWhile (fun c => c = ' ')).reverse

/-! ### Groups -/

/-- centaur.cpp:622-636 `readGroupSize`: the total count and the count per line. -/
def readGroupSize (fileType : Int) (expectMultiline : Bool) : List (List Nat) → Option (Nat × Nat × List (List Nat))
  | [] => none
  | hdr :: rest =>
    if expectMultiline && decide (fileType > 4) then
      match hdr with
      | [total, per] => some (total, per, rest)
      | _ => none
    else
      match hdr with
      | [total] => some (total, total, rest)
      | _ => none

/-- Copying a record to `data + offset`; out of range is undefined behaviour. -/
def splice {T : Type} (data : List T) (offset : Nat) (r : List T) : Option (List T) :=
  if offset + r.length ≤ data.length then
    some (data.take offset ++ r ++ data.drop (offset + r.length))
  else none

/-- centaur.cpp:658-670: the loop of `readGroup`. The offset and the size of a line are products of two
`uint32_t`. Every round reads a record. -/
def readLines {T : Type} (per total numC : Nat) :
    List (List T) → Nat → List T → Option (List T × List (List T))
  | [], read, data => if read < total then none else some (data, [])
  | r :: rs, read, data =>
    if read < total then
      let lineSize := min per (total - read)
      if r.length = (lineSize * numC) % W then
        (splice data ((read * numC) % W) r).bind fun data' =>
          readLines per total numC rs (read + lineSize) data'
      else none
    else some (data, r :: rs)

/-- centaur.cpp:638-674 `readGroup` behind its header: the data, the number returned and the records that
follow. `total` and `per` come from the header; `swap` is `lineCountIsComponents`; `dflt` is what
`resize` fills with. -/
def readGroup {T : Type} (dflt : T) (fileType : Int) (numC0 : Nat) (swap : Bool) (total0 per0 : Nat)
    (recs : List (List T)) : Option (List T × Nat × List (List T)) :=
  let numC := if swap then total0 else numC0
  let total := if swap then numC0 else total0
  let per := if swap && decide (fileType ≤ 4) then total else per0
  let ret := if swap then numC else total
  if total * numC = 0 then
    match recs with
    | [] :: rest => some ([], ret, rest)
    | _ => none
  else
    (readLines per total numC recs 0 (List.replicate (total * numC) dflt)).map
      fun p => (p.1, ret, p.2)

/-- centaur.cpp:300-306: the inner loop of `skipGroup`: a record for every `per` entries. -/
def skipLines {T : Type} (per total : Nat) : List (List T) → Nat → Option (List (List T))
  | [], read => if read < total then none else some []
  | r :: rs, read => if read < total then skipLines per total rs (read + per) else some (r :: rs)

/-- centaur.cpp:293-309 `skipGroup` behind its header. -/
def skipGroup {T : Type} (linesPerEntity total per : Nat) (recs : List (List T)) :
    Option (List (List T)) :=
  if total = 0 then
    match recs with
    | [] :: rest => some rest
    | _ => none
  else (List.range linesPerEntity).foldlM (fun rs _ => skipLines per total rs 0) recs

/-! ### Elements -/

/-- centaur.cpp:676-697 `numNodes` -/
def numNodes (is2D : Bool) (elemType : Nat) : Option Nat :=
  if is2D then
    if elemType < 2 then some (if elemType = 0 then 3 else 4) else none
  else
    match elemType with
    | 0 => some 8
    | 1 => some 6
    | 2 => some 5
    | 3 => some 4
    | _ => none

/-- `std::swap(coords[i], coords[j])` -/
def swapAt {α : Type} (i j : Nat) (l : List α) : Option (List α) :=
  match l[i]?, l[j]? with
  | some a, some b => some ((l.set i b).set j a)
  | _, _ => none

/-- centaur.cpp:721-725: the loop that moves entries one place up, from the back, and then stores the
top in front. -/
def rotateTop {α : Type} (l : List α) : Option (List α) :=
  match l with
  | [a, b, c, d, top] => some [top, a, b, c, d]
  | _ => none

/-- centaur.cpp:699-731 `reorderElementCoords` -/
def reorder {α : Type} (is2D : Bool) (elemType : Nat) (l : List α) : Option (List α) :=
  if is2D then
    if elemType < 2 then (if elemType = 1 then swapAt 2 3 l else some l) else none
  else if elemType < 4 then
    if elemType = 0 then (swapAt 2 3 l).bind (swapAt 6 7)
    else if elemType = 2 then (swapAt 2 3 l).bind rotateTop
    else some l
  else none

/-- centaur.cpp:276-289: the elements of one type from the stream of indices (`-1` in `uint32_t`). -/
def toElements (is2D : Bool) (elemType numNodes count : Nat) (coordIds : List Nat) :
    Option (List (List Nat)) :=
  (List.range count).mapM fun e =>
    ((List.range numNodes).mapM fun c => (coordIds[e * numNodes + c]?).map dec).bind
      (reorder is2D elemType)

/-- centaur.cpp:268-291 `readElements` behind the header of its group. -/
def readElements (fileType : Int) (elemType total per : Nat) (recs : List (List Nat)) :
    Option (List (List Nat) × List (List Nat)) :=
  let is2D := decide (dimension fileType = 2)
  (numNodes is2D elemType).bind fun n =>
    (readGroup 0 fileType n false total per recs).bind fun g =>
      (toElements is2D elemType n g.2.1 g.1).map fun es => (es, g.2.2)

/-- centaur.cpp:590-612 `addHigherOrderNodes`: the nodes of an element from its corners and the extra
nodes at `offset`. -/
def addHigherOrderNodes {α : Type} (elemType : Nat) (corners extra : List α) (offset : Nat) :
    Option (List α) :=
  if elemType = 3 then
    match corners, (extra.drop offset).take 6 with
    | [c0, c1, c2, c3], [e0, e1, e2, e3, e4, e5] => some [c0, e0, c1, e2, e1, c2, e3, e4, e5, c3]
    | _, _ => none
  else none

/-! ### Periodic connections -/

/-- centaur.cpp:344-357: one map of periodic node pairs. The value `2 ^ 32 - 1` of the second node marks
an invalid pair; a later pair replaces an earlier one. -/
def merges (pairs : List (Nat × Nat)) : Nat → Option Nat :=
  pairs.foldl (fun m p =>
    if dec p.2 = W - 1 then m else Function.update m (dec p.1) (some (dec p.2))) (fun _ => none)

/-! ### Zones -/

/-- centaur.h `ZoneInformation`: the name and the ends per element type. -/
structure Zone where
  name : String
  ends : Fin 4 → Nat

/-- centaur.cpp:421-441, 453-461: the ends of all zones, from the starts stored in the file (five numbers
per zone in three dimensions, two in two), and the numbers of elements. Without a zone the code accesses
`zones[numberOfZones - 1]`: `none`. -/
def zoneEnds (is2D : Bool) (counts : Fin 4 → Nat) (starts : List (List Nat)) :
    Option (List (Fin 4 → Nat)) :=
  let n := if is2D then 2 else 5
  match starts with
  | [] => none
  | first :: rest =>
    if (first :: rest).all (fun s => s.length = n) then
      if first.all (fun x => x = 1) then
        some (rest.map (fun s (t : Fin 4) => if (t : Nat) < n then dec (s.getD t 0) else 0) ++ [counts])
      else none
    else none

/-- centaur.cpp:522-525: the innermost loop, `positions[elemType]` runs up to the end of the zone. -/
def fill (name : String) (e : Nat) (names : List String) (pos : Nat) : Option (List String × Nat) :=
  if pos < e then
    if pos < names.length then fill name e (names.set pos name) (pos + 1) else none
  else some (names, pos)
termination_by e - pos

/-- centaur.cpp:518-527: one zone, all element types. -/
def zoneStep (s : List String × (Fin 4 → Nat)) (z : Zone) : Option (List String × (Fin 4 → Nat)) :=
  [(0 : Fin 4), 1, 2, 3].foldlM (fun s t =>
    (fill z.name (z.ends t) s.1 (s.2 t)).map fun r => (r.1, Function.update s.2 t r.2)) s

/-- centaur.cpp:511-516: the first element of each type in the vector of elements. -/
def firstOf (counts : Fin 4 → Nat) : Fin 4 → Nat
  | 0 => 0
  | 1 => counts 0
  | 2 => counts 0 + counts 1
  | 3 => counts 0 + counts 1 + counts 2

/-- centaur.cpp:509-528: the zone names of all elements; they start as `"UNSET"` (line 277). -/
def applyZones (counts : Fin 4 → Nat) (zones : List Zone) : Option (List String) :=
  (zones.foldlM zoneStep
    (List.replicate (counts 0 + counts 1 + counts 2 + counts 3) "UNSET", firstOf counts)).map Prod.fst

/-- centaur.cpp:382-528 `readZoneInfo`: the names per element from the starts and the names in the file.
-/
def readZones (is2D : Bool) (counts : Fin 4 → Nat) (starts : List (List Nat)) (names : List String) :
    Option (List String) :=
  (zoneEnds is2D counts starts).bind fun ends =>
    if names.length = ends.length then applyZones counts (List.zipWith Zone.mk names ends) else none

end Verif.Centaur
