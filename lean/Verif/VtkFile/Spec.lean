import Verif.VtkFile.Model
import Verif.Base64.Spec
import Mathlib.Algebra.BigOperators.Group.List.Basic

/-!
# Reading a VTK file

Written from the description of the format (https://vtk.org/Wiki/VTK_XML_Formats): the points of cell
`i` are the entries of `connectivity` from `offsets[i - 1]` (zero for the first cell) up to
`offsets[i]`; point `k` owns the values `c k, …, c k + c - 1` of an array of `c` components.
-/
namespace Verif.VtkFile

/-- The values of point `k` in an array of `c` components per point. -/
def row (c : Nat) (values : List ℝ) (k : Nat) : List ℝ :=
  (List.range c).map fun j => values.getD (c * k + j) 0

/-- The numbers of the points of cell `i`. -/
def Grid.cellPoints (g : Grid) (i : Nat) : List Nat :=
  (g.conn.take (g.offsets.getD i 0)).drop (if i = 0 then 0 else g.offsets.getD (i - 1) 0)

/-- What a reader finds at the points of each cell in an array of `c` components per point. -/
def Grid.read (g : Grid) (c : Nat) (values : List ℝ) : List (List (List ℝ)) :=
  (List.range g.numberOfCells).map fun i => (g.cellPoints i).map (row c values)

/-- The three coordinates of a point, zero beyond the dimension. -/
def padded (d : Nat) (v : Nat → ℝ) : List ℝ :=
  [if 0 < d then v 0 else 0, if 1 < d then v 1 else 0, if 2 < d then v 2 else 0]

/-- The nine entries of a tensor, those of the identity beyond the dimension. -/
def paddedTensor (d : Nat) (m : Nat → Nat → ℝ) : List ℝ :=
  let e (i j : Nat) : ℝ := if max i j < d then m i j else if i = j then 1 else 0
  [e 0 0, e 0 1, e 0 2, e 1 0, e 1 1, e 1 2, e 2 0, e 2 1, e 2 2]

/-- The number of points a mesh takes in the file. -/
def totalPoints {E P : Type} (cell : E → VtkElement P) (mesh : List E) : Nat :=
  (mesh.map fun e => (cell e).points.length).sum

/-- The value of four bytes. -/
def value32 : List UInt8 → Nat
  | [a, b, c, d] => a.toNat + 256 * (b.toNat + 256 * (c.toNat + 256 * d.toNat))
  | _ => 0

/-- Reading an inline binary array: the first eight characters hold the number of bytes, and the rest
has to hold as many. -/
def readBinary (bigEndian : Bool) (text : List Char) : Option (List UInt8) := do
  let header ← Base64.Spec.decode (text.take 8)
  let n := value32 (if bigEndian then header.reverse else header)
  let bytes ← Base64.Spec.decode (text.drop 8)
  if bytes.length = n then some bytes else none

end Verif.VtkFile
