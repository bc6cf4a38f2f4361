import Verif.VtkFile.Model

/-!
# Model of the Tecplot output

kernel/Output/TecplotDiscontinuousSolutionWriter_Impl.h, TecplotPhysicalGeometryIterator.{h,cpp}.
`double` is `ℝ`; numbers are written as they are, without the rounding of the stream. The text written
by the function of the user for a point is a value of any type.
-/
namespace Verif.Tecplot
open VtkFile (Geometry)

/-! ## The order of the corners -/

/-- TecplotPhysicalGeometryIterator.cpp:58-115 and `acceptG` (117-155): the sequence for a shape, in
the order in which it is stored; `FATAL` and `ERROR` for the others. -/
def sequence : Geometry → Option (List Nat)
  | .line => some [1, 0]
  | .triangle => some [2, 1, 0, 0]
  | .square => some [2, 3, 1, 0]
  | .cube => some [6, 7, 5, 4, 2, 3, 1, 0]
  | .tetrahedron => some [3, 3, 3, 3, 2, 2, 1, 0]
  | .prism => some [5, 5, 4, 3, 2, 2, 1, 0]
  | .pyramid => some [0, 0, 0, 0, 3, 4, 2, 1]
  | .point | .hypercube => none

/-- TecplotPhysicalGeometryIterator.cpp:199-207: `more` and `getNodeNumber`, for `currentNode + 1`. -/
def visit (nodes : List Nat) : Nat → List Nat
  | 0 => []
  | k + 1 => nodes.getD k 0 :: visit nodes k

/-- The corners of a shape in the order of `acceptG`, `more` and `getNodeNumber`. -/
def corners (g : Geometry) : Option (List Nat) := (sequence g).map fun s => visit s s.length

/-! ## A zone -/

/-- `previousNumberOfNodes_` and `previousNumberOfElements_` -/
structure State where
  nodes : Nat
  elements : Nat

/-- A zone: the numbers of nodes and of elements in its header, whether coordinates and connectivity
are those of an earlier zone, its lines (coordinates and data) and its connectivity. -/
structure Zone (D : Type) where
  nodes : Nat
  elements : Nat
  reused : Bool
  lines : List (List ℝ × D)
  conn : List (List Nat)

variable {E P D : Type}

/-- TecplotDiscontinuousSolutionWriter_Impl.h:224-229: the coordinates asked for; `none` for the
number of a coordinate that is not below `DIM`. -/
def coordinates (d : Nat) (dimensions : List Nat) (x : Nat → ℝ) : Option (List ℝ) :=
  dimensions.mapM fun i => if i < d then some (x i) else none

/-- TecplotDiscontinuousSolutionWriter_Impl.h:201-240: the lines of an element. -/
def elementLines (d : Nat) (dimensions : List Nat) (same : Bool) (geometry : Geometry)
    (node : Nat → P) (phys : P → Nat → ℝ) (data : P → D) : Option (List (List ℝ × D)) := do
  let c ← corners geometry
  c.mapM fun i => do
    let x ← if same then some [] else coordinates d dimensions (phys (node i))
    some (x, data (node i))

/-- TecplotDiscontinuousSolutionWriter_Impl.h:249-260: the numbers of the nodes, from `count` on. -/
def connectivity (k : Nat) : Nat → Nat → List (List Nat)
  | 0, _ => []
  | e + 1, count => (List.range' count (2 ^ k)) :: connectivity k e (count + 2 ^ k)

/-- TecplotDiscontinuousSolutionWriter_Impl.h:143-274 `write`. -/
def write (d : Nat) (dimensions : List Nat) (geometry : E → Geometry) (node : E → Nat → P)
    (phys : E → P → Nat → ℝ) (mesh : List E) (same : Bool) (data : E → P → D) (s : State) :
    Option (Zone D × State) := do
  let lines ← mesh.mapM fun e => elementLines d dimensions same (geometry e) (node e) (phys e) (data e)
  let totalElements := mesh.length
  let totalNodes := (lines.map List.length).sum
  if same then some (⟨s.nodes, s.elements, true, lines.flatten, []⟩, s)
  else some (⟨totalNodes, totalElements, false, lines.flatten,
    connectivity dimensions.length totalElements 1⟩, ⟨totalNodes, totalElements⟩)

/-! ## The text -/

/-- Writing over the characters from `pos` on (`seekp`, `<<`). -/
def overwrite (pos : Nat) (s text : List Char) : List Char :=
  text.take pos ++ s ++ text.drop (pos + s.length)

/-- TecplotDiscontinuousSolutionWriter_Impl.h:176-183, 266-272: what follows `N = ` in the header. -/
def countsText (nodes elements : Nat) : List Char :=
  let text := List.replicate 10 ' ' ++ [',', ' ', 'E', ' ', '=', ' '] ++ List.replicate 10 ' ' ++ ['\n']
  overwrite 16 (Nat.toDigits 10 elements) (overwrite 0 (Nat.toDigits 10 nodes) text)

/-- TecplotDiscontinuousSolutionWriter_Impl.h:276-292: the loop over the commas. -/
def replaceCommas : List Char → List Char
  | [] => []
  | c :: cs => if c = ',' then ['"', ',', ' ', '"'] ++ replaceCommas cs else c :: replaceCommas cs

/-- TecplotDiscontinuousSolutionWriter_Impl.h:276-294 `makeTecplotVariableString`. -/
def variableString (s : List Char) : List Char := '"' :: replaceCommas s ++ ['"']

end Verif.Tecplot
