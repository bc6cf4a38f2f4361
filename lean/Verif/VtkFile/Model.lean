import Verif.Base64.Model
import Verif.Lattice.Model

/-!
# Model of the VTK output files

kernel/Output/VTKSpecificTimeWriter_Impl.h, VTKTimeDependentWriter_Impl.h, VTKStandardElements.{h,cpp}.
`double` is `ℝ` in the arrays of the mesh and of the data, and a group of bytes where arrays are
encoded. A coordinate or a component is a function of its index, of which only the indices below
`DIM` are used. `std::uint32_t` is a `Nat` cut at `2 ^ 32` where a value is stored. The stream is
replaced by the values written to it; the XML text around the arrays, opening files and the ranks of
MPI (each of which writes its own piece) are left out. `List.set` leaves a list alone when the index
is out of range, where the code would write outside of its array; the theorems that give the written
arrays show this not to happen.
-/
namespace Verif.VtkFile
open RefGeometry (Pt)

/-- Storing in a `std::uint32_t`. -/
def wrap32 (n : Nat) : Nat := n % 2 ^ 32

/-- VTKElement.h:59-75: the number of the cell type and the points. -/
structure VtkElement (P : Type) where
  id : Nat
  points : List P

/-! ## The mesh -/

/-- VTKSpecificTimeWriter_Impl.h:334-343: numbers of points and of elements; `assert_always` when a
geometry has no VTK element. -/
def countPoints {E P : Type} (find : E → Option (VtkElement P)) :
    List E → Nat × Nat → Option (Nat × Nat)
  | [], n => some n
  | e :: es, (points, elements) => do
    let v ← find e
    countPoints find es (points + v.points.length, elements + 1)

/-- VTKSpecificTimeWriter_Impl.h:386-389: the coordinates of one point. -/
def copyCoordinate (d : Nat) (coordinate : Nat → ℝ) (point : Nat) (coords : List ℝ) : List ℝ :=
  (List.range (min d 3)).foldl (fun a j => a.set (3 * point + j) (coordinate j)) coords

/-- VTKSpecificTimeWriter_Impl.h:375-391: the loop over the points of an element; gives the final
`localPointCount` and the two arrays. -/
def pointLoop {P : Type} (d : Nat) (phys : P → Nat → ℝ) (pointCount : Nat) :
    List P → Nat → List Nat → List ℝ → Nat × List Nat × List ℝ
  | [], localCount, conn, coords => (localCount, conn, coords)
  | p :: ps, localCount, conn, coords =>
    pointLoop d phys pointCount ps (localCount + 1)
      (conn.set (pointCount + localCount) (wrap32 (pointCount + localCount)))
      (copyCoordinate d (phys p) (pointCount + localCount) coords)

/-- The variables of VTKSpecificTimeWriter_Impl.h:356-366. -/
structure Arrays where
  pointCount : Nat
  elementId : Nat
  coords : List ℝ
  types : List Nat
  conn : List Nat
  offsets : List Nat

/-- VTKSpecificTimeWriter_Impl.h:368-396: the second pass. -/
def elementLoop {E P : Type} (d : Nat) (find : E → Option (VtkElement P)) (phys : E → P → Nat → ℝ) :
    List E → Arrays → Option Arrays
  | [], s => some s
  | e :: es, s => do
    let v ← find e
    let (localCount, conn, coords) := pointLoop d (phys e) s.pointCount v.points 0 s.conn s.coords
    let pointCount := wrap32 (s.pointCount + localCount)
    elementLoop d find phys es
      { pointCount, elementId := s.elementId + 1, coords, conn,
        types := s.types.set s.elementId v.id,
        offsets := s.offsets.set s.elementId pointCount }

/-- What VTKSpecificTimeWriter_Impl.h:403-427 writes: the attributes of the piece and the arrays
`Points` (three components), `connectivity`, `offsets` and `types`. -/
structure Grid where
  numberOfPoints : Nat
  numberOfCells : Nat
  coords : List ℝ
  conn : List Nat
  offsets : List Nat
  types : List Nat

/-- VTKSpecificTimeWriter_Impl.h:334-427 of `writeLocalFileHeader`. -/
def writeGrid {E P : Type} (d : Nat) (find : E → Option (VtkElement P)) (phys : E → P → Nat → ℝ)
    (mesh : List E) : Option Grid := do
  let (points, cells) ← countPoints find mesh (0, 0)
  let s ← elementLoop d find phys mesh
    { pointCount := 0, elementId := 0, coords := List.replicate (points * 3) 0,
      types := List.replicate cells 0, conn := List.replicate points 0,
      offsets := List.replicate cells 0 }
  some { numberOfPoints := points, numberOfCells := cells, coords := s.coords, conn := s.conn,
         offsets := s.offsets, types := s.types }

/-! ## Data at the points -/

/-- VTKSpecificTimeWriter_Impl.h:446-458 `writePaddedVector`. The padding is written at the start of
the array, as in the code. -/
def writePaddedVector (d : Nat) (v : Nat → ℝ) (offset : Nat) (out : List ℝ) : List ℝ :=
  let out := (List.range (min d 3)).foldl (fun a i => a.set (3 * offset + i) (v i)) out
  (List.range' (min d 3) (3 - min d 3)).foldl (fun a i => a.set i 0) out

/-- VTKSpecificTimeWriter_Impl.h:470-479: the entry of a padded tensor. -/
def paddedEntry (d : Nat) (m : Nat → Nat → ℝ) (i j : Nat) : ℝ :=
  if i < d ∧ j < d then m i j else if i = j then 1 else 0

/-- VTKSpecificTimeWriter_Impl.h:461-481 `writePaddedTensor`. -/
def writePaddedTensor (d : Nat) (m : Nat → Nat → ℝ) (offset : Nat) (out : List ℝ) : List ℝ :=
  (List.range 3).foldl (fun a i =>
    (List.range 3).foldl (fun a j => a.set (9 * offset + 3 * i + j) (paddedEntry d m i j)) a) out

/-- The `std::map`s given to `writeMultiple`, as lists of names and functions. -/
structure Fields (T : Type) where
  scalars : List (String × (T → ℝ))
  vectors : List (String × (T → Nat → ℝ))
  tensors : List (String × (T → Nat → Nat → ℝ))

/-- The `std::map<std::string, std::vector<double>>` of `writeMultiple`; `operator[]` gives an empty
vector for a new name. -/
abbrev Data := String → List ℝ

/-- `std::vector::resize` -/
def resize (n : Nat) (l : List ℝ) : List ℝ := l.take n ++ List.replicate (n - l.length) 0

/-- Applying a change to the entries of a list of names. -/
def forNames {F : Type} (entries : List (String × F)) (change : F → List ℝ → List ℝ) (data : Data) :
    Data :=
  entries.foldl (fun data e => Function.update data e.1 (change e.2 (data e.1))) data

/-- VTKSpecificTimeWriter_Impl.h:181-190: the arrays before the loop. -/
def emptyData {T : Type} (fields : Fields T) (points : Nat) : Data :=
  forNames fields.tensors (fun _ => resize (9 * points))
    (forNames fields.vectors (fun _ => resize (3 * points))
      (forNames fields.scalars (fun _ => resize points) fun _ => []))

/-- VTKSpecificTimeWriter_Impl.h:202-216: the values at one point. -/
def writePoint {T : Type} (d : Nat) (fields : Fields T) (localData : T) (pointId : Nat)
    (data : Data) : Data :=
  forNames fields.tensors (fun f => writePaddedTensor d (f localData) pointId)
    (forNames fields.vectors (fun f => writePaddedVector d (f localData) pointId)
      (forNames fields.scalars (fun f out => out.set pointId (f localData)) data))

/-- VTKSpecificTimeWriter_Impl.h:200-217: the points of one element. -/
def dataPoints {P T : Type} (d : Nat) (fields : Fields T) (extract : P → T) :
    List P → Nat × Data → Nat × Data
  | [], s => s
  | p :: ps, (pointId, data) =>
    dataPoints d fields extract ps (pointId + 1, writePoint d fields (extract p) pointId data)

/-- VTKSpecificTimeWriter_Impl.h:192-218: the loop over the elements. -/
def dataLoop {E P T : Type} (d : Nat) (find : E → Option (VtkElement P)) (fields : Fields T)
    (extract : E → P → T) : List E → Nat × Data → Option (Nat × Data)
  | [], s => some s
  | e :: es, s => do
    let v ← find e
    dataLoop d find fields extract es (dataPoints d fields (extract e) v.points s)

/-- A `DataArray` of the point data: its name, the attribute `NumberOfComponents` (1 when absent) and
the values. -/
structure Block where
  name : String
  components : Nat
  values : List ℝ

/-- VTKSpecificTimeWriter_Impl.h:146-242 `writeMultiple`, with the `totalPoints_` of the header. -/
def writeMultiple {E P T : Type} (d : Nat) (find : E → Option (VtkElement P)) (mesh : List E)
    (points : Nat) (extract : E → P → T) (fields : Fields T) : Option (List Block) := do
  let (_, data) ← dataLoop d find fields extract mesh (0, emptyData fields points)
  some (fields.scalars.map (fun e => ⟨e.1, 1, data e.1⟩) ++
    fields.vectors.map (fun e => ⟨e.1, 3, data e.1⟩) ++
    fields.tensors.map (fun e => ⟨e.1, 3, data e.1⟩))

/-! ## Encoding an array -/

/-- The bytes of a `std::uint32_t` in memory, least significant first. -/
def bytes32 (n : Nat) : List UInt8 :=
  [UInt8.ofNat n, UInt8.ofNat (n / 256), UInt8.ofNat (n / 65536), UInt8.ofNat (n / 16777216)]

/-- VTKSpecificTimeWriter_Impl.h:434-443 `writeBinaryDataArrayData` on a machine of the given byte
order, for the values of an array given by their bytes (`sizeof(T)` each). -/
def writeBinary (bigEndian : Bool) (data : List (List UInt8)) : List Char :=
  let bytes := data.flatten
  let size := wrap32 bytes.length
  let header := if bigEndian then (bytes32 size).reverse else bytes32 size
  Base64.toBase64 header ++ Base64.toBase64 (bytes.take size)

/-! ## The files of a time dependent problem -/

/-- A call of VTKTimeDependentWriter::write; `payload` is the function and the name. -/
structure Write (τ D : Type) where
  payload : D
  time : τ
  level : Nat

/-- A file opened by the writer: its base name, the time in the `.pvd` file, the time level and what
has been written in it. -/
structure TimeFile (τ D : Type) where
  name : String
  time : τ
  level : Nat
  contents : List D

/-- VTKTimeDependentWriter_Impl.h:100-131 `write`. The files are kept latest first; the first is
`currentFile_` with `time_` and `timelevel_`, and their number is `numberOfFilesWritten_`. The
`assert_debug` on the time level gives `none`. -/
def timeWrite {τ D : Type} [DecidableEq τ] (baseName : String) :
    List (TimeFile τ D) → Write τ D → Option (List (TimeFile τ D))
  | [], w => some [⟨baseName ++ toString 0, w.time, w.level, [w.payload]⟩]
  | f :: fs, w =>
    if w.time ≠ f.time then
      some (⟨baseName ++ toString (f :: fs).length, w.time, w.level, [w.payload]⟩ :: f :: fs)
    else if w.level = f.level then some ({ f with contents := f.contents ++ [w.payload] } :: fs)
    else none

/-- A history of calls. -/
def timeWrites {τ D : Type} [DecidableEq τ] (baseName : String) (ws : List (Write τ D)) :
    Option (List (TimeFile τ D)) :=
  ws.foldlM (timeWrite baseName) []

/-- VTKTimeDependentWriter_Impl.h:117-119: the name without the directory
(`fileName.substr(fileName.find_last_of('/') + 1)`). -/
def stripDirectory (name : List Char) : List Char :=
  if '/' ∈ name then (name.reverse.takeWhile (· ≠ '/')).reverse else name

/-! ## The cells for the reference shapes -/

/-- `Geometry::ReferenceGeometryType` -/
inductive Geometry where
  | point | line | triangle | square | tetrahedron | pyramid | cube | prism | hypercube
  deriving DecidableEq

/-- VTKSpecificTimeWriter_Impl.h:495-504, VTKStandardElements.cpp:46-48, .h:62,
VTKLagrangeCurve.h:50 -/
noncomputable def mapping1 (order : Nat) : Geometry → Option (VtkElement (Pt 1))
  | .line => if order = 1 then some ⟨3, [![-1], ![1]]⟩ else (Lattice.vtkCurve order).map (⟨68, ·⟩)
  | _ => none

/-- VTKSpecificTimeWriter_Impl.h:506-519, VTKStandardElements.cpp:50-61, .h:74-86,
VTKLagrangeTriangle.h:51, VTKLagrangeQuadrilateral.h:48 -/
noncomputable def mapping2 (order : Nat) : Geometry → Option (VtkElement (Pt 2))
  | .triangle =>
    if order = 1 then some ⟨5, [![0, 0], ![1, 0], ![0, 1]]⟩
    else (Lattice.vtkTriangle order).map (⟨69, ·⟩)
  | .square =>
    if order = 1 then some ⟨9, [![-1, -1], ![1, -1], ![1, 1], ![-1, 1]]⟩
    else (Lattice.vtkQuadrilateral order).map (⟨70, ·⟩)
  | _ => none

/-- VTKSpecificTimeWriter_Impl.h:521-540, VTKStandardElements.cpp:63-98, .h:98-134,
VTKLagrangeTetrahedron.h:48, VTKLagrangeHexahedron.h:49 -/
noncomputable def mapping3 (order : Nat) : Geometry → Option (VtkElement (Pt 3))
  | .tetrahedron =>
    if order = 1 then some ⟨10, [![0, 0, 0], ![1, 0, 0], ![0, 1, 0], ![0, 0, 1]]⟩
    else (Lattice.vtkTetrahedron order).map (⟨71, ·⟩)
  | .cube =>
    if order = 1 then
      some ⟨12, [![-1, -1, -1], ![1, -1, -1], ![1, 1, -1], ![-1, 1, -1],
        ![-1, -1, 1], ![1, -1, 1], ![1, 1, 1], ![-1, 1, 1]]⟩
    else (Lattice.vtkHexahedron order).map (⟨72, ·⟩)
  | .prism =>
    if order = 1 then
      some ⟨13, [![0, 0, -1], ![1, 0, -1], ![0, 1, -1], ![0, 0, 1], ![1, 0, 1], ![0, 1, 1]]⟩
    else none
  | .pyramid =>
    if order = 1 then
      some ⟨14, [![-1, -1, 0], ![1, -1, 0], ![1, 1, 0], ![-1, 1, 0], ![0, 0, 1]]⟩
    else none
  | _ => none

end Verif.VtkFile
