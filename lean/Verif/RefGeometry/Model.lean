import Mathlib.Data.Real.Basic
import Mathlib.Data.Fin.VecNotation
import Mathlib.LinearAlgebra.Matrix.Notation

/-!
# Model of the reference shapes and the maps between them

kernel/Geometry/Reference*.cpp, kernel/Geometry/Mappings/MappingToRef*.cpp,
kernel/LinearAlgebra/SmallMatrix_impl.h. `double` is `ℝ`. A reference point of dimension `d` is a
function `Fin d → ℝ`. Singletons and pointers are replaced by plain values.
-/
namespace Verif.RefGeometry

/-- PointReference.h: a point of the reference space of dimension `d`. -/
abbrev Pt (d : Nat) := Fin d → ℝ

/-- MappingReferenceToReference.h:55-103: `transform` and `calcJacobian`. The Jacobian is the
`Jacobian<m, n>`, a matrix of `n` rows and `m` columns (Jacobian.h:50-60). -/
structure RefMap (m n : Nat) where
  transform : Pt m → Pt n
  jacobian : Pt m → Matrix (Fin n) (Fin m) ℝ

/-- MappingReferenceToReference.h:110-123 `BoundaryFaceMapping`. -/
structure FaceMap (d : Nat) extends RefMap d (d + 1) where
  sign : ℝ

/-- ReferenceGeometry.h: the nodes and `isInternalPoint`. -/
structure Geom (d : Nat) where
  nodes : List (Pt d)
  isInternal : Pt d → Prop

/-- What a shape stores per face: `getCodim1ReferenceGeometry(i)`, `getCodim1EntityLocalIndices(i)`
and `getCodim1MappingPtr(i)`. -/
structure Face (d : Nat) where
  geom : Geom d
  nodeIdx : List Nat
  map : FaceMap d

/-! ### Shapes -/

/-- ReferencePoint.cpp:45-62 -/
def pointG : Geom 0 where
  nodes := [![]]
  isInternal := fun _ => True

/-- ReferenceLine.cpp:54-73 -/
def lineG : Geom 1 where
  nodes := [![-1], ![1]]
  isInternal := fun p => p 0 ≥ -1 ∧ p 0 ≤ 1

/-- ReferenceTriangle.cpp:59-93, ReferenceSimplex_Impl.h:20-40 (nodes: origin and unit vectors) -/
def triangleG : Geom 2 where
  nodes := [![0, 0], ![1, 0], ![0, 1]]
  isInternal := fun p => p 0 ≥ 0 ∧ p 0 ≤ 1 ∧ p 1 ≥ 0 ∧ p 1 ≤ 1 - p 0

/-- ReferenceSquare.cpp:103-114 -/
def squareG : Geom 2 where
  nodes := [![-1, -1], ![1, -1], ![-1, 1], ![1, 1]]
  isInternal := fun p => p 0 ≥ -1 ∧ p 0 ≤ 1 ∧ p 1 ≥ -1 ∧ p 1 ≤ 1

/-- ReferenceTetrahedron.cpp:56-91 -/
def tetrahedronG : Geom 3 where
  nodes := [![0, 0, 0], ![1, 0, 0], ![0, 1, 0], ![0, 0, 1]]
  isInternal := fun p => p 0 ≥ 0 ∧ p 0 ≤ 1 ∧ p 1 ≥ 0 ∧ p 1 ≤ 1 - p 0 ∧ p 2 ≥ 0 ∧
    p 2 ≤ 1 - p 0 - p 1

/-- ReferencePyramid.cpp:67-86 -/
def pyramidG : Geom 3 where
  nodes := [![0, 0, 1], ![-1, -1, 0], ![1, -1, 0], ![-1, 1, 0], ![1, 1, 0]]
  isInternal := fun p => 0 ≤ p 2 ∧ 1 ≥ p 2 ∧ |p 0| ≤ 1 - p 2 ∧ |p 1| ≤ 1 - p 2

/-- ReferenceTriangularPrism.cpp:61-88 -/
def prismG : Geom 3 where
  nodes := [![0, 0, -1], ![1, 0, -1], ![0, 1, -1], ![0, 0, 1], ![1, 0, 1], ![0, 1, 1]]
  isInternal := fun p => -1 ≤ p 2 ∧ 1 ≥ p 2 ∧ p 0 ≥ 0 ∧ p 0 ≤ 1 ∧ p 1 ≥ 0 ∧ p 1 ≤ 1 - p 0

/-- ReferenceCube.cpp:66-98 -/
def cubeG : Geom 3 where
  nodes := [![-1, -1, -1], ![1, -1, -1], ![-1, 1, -1], ![1, 1, -1],
            ![-1, -1, 1], ![1, -1, 1], ![-1, 1, 1], ![1, 1, 1]]
  isInternal := fun p => p 0 ≥ -1 ∧ p 0 ≤ 1 ∧ p 1 ≥ -1 ∧ p 1 ≤ 1 ∧ p 2 ≥ -1 ∧ p 2 ≤ 1

/-- ReferenceHypercube.cpp:64-97 -/
def hypercubeG : Geom 4 where
  nodes := [![-1, -1, -1, -1], ![1, -1, -1, -1], ![-1, 1, -1, -1], ![1, 1, -1, -1],
            ![-1, -1, 1, -1], ![1, -1, 1, -1], ![-1, 1, 1, -1], ![1, 1, 1, -1],
            ![-1, -1, -1, 1], ![1, -1, -1, 1], ![-1, 1, -1, 1], ![1, 1, -1, 1],
            ![-1, -1, 1, 1], ![1, -1, 1, 1], ![-1, 1, 1, 1], ![1, 1, 1, 1]]
  isInternal := fun p => p 0 ≥ -1 ∧ p 0 ≤ 1 ∧ p 1 ≥ -1 ∧ p 1 ≤ 1 ∧ p 2 ≥ -1 ∧ p 2 ≤ 1 ∧
    p 3 ≥ -1 ∧ p 3 ≤ 1

/-! ### Faces (codimension 1) -/

/-- ReferenceLine.cpp:54 (node table), MappingToRefPointToLine.cpp:67-110. The Jacobian has no
columns. -/
noncomputable def lineFaces : List (Face 0) :=
  [{ geom := pointG, nodeIdx := [0],
     map := { transform := fun _ => ![-1], jacobian := fun _ => Matrix.of fun _ j => j.elim0, sign := -1 } },
   { geom := pointG, nodeIdx := [1],
     map := { transform := fun _ => ![1], jacobian := fun _ => Matrix.of fun _ j => j.elim0, sign := 1 } }]

/-- ReferenceTriangle.cpp:59-60, MappingToRefLineToTriangle.cpp:56-135 -/
noncomputable def triangleFaces : List (Face 1) :=
  [{ geom := lineG, nodeIdx := [0, 1],
     map := { transform := fun p => ![0.5 * (1 + p 0), 0],
              jacobian := fun _ => !![0.5; 0], sign := -1 } },
   { geom := lineG, nodeIdx := [0, 2],
     map := { transform := fun p => ![0, 0.5 * (1 + p 0)],
              jacobian := fun _ => !![0; 0.5], sign := 1 } },
   { geom := lineG, nodeIdx := [1, 2],
     map := { transform := fun p => ![0.5 * (1 - p 0), 0.5 * (1 + p 0)],
              jacobian := fun _ => !![-0.5; 0.5], sign := -1 } }]

/-- ReferenceSquare.cpp:60-61, MappingToRefLineToSquare.cpp:56-165 -/
noncomputable def squareFaces : List (Face 1) :=
  [{ geom := lineG, nodeIdx := [0, 1],
     map := { transform := fun p => ![p 0, -1], jacobian := fun _ => !![1; 0], sign := -1 } },
   { geom := lineG, nodeIdx := [0, 2],
     map := { transform := fun p => ![-1, p 0], jacobian := fun _ => !![0; 1], sign := 1 } },
   { geom := lineG, nodeIdx := [1, 3],
     map := { transform := fun p => ![1, p 0], jacobian := fun _ => !![0; 1], sign := -1 } },
   { geom := lineG, nodeIdx := [2, 3],
     map := { transform := fun p => ![p 0, 1], jacobian := fun _ => !![1; 0], sign := 1 } }]

/-- ReferenceTetrahedron.cpp:56-57, MappingToRefTriangleToTetrahedron.cpp:55-180 -/
noncomputable def tetrahedronFaces : List (Face 2) :=
  [{ geom := triangleG, nodeIdx := [0, 3, 2],
     map := { transform := fun p => ![0, p 1, p 0],
              jacobian := fun _ => !![0, 0; 0, 1; 1, 0], sign := 1 } },
   { geom := triangleG, nodeIdx := [0, 1, 3],
     map := { transform := fun p => ![p 0, 0, p 1],
              jacobian := fun _ => !![1, 0; 0, 0; 0, 1], sign := 1 } },
   { geom := triangleG, nodeIdx := [0, 2, 1],
     map := { transform := fun p => ![p 1, p 0, 0],
              jacobian := fun _ => !![0, 1; 1, 0; 0, 0], sign := 1 } },
   { geom := triangleG, nodeIdx := [1, 2, 3],
     map := { transform := fun p => ![1 - p 0 - p 1, p 0, p 1],
              jacobian := fun _ => !![-1, -1; 1, 0; 0, 1], sign := 1 } }]

/-- ReferencePyramid.cpp:53-55, 132-140, MappingToRefFaceToPyramid.cpp:54-209 -/
noncomputable def pyramidFaces : List (Face 2) :=
  [{ geom := squareG, nodeIdx := [3, 4, 1, 2],
     map := { transform := fun p => ![p 0, -p 1, 0],
              jacobian := fun _ => !![1, 0; 0, -1; 0, 0], sign := 1 } },
   { geom := triangleG, nodeIdx := [3, 1, 0],
     map := { transform := fun p => ![-1 + p 1, 1 - 2 * p 0 - p 1, p 1],
              jacobian := fun _ => !![0, 1; -2, -1; 0, 1], sign := 1 } },
   { geom := triangleG, nodeIdx := [2, 4, 0],
     map := { transform := fun p => ![1 - p 1, -1 + 2 * p 0 + p 1, p 1],
              jacobian := fun _ => !![0, -1; 2, 1; 0, 1], sign := 1 } },
   { geom := triangleG, nodeIdx := [1, 2, 0],
     map := { transform := fun p => ![-1 + 2 * p 0 + p 1, -1 + p 1, p 1],
              jacobian := fun _ => !![2, 1; 0, 1; 0, 1], sign := 1 } },
   { geom := triangleG, nodeIdx := [4, 3, 0],
     map := { transform := fun p => ![1 - 2 * p 0 - p 1, 1 - p 1, p 1],
              jacobian := fun _ => !![-2, -1; 0, -1; 0, 1], sign := 1 } }]

/-- ReferenceTriangularPrism.cpp:49-50, 127-158, MappingToRefFaceToTriangularPrism.cpp:55-214 -/
noncomputable def prismFaces : List (Face 2) :=
  [{ geom := triangleG, nodeIdx := [0, 2, 1],
     map := { transform := fun p => ![p 1, p 0, -1],
              jacobian := fun _ => !![0, 1; 1, 0; 0, 0], sign := 1 } },
   { geom := triangleG, nodeIdx := [3, 4, 5],
     map := { transform := fun p => ![p 0, p 1, 1],
              jacobian := fun _ => !![1, 0; 0, 1; 0, 0], sign := 1 } },
   { geom := squareG, nodeIdx := [2, 0, 5, 3],
     map := { transform := fun p => ![0, 0.5 * (1 - p 0), p 1],
              jacobian := fun _ => !![0, 0; -0.5, 0; 0, 1], sign := 1 } },
   { geom := squareG, nodeIdx := [0, 1, 3, 4],
     map := { transform := fun p => ![0.5 * (1 + p 0), 0, p 1],
              jacobian := fun _ => !![0.5, 0; 0, 0; 0, 1], sign := 1 } },
   { geom := squareG, nodeIdx := [1, 2, 4, 5],
     map := { transform := fun p => ![0.5 * (1 - p 0), 0.5 * (1 + p 0), p 1],
              jacobian := fun _ => !![-0.5, 0; 0.5, 0; 0, 1], sign := 1 } }]

/-- ReferenceCube.cpp:52-54, MappingToRefSquareToCube.cpp:54-243 -/
noncomputable def cubeFaces : List (Face 2) :=
  [{ geom := squareG, nodeIdx := [0, 1, 2, 3],
     map := { transform := fun p => ![p 0, p 1, -1],
              jacobian := fun _ => !![1, 0; 0, 1; 0, 0], sign := -1 } },
   { geom := squareG, nodeIdx := [0, 1, 4, 5],
     map := { transform := fun p => ![p 0, -1, p 1],
              jacobian := fun _ => !![1, 0; 0, 0; 0, 1], sign := 1 } },
   { geom := squareG, nodeIdx := [0, 2, 4, 6],
     map := { transform := fun p => ![-1, p 0, p 1],
              jacobian := fun _ => !![0, 0; 1, 0; 0, 1], sign := -1 } },
   { geom := squareG, nodeIdx := [1, 3, 5, 7],
     map := { transform := fun p => ![1, p 0, p 1],
              jacobian := fun _ => !![0, 0; 1, 0; 0, 1], sign := 1 } },
   { geom := squareG, nodeIdx := [2, 3, 6, 7],
     map := { transform := fun p => ![p 0, 1, p 1],
              jacobian := fun _ => !![1, 0; 0, 0; 0, 1], sign := -1 } },
   { geom := squareG, nodeIdx := [4, 5, 6, 7],
     map := { transform := fun p => ![p 0, p 1, 1],
              jacobian := fun _ => !![1, 0; 0, 1; 0, 0], sign := 1 } }]

/-- ReferenceHypercube.cpp:48-53, MappingToRefCubeToHypercube.cpp:56-370 -/
noncomputable def hypercubeFaces : List (Face 3) :=
  [{ geom := cubeG, nodeIdx := [0, 1, 2, 3, 4, 5, 6, 7],
     map := { transform := fun p => ![p 0, p 1, p 2, -1],
              jacobian := fun _ => !![1, 0, 0; 0, 1, 0; 0, 0, 1; 0, 0, 0], sign := -1 } },
   { geom := cubeG, nodeIdx := [0, 1, 2, 3, 8, 9, 10, 11],
     map := { transform := fun p => ![p 0, p 1, -1, p 2],
              jacobian := fun _ => !![1, 0, 0; 0, 1, 0; 0, 0, 0; 0, 0, 1], sign := 1 } },
   { geom := cubeG, nodeIdx := [0, 1, 4, 5, 8, 9, 12, 13],
     map := { transform := fun p => ![p 0, -1, p 1, p 2],
              jacobian := fun _ => !![1, 0, 0; 0, 0, 0; 0, 1, 0; 0, 0, 1], sign := -1 } },
   { geom := cubeG, nodeIdx := [0, 2, 4, 6, 8, 10, 12, 14],
     map := { transform := fun p => ![-1, p 0, p 1, p 2],
              jacobian := fun _ => !![0, 0, 0; 1, 0, 0; 0, 1, 0; 0, 0, 1], sign := 1 } },
   { geom := cubeG, nodeIdx := [1, 3, 5, 7, 9, 11, 13, 15],
     map := { transform := fun p => ![1, p 0, p 1, p 2],
              jacobian := fun _ => !![0, 0, 0; 1, 0, 0; 0, 1, 0; 0, 0, 1], sign := -1 } },
   { geom := cubeG, nodeIdx := [2, 3, 6, 7, 10, 11, 14, 15],
     map := { transform := fun p => ![p 0, 1, p 1, p 2],
              jacobian := fun _ => !![1, 0, 0; 0, 0, 0; 0, 1, 0; 0, 0, 1], sign := 1 } },
   { geom := cubeG, nodeIdx := [4, 5, 6, 7, 12, 13, 14, 15],
     map := { transform := fun p => ![p 0, p 1, 1, p 2],
              jacobian := fun _ => !![1, 0, 0; 0, 1, 0; 0, 0, 0; 0, 0, 1], sign := -1 } },
   { geom := cubeG, nodeIdx := [8, 9, 10, 11, 12, 13, 14, 15],
     map := { transform := fun p => ![p 0, p 1, p 2, 1],
              jacobian := fun _ => !![1, 0, 0; 0, 1, 0; 0, 0, 1; 0, 0, 0], sign := 1 } }]

/-- A shape of dimension `d + 1` with its faces. -/
structure Shape (d : Nat) where
  geom : Geom (d + 1)
  faces : List (Face d)

/-- The shapes of Geometry/ReferenceGeometryFactory (kernel/Geometry/ReferenceGeometry.h:55-72),
by the dimension of their faces. Curvilinear elements delegate to these. -/
noncomputable def shapes : (d : Nat) → List (Shape d)
  | 0 => [⟨lineG, lineFaces⟩]
  | 1 => [⟨triangleG, triangleFaces⟩, ⟨squareG, squareFaces⟩]
  | 2 => [⟨tetrahedronG, tetrahedronFaces⟩, ⟨pyramidG, pyramidFaces⟩, ⟨prismG, prismFaces⟩,
          ⟨cubeG, cubeFaces⟩]
  | 3 => [⟨hypercubeG, hypercubeFaces⟩]
  | _ => []

/-! ### Edges of the tetrahedron (codimension 2) -/

/-- ReferenceTetrahedron.cpp:59-60 -/
def tetrahedronEdges : List (List Nat) := [[0, 1], [0, 2], [0, 3], [2, 3], [1, 3], [1, 2]]

/-- MappingRefLineToTetrahedron.cpp:43-68, for the edge between two given nodes. -/
noncomputable def lineToTetrahedron (node1 node2 : Pt 3) : RefMap 1 3 where
  transform := fun p i => (node1 i + node2 i) / 2 + (node2 i - node1 i) / 2 * p 0
  jacobian := fun _ i _ => (node2 i - node1 i) / 2

/-! ### Symmetries of a face (codimension 0) -/

/-- MappingToRefLineToLine.cpp:67-108 -/
noncomputable def lineToLine : List (RefMap 1 1) :=
  [{ transform := fun p => ![p 0], jacobian := fun _ => !![1] },
   { transform := fun p => ![-p 0], jacobian := fun _ => !![-1] }]

/-- MappingToRefTriangleToTriangle.cpp:57-235 -/
noncomputable def triangleToTriangle : List (RefMap 2 2) :=
  [{ transform := fun p => ![p 0, p 1], jacobian := fun _ => !![1, 0; 0, 1] },
   { transform := fun p => ![p 1, p 0], jacobian := fun _ => !![0, 1; 1, 0] },
   { transform := fun p => ![1 - p 0 - p 1, p 0], jacobian := fun _ => !![-1, -1; 1, 0] },
   { transform := fun p => ![1 - p 0 - p 1, p 1], jacobian := fun _ => !![-1, -1; 0, 1] },
   { transform := fun p => ![p 0, 1 - p 0 - p 1], jacobian := fun _ => !![1, 0; -1, -1] },
   { transform := fun p => ![p 1, 1 - p 0 - p 1], jacobian := fun _ => !![0, 1; -1, -1] }]

/-- MappingToRefSquareToSquare.cpp:56-289 -/
noncomputable def squareToSquare : List (RefMap 2 2) :=
  [{ transform := fun p => ![p 0, p 1], jacobian := fun _ => !![1, 0; 0, 1] },
   { transform := fun p => ![-p 1, p 0], jacobian := fun _ => !![0, -1; 1, 0] },
   { transform := fun p => ![-p 0, -p 1], jacobian := fun _ => !![-1, 0; 0, -1] },
   { transform := fun p => ![p 1, -p 0], jacobian := fun _ => !![0, 1; -1, 0] },
   { transform := fun p => ![p 0, -p 1], jacobian := fun _ => !![1, 0; 0, -1] },
   { transform := fun p => ![-p 0, p 1], jacobian := fun _ => !![-1, 0; 0, 1] },
   { transform := fun p => ![-p 1, -p 0], jacobian := fun _ => !![0, -1; -1, 0] },
   { transform := fun p => ![p 1, p 0], jacobian := fun _ => !![0, 1; 1, 0] }]

/-- MappingToRefCubeToCube.cpp:54-315 -/
noncomputable def cubeToCube : List (RefMap 3 3) :=
  [{ transform := fun p => ![p 0, p 1, p 2],
     jacobian := fun _ => !![1, 0, 0; 0, 1, 0; 0, 0, 1] },
   { transform := fun p => ![p 0, -p 2, p 1],
     jacobian := fun _ => !![1, 0, 0; 0, 0, -1; 0, 1, 0] },
   { transform := fun p => ![p 0, -p 1, -p 2],
     jacobian := fun _ => !![1, 0, 0; 0, -1, 0; 0, 0, -1] },
   { transform := fun p => ![p 0, p 2, -p 1],
     jacobian := fun _ => !![1, 0, 0; 0, 0, 1; 0, -1, 0] },
   { transform := fun p => ![p 0, p 1, -p 2],
     jacobian := fun _ => !![1, 0, 0; 0, 1, 0; 0, 0, -1] },
   { transform := fun p => ![p 0, -p 1, p 2],
     jacobian := fun _ => !![1, 0, 0; 0, -1, 0; 0, 0, 1] },
   { transform := fun p => ![p 0, -p 2, -p 1],
     jacobian := fun _ => !![1, 0, 0; 0, 0, -1; 0, -1, 0] },
   { transform := fun p => ![p 0, p 2, p 1],
     jacobian := fun _ => !![1, 0, 0; 0, 0, 1; 0, 1, 0] }]

/-- ReferenceLine.cpp:89-101 `getCodim0MappingIndex`. The node lists are functions of the position;
lists of any other length end in a fatal error and are not represented. -/
def lineIndex (l1 l2 : Fin 2 → Nat) : Nat := if l1 0 = l2 0 then 0 else 1

/-- ReferenceTriangle.cpp:97-121 `getCodim0MappingIndex`. -/
def triangleIndex (l1 l2 : Fin 3 → Nat) : Nat :=
  if l1 0 = l2 0 then (if l1 1 = l2 1 then 0 else 1)
  else if l1 0 = l2 1 then (if l1 1 = l2 2 then 2 else 3)
  else (if l1 1 = l2 1 then 4 else 5)

/-- ReferenceSquare.cpp:131-173 `getCodim0MappingIndex`; `none` is the fatal error. -/
def squareIndex (l1 l2 : Fin 4 → Nat) : Option Nat :=
  if l1 0 = l2 0 then
    if l1 1 = l2 1 then some 0 else if l1 3 = l2 3 then some 7 else none
  else if l1 0 = l2 1 then
    if l1 1 = l2 0 then some 5 else if l1 1 = l2 3 then some 3 else none
  else if l1 0 = l2 2 then
    if l1 2 = l2 0 then some 4 else if l1 2 = l2 3 then some 1 else none
  else
    if l1 1 = l2 1 then some 6 else if l1 1 = l2 2 then some 2 else none

/-- ReferenceCube.cpp:116-146 `getCodim0MappingIndex`; `none` is the fatal error. -/
def cubeIndex (l1 l2 : Fin 8 → Nat) : Option Nat :=
  if l1 0 = l2 0 ∧ l1 4 = l2 4 then (if l1 1 = l2 1 then some 0 else some 7)
  else if l1 0 = l2 1 ∧ l1 4 = l2 5 then (if l1 1 = l2 0 then some 5 else some 3)
  else if l1 0 = l2 2 ∧ l1 4 = l2 6 then (if l1 2 = l2 0 then some 4 else some 1)
  else if l1 0 = l2 3 ∧ l1 4 = l2 7 then (if l1 1 = l2 1 then some 6 else some 2)
  else none

/-! ### Composition -/

/-- ConcatenatedMapping.cpp:50-110: `map2 ∘ map1` with `J2(map1 p) · J1(p)`. -/
def concatenate {l m n : Nat} (map1 : RefMap l m) (map2 : RefMap m n) : RefMap l n where
  transform := fun p => map2.transform (map1.transform p)
  jacobian := fun p => map2.jacobian (map1.transform p) * map1.jacobian p

/-! ### Determinant and wedge product -/

/-- SmallMatrix_impl.h:274-340 and Jacobian_Impl.h:50-117 `determinant`, one definition per size
(`switch` on the template argument); other sizes are a fatal error. -/
def det0 (_ : Matrix (Fin 0) (Fin 0) ℝ) : ℝ := 1
/-- SmallMatrix_impl.h:281-282 -/
def det1 (m : Matrix (Fin 1) (Fin 1) ℝ) : ℝ := m 0 0
/-- SmallMatrix_impl.h:283-285 -/
def det2 (m : Matrix (Fin 2) (Fin 2) ℝ) : ℝ := m 0 0 * m 1 1 - m 0 1 * m 1 0
/-- SmallMatrix_impl.h:287-293 -/
def det3 (m : Matrix (Fin 3) (Fin 3) ℝ) : ℝ :=
  m 0 0 * (m 1 1 * m 2 2 - m 1 2 * m 2 1) - m 0 1 * (m 1 0 * m 2 2 - m 2 0 * m 1 2) +
    m 0 2 * (m 1 0 * m 2 1 - m 2 0 * m 1 1)
/-- SmallMatrix_impl.h:295-330 -/
def det4 (m : Matrix (Fin 4) (Fin 4) ℝ) : ℝ :=
  (m 3 0 * m 2 1 * m 0 3 - m 2 0 * m 3 1 * m 0 3) * m 1 2 +
  (-m 3 0 * m 0 3 * m 2 2 + m 2 0 * m 0 3 * m 3 2) * m 1 1 +
  (m 3 1 * m 0 3 * m 2 2 - m 2 1 * m 0 3 * m 3 2) * m 1 0 +
  (-m 3 0 * m 2 1 * m 1 3 + m 2 0 * m 3 1 * m 1 3 +
    (-m 2 0 * m 3 3 + m 3 0 * m 2 3) * m 1 1 + (m 2 1 * m 3 3 - m 3 1 * m 2 3) * m 1 0) * m 0 2 +
  (m 3 0 * m 1 3 * m 2 2 - m 2 0 * m 1 3 * m 3 2 + (m 2 0 * m 3 3 - m 3 0 * m 2 3) * m 1 2 +
    (-m 2 2 * m 3 3 + m 2 3 * m 3 2) * m 1 0) * m 0 1 +
  (-m 3 1 * m 1 3 * m 2 2 + m 2 1 * m 1 3 * m 3 2 + (m 3 1 * m 2 3 - m 2 1 * m 3 3) * m 1 2 +
    m 1 1 * (m 2 2 * m 3 3 - m 2 3 * m 3 2)) * m 0 0

/-- SmallMatrix_impl.h:207-210 `computeWedgeStuffVector`, two rows. -/
def wedge2 (m : Matrix (Fin 2) (Fin 1) ℝ) : Pt 2 := ![-m 1 0, m 0 0]
/-- SmallMatrix_impl.h:211-219, three rows. -/
def wedge3 (m : Matrix (Fin 3) (Fin 2) ℝ) : Pt 3 :=
  ![m 1 0 * m 2 1 - m 2 0 * m 1 1, m 0 1 * m 2 0 - m 0 0 * m 2 1, m 0 0 * m 1 1 - m 1 0 * m 0 1]
/-- SmallMatrix_impl.h:220-246, four rows. -/
def wedge4 (m : Matrix (Fin 4) (Fin 3) ℝ) : Pt 4 :=
  ![m 1 0 * (-m 2 1 * m 3 2 + m 3 1 * m 2 2) + m 2 0 * (m 1 1 * m 3 2 - m 3 1 * m 1 2) +
      m 3 0 * (-m 1 1 * m 2 2 + m 2 1 * m 1 2),
    m 0 0 * (m 2 1 * m 3 2 - m 3 1 * m 2 2) + m 2 0 * (-m 0 1 * m 3 2 + m 3 1 * m 0 2) +
      m 3 0 * (m 0 1 * m 2 2 - m 2 1 * m 0 2),
    m 0 0 * (-m 1 1 * m 3 2 + m 3 1 * m 1 2) + m 1 0 * (m 0 1 * m 3 2 - m 3 1 * m 0 2) +
      m 3 0 * (-m 0 1 * m 1 2 + m 1 1 * m 0 2),
    m 0 0 * (m 1 1 * m 2 2 - m 2 1 * m 1 2) + m 1 0 * (-m 0 1 * m 2 2 + m 2 1 * m 0 2) +
      m 2 0 * (m 0 1 * m 1 2 - m 1 1 * m 0 2)]

/-! ### Normal vectors -/

/-- FaceGeometry.h:412-462 `getNormalVector` for `DIM > 0`: `wedge` and `det` are the versions of
the dimension at hand, `j2` is the Jacobian of the left element at the face point. -/
noncomputable def normalVector {d : Nat} (wedge : Matrix (Fin (d + 1)) (Fin d) ℝ → Pt (d + 1))
    (det : Matrix (Fin (d + 1)) (Fin (d + 1)) ℝ → ℝ) (f : FaceMap d)
    (j2 : Matrix (Fin (d + 1)) (Fin (d + 1)) ℝ) (p : Pt d) : Pt (d + 1) :=
  let j3 := j2 * f.jacobian p
  fun i => wedge j3 i * ((if det j2 > 0 then 1 else -1) * f.sign)

/-- FaceGeometry.h:442-461, the case `DIM == 0`: `j` is the 1x1 Jacobian of the left element. -/
noncomputable def normalVector1 (f : FaceMap 0) (j : Matrix (Fin 1) (Fin 1) ℝ) (p : Pt 0) : Pt 1 :=
  ![f.transform p 0 * (if j 0 0 > 0 then 1 else -1)]

end Verif.RefGeometry
