import Verif.RefGeometry.Model
import Verif.PhysMap.Model

/-!
# Model of the refinement of elements

kernel/Geometry/Mappings/RefinementMapping.h, RefinementMapsFor*.h and `MeshManipulator::refine`
(kernel/Base/MeshManipulator_Impl.h:1285-1490). `double` is `ℝ`, `std::size_t` is `Nat`. The singletons are the
constructors of `Name`. A function is `none` where the code logs an error or where an assertion fails: for a sub-element,
a face or a part of a face that does not exist. (In a build without assertions some functions answer for the last
sub-element instead.) The overloads of a function for points of another dimension log an error; here the dimension is part
of the type. The reference shapes are those of `Verif.RefGeometry` and the maps to physical space those of
`Verif.PhysMap`.
-/
namespace Verif.Refine
open Verif.RefGeometry (Pt Geom Face)

/-- The reference shapes for which there are refinements (kernel/Geometry/Reference*.h), by dimension. -/
inductive Shape : Nat → Type
  | point : Shape 0
  | line : Shape 1
  | triangle : Shape 2
  | square : Shape 2
  | tetrahedron : Shape 3
  | pyramid : Shape 3
  | prism : Shape 3
  | cube : Shape 3
  deriving DecidableEq

/-- The nodes and `isInternalPoint` of a shape (Reference*.cpp). -/
def Shape.geom : {d : Nat} → Shape d → Geom d
  | _, .point => RefGeometry.pointG
  | _, .line => RefGeometry.lineG
  | _, .triangle => RefGeometry.triangleG
  | _, .square => RefGeometry.squareG
  | _, .tetrahedron => RefGeometry.tetrahedronG
  | _, .pyramid => RefGeometry.pyramidG
  | _, .prism => RefGeometry.prismG
  | _, .cube => RefGeometry.cubeG

/-- `getNumberOfNodes` of a shape (Reference*.h). -/
def Shape.corners : {d : Nat} → Shape d → Nat
  | _, .point => 1
  | _, .line => 2
  | _, .triangle => 3
  | _, .square => 4
  | _, .tetrahedron => 4
  | _, .pyramid => 5
  | _, .prism => 6
  | _, .cube => 8

/-- The faces of a shape: `getCodim1ReferenceGeometry`, `getCodim1EntityLocalIndices` and `getCodim1MappingPtr`
(Reference*.cpp). -/
noncomputable def Shape.faces : {d : Nat} → Shape (d + 1) → List (Face d)
  | _, .line => RefGeometry.lineFaces
  | _, .triangle => RefGeometry.triangleFaces
  | _, .square => RefGeometry.squareFaces
  | _, .tetrahedron => RefGeometry.tetrahedronFaces
  | _, .pyramid => RefGeometry.pyramidFaces
  | _, .prism => RefGeometry.prismFaces
  | _, .cube => RefGeometry.cubeFaces

/-- `referenceToPhysical` of an element of a shape with straight edges, given the positions of its nodes
(MappingToPhys*.cpp). For the single point there is no such map; its value is the position of its node. -/
noncomputable def Shape.place {V : Type*} [AddCommGroup V] [Module ℝ V] : {d : Nat} → Shape d → (Nat → V) → Pt d → V
  | _, .point => fun p _ => p 0
  | _, .line => PhysMap.transform .line
  | _, .triangle => PhysMap.transform .triangle
  | _, .square => PhysMap.transform .square
  | _, .tetrahedron => PhysMap.transform .tetrahedron
  | _, .pyramid => PhysMap.transform .pyramid
  | _, .prism => PhysMap.transform .prism
  | _, .cube => PhysMap.transform .cube

/-- The 36 classes `RefinementMapFor…` (RefinementMapsFor*.h), by the dimension of the element that is refined. -/
inductive Name : Nat → Type
  | point0 : Name 0
  | line0 : Name 1
  | line1 : Name 1
  | square0 : Name 2
  | square1 : Name 2
  | square2 : Name 2
  | square3 : Name 2
  | triangle0 : Name 2
  | triangle1 : Name 2
  | triangle2 : Name 2
  | triangle3 : Name 2
  | triangle4 : Name 2
  | triangle5 : Name 2
  | triangle6 : Name 2
  | triangle7 : Name 2
  | triangle8 : Name 2
  | cube0 : Name 3
  | cube1 : Name 3
  | cube2 : Name 3
  | cube3 : Name 3
  | cube4 : Name 3
  | cube5 : Name 3
  | cube6 : Name 3
  | cube7 : Name 3
  | tetrahedron0 : Name 3
  | pyramid0 : Name 3
  | prism0 : Name 3
  | prism1 : Name 3
  | prism2 : Name 3
  | prism3 : Name 3
  | prism4 : Name 3
  | prism5 : Name 3
  | prism6 : Name 3
  | prism7 : Name 3
  | prism8 : Name 3
  | prism9 : Name 3
  deriving DecidableEq

/-- The virtual functions of RefinementMapping.h:52-292, for a refinement of an element of dimension `d`:
`shape` is `getBigElementReferenceGeometry`, `transform` is `refinementTransform`, `left` and `right` are
`getRefinementMappingMatrixL` and `getRefinementMappingMatrixR` (the inner lists of a `SmallMatrix` are its columns,
SmallMatrix.h:101-110; here the rows are written down), `numNew`, `numSubs`, `subNodes`, `subShape` and `newNodes` are
`getNumberOfNewNodes`, `getNumberOfSubElements`, `getSubElementLocalNodeIndices`, `getSubElementReferenceGeometry` and
`getNewNodeLocations`; `faceMaps`, `faceNodes` and `subFace` are `getCodim1RefinementMaps`, `getCodim1LocalNodeIndices` and
`getSubElementAndLocalFaceIndex`. The check of the index of the part of a face is in `Name.subFace` below. -/
structure Table (d : Nat) where
  shape : Shape d
  transform : Nat → Pt d → Option (Pt d)
  left : Nat → Pt d → Option (Matrix (Fin d) (Fin d) ℝ)
  right : Nat → Pt d → Option (Matrix (Fin d) (Fin d) ℝ)
  numNew : Nat
  numSubs : Nat
  subNodes : Nat → Option (List Nat)
  subShape : Nat → Option (Shape d)
  newNodes : List (Pt d)
  faceMaps : List (Name (d - 1))
  faceNodes : Nat → Option (List Nat)
  subFace : Nat → Nat → Option (Nat × Nat)

/-- RefinementMapsForPoint.h:59-145, "Identity map". -/
noncomputable def point0 : Table 0 where
  shape := .point
  transform := fun s p => if s < 1 then some (p) else none
  left := fun s _ => if s < 1 then some (0) else none
  right := fun s _ => if s < 1 then some (0) else none
  numNew := 0
  numSubs := 1
  subNodes := fun s => if s < 1 then some [0] else none
  subShape := fun s => if s < 1 then some (.point) else none
  newNodes := []
  faceMaps := []
  faceNodes := fun _ => none
  subFace := fun _ _ => none

/-- RefinementMapsForLine.h:66-172, "Identity map". -/
noncomputable def line0 : Table 1 where
  shape := .line
  transform := fun s p => if s < 1 then some (p) else none
  left := fun s _ => if s < 1 then some (!![1]) else none
  right := fun s _ => if s < 1 then some (!![1]) else none
  numNew := 0
  numSubs := 1
  subNodes := fun s => if s < 1 then some [0, 1] else none
  subShape := fun s => if s < 1 then some (.line) else none
  newNodes := []
  faceMaps := [.point0, .point0]
  faceNodes := fun f => match f with
    | 0 => some [0]
    | 1 => some [1]
    | _ => none
  subFace := fun f _ => if f < 2 then some (0, f) else none

/-- RefinementMapsForLine.h:179-288, "split". -/
noncomputable def line1 : Table 1 where
  shape := .line
  transform := fun s p => if s < 2 then some (![p 0 / 2 + s - 0.5]) else none
  left := fun s _ => if s < 2 then some (!![0.5]) else none
  right := fun s _ => if s < 2 then some (!![2]) else none
  numNew := 1
  numSubs := 2
  subNodes := fun s => match s with
    | 0 => some [0, 2]
    | 1 => some [2, 1]
    | _ => none
  subShape := fun s => if s < 2 then some (.line) else none
  newNodes := [![0]]
  faceMaps := [.point0, .point0]
  faceNodes := fun f => match f with
    | 0 => some [0]
    | 1 => some [1]
    | _ => none
  subFace := fun f _ => if f < 2 then some (f, f) else none

/-- RefinementMapsForSquare.h:91-203, "Identity map". -/
noncomputable def square0 : Table 2 where
  shape := .square
  transform := fun s p => if s < 1 then some (p) else none
  left := fun s _ => if s < 1 then some (!![1, 0; 0, 1]) else none
  right := fun s _ => if s < 1 then some (!![1, 0; 0, 1]) else none
  numNew := 0
  numSubs := 1
  subNodes := fun s => if s < 1 then some [0, 1, 2, 3] else none
  subShape := fun s => if s < 1 then some (.square) else none
  newNodes := []
  faceMaps := [.line0, .line0, .line0, .line0]
  faceNodes := fun f => match f with
    | 0 => some [0, 1]
    | 1 => some [0, 2]
    | 2 => some [1, 3]
    | 3 => some [2, 3]
    | _ => none
  subFace := fun f _ => if f < 4 then some (0, f) else none

/-- RefinementMapsForSquare.h:210-336, "vertical split". -/
noncomputable def square1 : Table 2 where
  shape := .square
  transform := fun s p => if s < 2 then some (![p 0 / 2 + s - 0.5, p 1]) else none
  left := fun s _ => if s < 2 then some (!![0.5, 0; 0, 1]) else none
  right := fun s _ => if s < 2 then some (!![2, 0; 0, 1]) else none
  numNew := 2
  numSubs := 2
  subNodes := fun s => match s with
    | 0 => some [0, 4, 2, 5]
    | 1 => some [4, 1, 5, 3]
    | _ => none
  subShape := fun s => if s < 2 then some (.square) else none
  newNodes := [![0, -1], ![0, 1]]
  faceMaps := [.line1, .line0, .line0, .line1]
  faceNodes := fun f => match f with
    | 0 => some [0, 1, 4]
    | 1 => some [0, 2]
    | 2 => some [1, 3]
    | 3 => some [2, 3, 5]
    | _ => none
  subFace := fun f j => match f with
    | 0 => some (j, 0)
    | 1 => some (0, 1)
    | 2 => some (1, 2)
    | 3 => some (j, 3)
    | _ => none

/-- RefinementMapsForSquare.h:343-469, "horizontal split". -/
noncomputable def square2 : Table 2 where
  shape := .square
  transform := fun s p => if s < 2 then some (![p 0, p 1 / 2 + s - 0.5]) else none
  left := fun s _ => if s < 2 then some (!![1, 0; 0, 0.5]) else none
  right := fun s _ => if s < 2 then some (!![1, 0; 0, 2]) else none
  numNew := 2
  numSubs := 2
  subNodes := fun s => match s with
    | 0 => some [0, 1, 4, 5]
    | 1 => some [4, 5, 2, 3]
    | _ => none
  subShape := fun s => if s < 2 then some (.square) else none
  newNodes := [![-1, 0], ![1, 0]]
  faceMaps := [.line0, .line1, .line1, .line0]
  faceNodes := fun f => match f with
    | 0 => some [0, 1]
    | 1 => some [0, 2, 4]
    | 2 => some [1, 3, 5]
    | 3 => some [2, 3]
    | _ => none
  subFace := fun f j => match f with
    | 0 => some (0, 0)
    | 1 => some (j, 1)
    | 2 => some (j, 2)
    | 3 => some (1, 3)
    | _ => none

/-- RefinementMapsForSquare.h:476-658, "split all faces". -/
noncomputable def square3 : Table 2 where
  shape := .square
  transform := fun s p => match s with
    | 0 => some (![-0.5 + 0.5 * p 0, -0.5 + 0.5 * p 1])
    | 1 => some (![0.5 + 0.5 * p 0, -0.5 + 0.5 * p 1])
    | 2 => some (![-0.5 + 0.5 * p 0, 0.5 + 0.5 * p 1])
    | 3 => some (![0.5 + 0.5 * p 0, 0.5 + 0.5 * p 1])
    | _ => none
  left := fun s _ => match s with
    | 0 => some (!![0.5, 0; 0, 0.5])
    | 1 => some (!![0.5, 0; 0, 0.5])
    | 2 => some (!![0.5, 0; 0, 0.5])
    | 3 => some (!![0.5, 0; 0, 0.5])
    | _ => none
  right := fun s _ => match s with
    | 0 => some (!![2, 0; 0, 2])
    | 1 => some (!![2, 0; 0, 2])
    | 2 => some (!![2, 0; 0, 2])
    | 3 => some (!![2, 0; 0, 2])
    | _ => none
  numNew := 5
  numSubs := 4
  subNodes := fun s => match s with
    | 0 => some [0, 4, 5, 8]
    | 1 => some [4, 1, 8, 6]
    | 2 => some [5, 8, 2, 7]
    | 3 => some [8, 6, 7, 3]
    | _ => none
  subShape := fun s => if s < 4 then some (.square) else none
  newNodes := [![0, -1], ![-1, 0], ![1, 0], ![0, 1], ![0, 0]]
  faceMaps := [.line1, .line1, .line1, .line1]
  faceNodes := fun f => match f with
    | 0 => some [0, 1, 4]
    | 1 => some [0, 2, 5]
    | 2 => some [1, 3, 6]
    | 3 => some [2, 3, 7]
    | _ => none
  subFace := fun f j => match f with
    | 0 => some (j, 0)
    | 1 => some (j * 2, 1)
    | 2 => some (j * 2 + 1, 2)
    | 3 => some (j + 2, 3)
    | _ => none

/-- RefinementMapsForTriangle.h:131-240, "Identity map". -/
noncomputable def triangle0 : Table 2 where
  shape := .triangle
  transform := fun s p => if s < 1 then some (p) else none
  left := fun s _ => if s < 1 then some (!![1, 0; 0, 1]) else none
  right := fun s _ => if s < 1 then some (!![1, 0; 0, 1]) else none
  numNew := 0
  numSubs := 1
  subNodes := fun s => if s < 1 then some [0, 1, 2] else none
  subShape := fun s => if s < 1 then some (.triangle) else none
  newNodes := []
  faceMaps := [.line0, .line0, .line0]
  faceNodes := fun f => match f with
    | 0 => some [0, 1]
    | 1 => some [0, 2]
    | 2 => some [1, 2]
    | _ => none
  subFace := fun f _ => if f < 3 then some (0, f) else none

/-- RefinementMapsForTriangle.h:247-369, "split face 0". -/
noncomputable def triangle1 : Table 2 where
  shape := .triangle
  transform := fun s p => if s < 2 then some (![(p 0 + s) / 2, p 1]) else none
  left := fun s _ => if s < 2 then some (!![0.5, 0; 0, 1]) else none
  right := fun s _ => if s < 2 then some (!![2, 0; 0, 1]) else none
  numNew := 1
  numSubs := 2
  subNodes := fun s => match s with
    | 0 => some [0, 3, 2]
    | 1 => some [3, 1, 2]
    | _ => none
  subShape := fun s => if s < 2 then some (.triangle) else none
  newNodes := [![0.5, 0]]
  faceMaps := [.line1, .line0, .line0]
  faceNodes := fun f => match f with
    | 0 => some [0, 1, 3]
    | 1 => some [0, 2]
    | 2 => some [1, 2]
    | _ => none
  subFace := fun f j => match f with
    | 0 => some (j, 0)
    | 1 => some (0, 1)
    | 2 => some (1, 2)
    | _ => none

/-- RefinementMapsForTriangle.h:376-498, "split face 1". -/
noncomputable def triangle2 : Table 2 where
  shape := .triangle
  transform := fun s p => if s < 2 then some (![p 0, (p 1 + s) / 2]) else none
  left := fun s _ => if s < 2 then some (!![1, 0; 0, 0.5]) else none
  right := fun s _ => if s < 2 then some (!![1, 0; 0, 2]) else none
  numNew := 1
  numSubs := 2
  subNodes := fun s => match s with
    | 0 => some [0, 1, 3]
    | 1 => some [3, 1, 2]
    | _ => none
  subShape := fun s => if s < 2 then some (.triangle) else none
  newNodes := [![0, 0.5]]
  faceMaps := [.line0, .line1, .line0]
  faceNodes := fun f => match f with
    | 0 => some [0, 1]
    | 1 => some [0, 2, 3]
    | 2 => some [1, 2]
    | _ => none
  subFace := fun f j => match f with
    | 0 => some (0, 0)
    | 1 => some (j, 1)
    | 2 => some (1, 2)
    | _ => none

/-- RefinementMapsForTriangle.h:505-638, "split face 2". -/
noncomputable def triangle3 : Table 2 where
  shape := .triangle
  transform := fun s p => match s with
    | 0 => some (![0.5 * p 0, 0.5 * p 0 + p 1])
    | 1 => some (![p 0 + 0.5 * p 1, 0.5 * p 1])
    | _ => none
  left := fun s _ => match s with
    | 0 => some (!![0.5, 0; 0.5, 1])
    | 1 => some (!![1, 0.5; 0, 0.5])
    | _ => none
  right := fun s _ => match s with
    | 0 => some (!![2, 0; -1, 1])
    | 1 => some (!![1, -1; 0, 2])
    | _ => none
  numNew := 1
  numSubs := 2
  subNodes := fun s => match s with
    | 0 => some [0, 1, 3]
    | 1 => some [0, 3, 2]
    | _ => none
  subShape := fun s => if s < 2 then some (.triangle) else none
  newNodes := [![0.5, 0.5]]
  faceMaps := [.line0, .line0, .line1]
  faceNodes := fun f => match f with
    | 0 => some [0, 1]
    | 1 => some [0, 2]
    | 2 => some [1, 2, 3]
    | _ => none
  subFace := fun f j => match f with
    | 0 => some (0, 0)
    | 1 => some (1, 1)
    | 2 => some (j, 2)
    | _ => none

/-- RefinementMapsForTriangle.h:645-824, "split all faces". -/
noncomputable def triangle4 : Table 2 where
  shape := .triangle
  transform := fun s p => match s with
    | 0 => some (![0.5 * p 0, 0.5 * p 1])
    | 1 => some (![0.5 + 0.5 * p 0, 0.5 * p 1])
    | 2 => some (![0.5 * p 0, 0.5 + 0.5 * p 1])
    | 3 => some (![0.5 - 0.5 * p 0, 0.5 - 0.5 * p 1])
    | _ => none
  left := fun s _ => match s with
    | 0 => some (!![0.5, 0; 0, 0.5])
    | 1 => some (!![0.5, 0; 0, 0.5])
    | 2 => some (!![0.5, 0; 0, 0.5])
    | 3 => some (!![-0.5, 0; 0, -0.5])
    | _ => none
  right := fun s _ => match s with
    | 0 => some (!![2, 0; 0, 2])
    | 1 => some (!![2, 0; 0, 2])
    | 2 => some (!![2, 0; 0, 2])
    | 3 => some (!![-2, 0; 0, -2])
    | _ => none
  numNew := 3
  numSubs := 4
  subNodes := fun s => match s with
    | 0 => some [0, 3, 4]
    | 1 => some [3, 1, 5]
    | 2 => some [4, 5, 2]
    | 3 => some [5, 4, 3]
    | _ => none
  subShape := fun s => if s < 4 then some (.triangle) else none
  newNodes := [![0.5, 0], ![0, 0.5], ![0.5, 0.5]]
  faceMaps := [.line1, .line1, .line1]
  faceNodes := fun f => match f with
    | 0 => some [0, 1, 3]
    | 1 => some [0, 2, 4]
    | 2 => some [1, 2, 5]
    | _ => none
  subFace := fun f j => match f with
    | 0 => some (j, 0)
    | 1 => some (j * 2, 1)
    | 2 => some (j + 1, 2)
    | _ => none

/-- RefinementMapsForTriangle.h:831-1005, "split to 3 quadrilaterals". -/
noncomputable def triangle5 : Table 2 where
  shape := .triangle
  transform := fun s p => match s with
    | 0 => some (![(p 1 + 1) * (5 + p 0) / 24, (1 - p 0) * (5 - p 1) / 24])
    | 1 => some (![((p 0 + 2) * (2 - p 1) + 3) / 12, (p 1 + 1) * (5 + p 0) / 24])
    | 2 => some (![(1 - p 0) * (5 - p 1) / 24, ((p 0 + 2) * (2 - p 1) + 3) / 12])
    | _ => none
  left := fun s p => match s with
    | 0 => some (!![(p 1 + 1) / 24, (p 0 + 5) / 24; (p 1 - 5) / 24, (p 0 - 1) / 24])
    | 1 => some (!![(2 - p 1) / 12, -(p 0 + 2) / 12; (p 1 + 1) / 24, (p 0 + 5) / 24])
    | 2 => some (!![(p 1 - 5) / 24, (p 0 - 1) / 24; (2 - p 1) / 12, -(p 0 + 2) / 12])
    | _ => none
  right := fun s p => match s with
    | 0 => some ((p 0 - p 1 + 4)⁻¹ • (4 : ℝ) • !![p 0 - 1, -(p 0 + 5); 5 - p 1, (p 1 + 1)])
    | 1 => some ((p 0 - p 1 + 4)⁻¹ • (4 : ℝ) • !![p 0 + 5, 2 * p 0 + 4; -(p 1 + 1), 4 - 2 * p 1])
    | 2 => some ((p 0 - p 1 + 4)⁻¹ • (4 : ℝ) • !![-(2 * p 0 + 4), 1 - p 0; 2 * p 1 - 4, p 1 - 5])
    | _ => none
  numNew := 4
  numSubs := 3
  subNodes := fun s => match s with
    | 0 => some [4, 0, 6, 3]
    | 1 => some [3, 1, 6, 5]
    | 2 => some [5, 2, 6, 4]
    | _ => none
  subShape := fun s => if s < 3 then some (.square) else none
  newNodes := [![0.5, 0], ![0, 0.5], ![0.5, 0.5], ![1 / 3, 1 / 3]]
  faceMaps := [.line1, .line1, .line1]
  faceNodes := fun f => match f with
    | 0 => some [0, 1, 3]
    | 1 => some [0, 2, 4]
    | 2 => some [1, 2, 5]
    | _ => none
  subFace := fun f j => match f with
    | 0 => some (j, 2 - 2 * j)
    | 1 => some (j * 2, 2 * j)
    | 2 => some (j + 1, 2 - 2 * j)
    | _ => none

/-- RefinementMapsForTriangle.h:1012-1173, "split to a triangle and a quadrilateral". -/
noncomputable def triangle6 : Table 2 where
  shape := .triangle
  transform := fun s p => match s with
    | 0 => some (![(1 + p 0) / 4, (p 1 + 1) * (3 - p 0) / 8])
    | 1 => some (![(1 + p 0) / 2, p 1 / 2])
    | _ => none
  left := fun s p => match s with
    | 0 => some (!![0.25, 0; -(p 1 + 1) / 8, (3 - p 0) / 8])
    | 1 => some (!![0.5, 0; 0, 0.5])
    | _ => none
  right := fun s p => match s with
    | 0 => some ((3 - p 0)⁻¹ • (4 : ℝ) • !![3 - p 0, 0; p 1 + 1, 2])
    | 1 => some (!![2, 0; 0, 2])
    | _ => none
  numNew := 2
  numSubs := 2
  subNodes := fun s => match s with
    | 0 => some [0, 3, 2, 4]
    | 1 => some [3, 1, 4]
    | _ => none
  subShape := fun s => match s with
    | 0 => some (.square)
    | 1 => some (.triangle)
    | _ => none
  newNodes := [![0.5, 0], ![0.5, 0.5]]
  faceMaps := [.line1, .line0, .line1]
  faceNodes := fun f => match f with
    | 0 => some [0, 1, 3]
    | 1 => some [0, 2]
    | 2 => some [1, 2, 4]
    | _ => none
  subFace := fun f j => match f with
    | 0 => some (j, 0)
    | 1 => some (0, 1)
    | 2 => some (j, j + 2)
    | _ => none

/-- RefinementMapsForTriangle.h:1180-1341, "split to a triangle and a quadrilateral". -/
noncomputable def triangle7 : Table 2 where
  shape := .triangle
  transform := fun s p => match s with
    | 0 => some (![(p 0 + 1) * (3 - p 1) / 8, (1 + p 1) / 4])
    | 1 => some (![p 0 / 2, (1 + p 1) / 2])
    | _ => none
  left := fun s p => match s with
    | 0 => some (!![(3 - p 1) / 8, -(p 0 + 1) / 8; 0, 0.25])
    | 1 => some (!![0.5, 0; 0, 0.5])
    | _ => none
  right := fun s p => match s with
    | 0 => some ((3 - p 1)⁻¹ • (4 : ℝ) • !![2, p 0 + 1; 0, 3 - p 1])
    | 1 => some (!![2, 0; 0, 2])
    | _ => none
  numNew := 2
  numSubs := 2
  subNodes := fun s => match s with
    | 0 => some [0, 1, 3, 4]
    | 1 => some [3, 4, 2]
    | _ => none
  subShape := fun s => match s with
    | 0 => some (.square)
    | 1 => some (.triangle)
    | _ => none
  newNodes := [![0, 0.5], ![0.5, 0.5]]
  faceMaps := [.line0, .line1, .line1]
  faceNodes := fun f => match f with
    | 0 => some [0, 1]
    | 1 => some [0, 2, 3]
    | 2 => some [1, 2, 4]
    | _ => none
  subFace := fun f j => match f with
    | 0 => some (0, 0)
    | 1 => some (j, 1)
    | 2 => some (j, 2)
    | _ => none

/-- RefinementMapsForTriangle.h:1348-1512, "split to a triangle and a quadrilateral". -/
noncomputable def triangle8 : Table 2 where
  shape := .triangle
  transform := fun s p => match s with
    | 0 => some (![p 0 / 2, p 1 / 2])
    | 1 => some (![(1 - p 1) * (3 + p 0) / 8, (1 + p 1) * (3 + p 0) / 8])
    | _ => none
  left := fun s p => match s with
    | 0 => some (!![0.5, 0; 0, 0.5])
    | 1 => some (!![(1 - p 1) / 8, -(3 + p 0) / 8; (1 + p 1) / 8, (3 + p 0) / 8])
    | _ => none
  right := fun s p => match s with
    | 0 => some (!![2, 0; 0, 2])
    | 1 => some ((p 0 + 3)⁻¹ • (4 : ℝ) • !![3 + p 0, 3 + p 0; -(1 + p 1), 1 - p 1])
    | _ => none
  numNew := 2
  numSubs := 2
  subNodes := fun s => match s with
    | 0 => some [0, 3, 4]
    | 1 => some [3, 1, 4, 2]
    | _ => none
  subShape := fun s => match s with
    | 0 => some (.triangle)
    | 1 => some (.square)
    | _ => none
  newNodes := [![0.5, 0], ![0, 0.5]]
  faceMaps := [.line0, .line1, .line1]
  faceNodes := fun f => match f with
    | 0 => some [0, 1, 3]
    | 1 => some [0, 2, 4]
    | 2 => some [1, 2]
    | _ => none
  subFace := fun f j => match f with
    | 0 => some (j, 0)
    | 1 => some (j, j * 2 + 1)
    | 2 => some (1, 2)
    | _ => none

/-- RefinementMapsForCube.h:217-337, "Identity map". -/
noncomputable def cube0 : Table 3 where
  shape := .cube
  transform := fun s p => if s < 1 then some (p) else none
  left := fun s _ => if s < 1 then some (!![1, 0, 0; 0, 1, 0; 0, 0, 1]) else none
  right := fun s _ => if s < 1 then some (!![1, 0, 0; 0, 1, 0; 0, 0, 1]) else none
  numNew := 0
  numSubs := 1
  subNodes := fun s => if s < 1 then some [0, 1, 2, 3, 4, 5, 6, 7] else none
  subShape := fun s => if s < 1 then some (.cube) else none
  newNodes := []
  faceMaps := [.square0, .square0, .square0, .square0, .square0, .square0]
  faceNodes := fun f => match f with
    | 0 => some [0, 1, 2, 3]
    | 1 => some [0, 1, 4, 5]
    | 2 => some [0, 2, 4, 6]
    | 3 => some [1, 3, 5, 7]
    | 4 => some [2, 3, 6, 7]
    | 5 => some [4, 5, 6, 7]
    | _ => none
  subFace := fun f _ => if f < 6 then some (0, f) else none

/-- RefinementMapsForCube.h:344-512, "vertical split". -/
noncomputable def cube1 : Table 3 where
  shape := .cube
  transform := fun s p => match s with
    | 0 => some (![(p 0 - 1) / 2, p 1, p 2])
    | 1 => some (![(p 0 + 1) / 2, p 1, p 2])
    | _ => none
  left := fun s _ => match s with
    | 0 => some (!![0.5, 0, 0; 0, 1, 0; 0, 0, 1])
    | 1 => some (!![0.5, 0, 0; 0, 1, 0; 0, 0, 1])
    | _ => none
  right := fun s _ => match s with
    | 0 => some (!![2, 0, 0; 0, 1, 0; 0, 0, 1])
    | 1 => some (!![2, 0, 0; 0, 1, 0; 0, 0, 1])
    | _ => none
  numNew := 4
  numSubs := 2
  subNodes := fun s => match s with
    | 0 => some [0, 8, 2, 9, 4, 10, 6, 11]
    | 1 => some [8, 1, 9, 3, 10, 5, 11, 7]
    | _ => none
  subShape := fun s => if s < 2 then some (.cube) else none
  newNodes := [![0, -1, -1], ![0, 1, -1], ![0, -1, 1], ![0, 1, 1]]
  faceMaps := [.square1, .square1, .square0, .square0, .square1, .square1]
  faceNodes := fun f => match f with
    | 0 => some [0, 1, 2, 3, 8, 9]
    | 1 => some [0, 1, 4, 5, 8, 10]
    | 2 => some [0, 2, 4, 6]
    | 3 => some [1, 3, 5, 7]
    | 4 => some [2, 3, 6, 7, 9, 11]
    | 5 => some [4, 5, 6, 7, 10, 11]
    | _ => none
  subFace := fun f j => match f with
    | 0 => some (j, 0)
    | 1 => some (j, 1)
    | 2 => some (0, 2)
    | 3 => some (1, 3)
    | 4 => some (j, 4)
    | 5 => some (j, 5)
    | _ => none

/-- RefinementMapsForCube.h:519-687, "horizontal split". -/
noncomputable def cube2 : Table 3 where
  shape := .cube
  transform := fun s p => match s with
    | 0 => some (![p 0, (p 1 - 1) / 2, p 2])
    | 1 => some (![p 0, (p 1 + 1) / 2, p 2])
    | _ => none
  left := fun s _ => match s with
    | 0 => some (!![1, 0, 0; 0, 0.5, 0; 0, 0, 1])
    | 1 => some (!![1, 0, 0; 0, 0.5, 0; 0, 0, 1])
    | _ => none
  right := fun s _ => match s with
    | 0 => some (!![1, 0, 0; 0, 2, 0; 0, 0, 1])
    | 1 => some (!![1, 0, 0; 0, 2, 0; 0, 0, 1])
    | _ => none
  numNew := 4
  numSubs := 2
  subNodes := fun s => match s with
    | 0 => some [0, 1, 8, 9, 4, 5, 10, 11]
    | 1 => some [8, 9, 2, 3, 10, 11, 6, 7]
    | _ => none
  subShape := fun s => if s < 2 then some (.cube) else none
  newNodes := [![-1, 0, -1], ![1, 0, -1], ![-1, 0, 1], ![1, 0, 1]]
  faceMaps := [.square2, .square0, .square1, .square1, .square0, .square2]
  faceNodes := fun f => match f with
    | 0 => some [0, 1, 2, 3, 8, 9]
    | 1 => some [0, 1, 4, 5]
    | 2 => some [0, 2, 4, 6, 8, 10]
    | 3 => some [1, 3, 5, 7, 9, 11]
    | 4 => some [2, 3, 6, 7]
    | 5 => some [4, 5, 6, 7, 10, 11]
    | _ => none
  subFace := fun f j => match f with
    | 0 => some (j, 0)
    | 1 => some (0, 1)
    | 2 => some (j, 2)
    | 3 => some (j, 3)
    | 4 => some (1, 4)
    | 5 => some (j, 5)
    | _ => none

/-- RefinementMapsForCube.h:694-862, "2way split". -/
noncomputable def cube3 : Table 3 where
  shape := .cube
  transform := fun s p => match s with
    | 0 => some (![p 0, p 1, (p 2 - 1) / 2])
    | 1 => some (![p 0, p 1, (p 2 + 1) / 2])
    | _ => none
  left := fun s _ => match s with
    | 0 => some (!![1, 0, 0; 0, 1, 0; 0, 0, 0.5])
    | 1 => some (!![1, 0, 0; 0, 1, 0; 0, 0, 0.5])
    | _ => none
  right := fun s _ => match s with
    | 0 => some (!![1, 0, 0; 0, 1, 0; 0, 0, 2])
    | 1 => some (!![1, 0, 0; 0, 1, 0; 0, 0, 2])
    | _ => none
  numNew := 4
  numSubs := 2
  subNodes := fun s => match s with
    | 0 => some [0, 1, 2, 3, 8, 9, 10, 11]
    | 1 => some [8, 9, 10, 11, 4, 5, 6, 7]
    | _ => none
  subShape := fun s => if s < 2 then some (.cube) else none
  newNodes := [![-1, -1, 0], ![1, -1, 0], ![-1, 1, 0], ![1, 1, 0]]
  faceMaps := [.square0, .square2, .square2, .square2, .square2, .square0]
  faceNodes := fun f => match f with
    | 0 => some [0, 1, 2, 3]
    | 1 => some [0, 1, 4, 5, 8, 9]
    | 2 => some [0, 2, 4, 6, 8, 10]
    | 3 => some [1, 3, 5, 7, 9, 11]
    | 4 => some [2, 3, 6, 7, 10, 11]
    | 5 => some [4, 5, 6, 7]
    | _ => none
  subFace := fun f j => match f with
    | 0 => some (0, 0)
    | 1 => some (j, 1)
    | 2 => some (j, 2)
    | 3 => some (j, 3)
    | 4 => some (j, 4)
    | 5 => some (1, 5)
    | _ => none

/-- RefinementMapsForCube.h:869-1063, "4way split". -/
noncomputable def cube4 : Table 3 where
  shape := .cube
  transform := fun s p => match s with
    | 0 => some (![(p 0 - 1) / 2, (p 1 - 1) / 2, p 2])
    | 1 => some (![(p 0 + 1) / 2, (p 1 - 1) / 2, p 2])
    | 2 => some (![(p 0 - 1) / 2, (p 1 + 1) / 2, p 2])
    | 3 => some (![(p 0 + 1) / 2, (p 1 + 1) / 2, p 2])
    | _ => none
  left := fun s _ => match s with
    | 0 => some (!![0.5, 0, 0; 0, 0.5, 0; 0, 0, 1])
    | 1 => some (!![0.5, 0, 0; 0, 0.5, 0; 0, 0, 1])
    | 2 => some (!![0.5, 0, 0; 0, 0.5, 0; 0, 0, 1])
    | 3 => some (!![0.5, 0, 0; 0, 0.5, 0; 0, 0, 1])
    | _ => none
  right := fun s _ => match s with
    | 0 => some (!![2, 0, 0; 0, 2, 0; 0, 0, 1])
    | 1 => some (!![2, 0, 0; 0, 2, 0; 0, 0, 1])
    | 2 => some (!![2, 0, 0; 0, 2, 0; 0, 0, 1])
    | 3 => some (!![2, 0, 0; 0, 2, 0; 0, 0, 1])
    | _ => none
  numNew := 10
  numSubs := 4
  subNodes := fun s => match s with
    | 0 => some [0, 8, 10, 12, 4, 13, 15, 17]
    | 1 => some [8, 1, 12, 11, 13, 5, 17, 16]
    | 2 => some [10, 12, 2, 9, 15, 17, 6, 14]
    | 3 => some [12, 11, 9, 3, 17, 16, 14, 7]
    | _ => none
  subShape := fun s => if s < 4 then some (.cube) else none
  newNodes := [![0, -1, -1], ![0, 1, -1], ![-1, 0, -1], ![1, 0, -1], ![0, 0, -1], ![0, -1, 1], ![0, 1, 1], ![-1, 0, 1], ![1, 0, 1], ![0, 0, 1]]
  faceMaps := [.square3, .square1, .square1, .square1, .square1, .square3]
  faceNodes := fun f => match f with
    | 0 => some [0, 1, 2, 3, 8, 10, 11, 9, 12]
    | 1 => some [0, 1, 4, 5, 8, 13]
    | 2 => some [0, 2, 4, 6, 10, 15]
    | 3 => some [1, 3, 5, 7, 11, 16]
    | 4 => some [2, 3, 6, 7, 9, 14]
    | 5 => some [4, 5, 6, 7, 13, 15, 16, 14, 17]
    | _ => none
  subFace := fun f j => match f with
    | 0 => some (j, 0)
    | 1 => some (j, 1)
    | 2 => some (j * 2, 2)
    | 3 => some (j * 2 + 1, 3)
    | 4 => some (j + 2, 4)
    | 5 => some (j, 5)
    | _ => none

/-- RefinementMapsForCube.h:1070-1264, "4way split". -/
noncomputable def cube5 : Table 3 where
  shape := .cube
  transform := fun s p => match s with
    | 0 => some (![(p 0 - 1) / 2, p 1, (p 2 - 1) / 2])
    | 1 => some (![(p 0 + 1) / 2, p 1, (p 2 - 1) / 2])
    | 2 => some (![(p 0 - 1) / 2, p 1, (p 2 + 1) / 2])
    | 3 => some (![(p 0 + 1) / 2, p 1, (p 2 + 1) / 2])
    | _ => none
  left := fun s _ => match s with
    | 0 => some (!![0.5, 0, 0; 0, 1, 0; 0, 0, 0.5])
    | 1 => some (!![0.5, 0, 0; 0, 1, 0; 0, 0, 0.5])
    | 2 => some (!![0.5, 0, 0; 0, 1, 0; 0, 0, 0.5])
    | 3 => some (!![0.5, 0, 0; 0, 1, 0; 0, 0, 0.5])
    | _ => none
  right := fun s _ => match s with
    | 0 => some (!![2, 0, 0; 0, 1, 0; 0, 0, 2])
    | 1 => some (!![2, 0, 0; 0, 1, 0; 0, 0, 2])
    | 2 => some (!![2, 0, 0; 0, 1, 0; 0, 0, 2])
    | 3 => some (!![2, 0, 0; 0, 1, 0; 0, 0, 2])
    | _ => none
  numNew := 10
  numSubs := 4
  subNodes := fun s => match s with
    | 0 => some [0, 8, 2, 9, 12, 16, 14, 17]
    | 1 => some [8, 1, 9, 3, 16, 13, 17, 15]
    | 2 => some [12, 16, 14, 17, 4, 10, 6, 11]
    | 3 => some [16, 13, 17, 15, 10, 5, 11, 7]
    | _ => none
  subShape := fun s => if s < 4 then some (.cube) else none
  newNodes := [![0, -1, -1], ![0, -1, 1], ![-1, -1, 0], ![1, -1, 0], ![0, -1, 0], ![0, 1, -1], ![0, 1, 1], ![-1, 1, 0], ![1, 1, 0], ![0, 1, 0]]
  faceMaps := [.square1, .square3, .square2, .square2, .square3, .square1]
  faceNodes := fun f => match f with
    | 0 => some [0, 1, 2, 3, 8, 13]
    | 1 => some [0, 1, 4, 5, 8, 10, 11, 9, 12]
    | 2 => some [0, 2, 4, 6, 10, 15]
    | 3 => some [1, 3, 5, 7, 11, 16]
    | 4 => some [2, 3, 6, 7, 9, 14]
    | 5 => some [4, 5, 6, 7, 13, 15, 16, 14, 17]
    | _ => none
  subFace := fun f j => match f with
    | 0 => some (j, 0)
    | 1 => some (j, 1)
    | 2 => some (j * 2, 2)
    | 3 => some (j * 2 + 1, 3)
    | 4 => some (j, 4)
    | 5 => some (j + 2, 5)
    | _ => none

/-- RefinementMapsForCube.h:1271-1465, "4way split". -/
noncomputable def cube6 : Table 3 where
  shape := .cube
  transform := fun s p => match s with
    | 0 => some (![p 0, (p 1 - 1) / 2, (p 2 - 1) / 2])
    | 1 => some (![p 0, (p 1 + 1) / 2, (p 2 - 1) / 2])
    | 2 => some (![p 0, (p 1 - 1) / 2, (p 2 + 1) / 2])
    | 3 => some (![p 0, (p 1 + 1) / 2, (p 2 + 1) / 2])
    | _ => none
  left := fun s _ => match s with
    | 0 => some (!![1, 0, 0; 0, 0.5, 0; 0, 0, 0.5])
    | 1 => some (!![1, 0, 0; 0, 0.5, 0; 0, 0, 0.5])
    | 2 => some (!![1, 0, 0; 0, 0.5, 0; 0, 0, 0.5])
    | 3 => some (!![1, 0, 0; 0, 0.5, 0; 0, 0, 0.5])
    | _ => none
  right := fun s _ => match s with
    | 0 => some (!![1, 0, 0; 0, 2, 0; 0, 0, 2])
    | 1 => some (!![1, 0, 0; 0, 2, 0; 0, 0, 2])
    | 2 => some (!![1, 0, 0; 0, 2, 0; 0, 0, 2])
    | 3 => some (!![1, 0, 0; 0, 2, 0; 0, 0, 2])
    | _ => none
  numNew := 10
  numSubs := 4
  subNodes := fun s => match s with
    | 0 => some [0, 1, 8, 9, 12, 13, 16, 17]
    | 1 => some [8, 9, 2, 3, 16, 17, 14, 15]
    | 2 => some [12, 13, 16, 17, 4, 5, 10, 11]
    | 3 => some [16, 17, 14, 15, 10, 11, 6, 7]
    | _ => none
  subShape := fun s => if s < 4 then some (.cube) else none
  newNodes := [![-1, 0, -1], ![-1, 0, 1], ![-1, -1, 0], ![-1, 1, 0], ![-1, 0, 0], ![1, 0, -1], ![1, 0, 1], ![1, -1, 0], ![1, 1, 0], ![1, 0, 0]]
  faceMaps := [.square2, .square2, .square3, .square3, .square2, .square2]
  faceNodes := fun f => match f with
    | 0 => some [0, 1, 2, 3, 8, 13]
    | 1 => some [0, 1, 4, 5, 10, 15]
    | 2 => some [0, 2, 4, 6, 8, 10, 11, 9, 12]
    | 3 => some [1, 3, 5, 7, 13, 15, 16, 14, 17]
    | 4 => some [2, 3, 6, 7, 11, 16]
    | 5 => some [4, 5, 6, 7, 9, 14]
    | _ => none
  subFace := fun f j => match f with
    | 0 => some (j, 0)
    | 1 => some (j * 2, 1)
    | 2 => some (j, 2)
    | 3 => some (j, 3)
    | 4 => some (j * 2 + 1, 4)
    | 5 => some (j + 2, 5)
    | _ => none

/-- RefinementMapsForCube.h:1472-1718, "8way split". -/
noncomputable def cube7 : Table 3 where
  shape := .cube
  transform := fun s p => match s with
    | 0 => some (![(p 0 - 1) / 2, (p 1 - 1) / 2, (p 2 - 1) / 2])
    | 1 => some (![(p 0 + 1) / 2, (p 1 - 1) / 2, (p 2 - 1) / 2])
    | 2 => some (![(p 0 - 1) / 2, (p 1 + 1) / 2, (p 2 - 1) / 2])
    | 3 => some (![(p 0 + 1) / 2, (p 1 + 1) / 2, (p 2 - 1) / 2])
    | 4 => some (![(p 0 - 1) / 2, (p 1 - 1) / 2, (p 2 + 1) / 2])
    | 5 => some (![(p 0 + 1) / 2, (p 1 - 1) / 2, (p 2 + 1) / 2])
    | 6 => some (![(p 0 - 1) / 2, (p 1 + 1) / 2, (p 2 + 1) / 2])
    | 7 => some (![(p 0 + 1) / 2, (p 1 + 1) / 2, (p 2 + 1) / 2])
    | _ => none
  left := fun s _ => match s with
    | 0 => some (!![0.5, 0, 0; 0, 0.5, 0; 0, 0, 0.5])
    | 1 => some (!![0.5, 0, 0; 0, 0.5, 0; 0, 0, 0.5])
    | 2 => some (!![0.5, 0, 0; 0, 0.5, 0; 0, 0, 0.5])
    | 3 => some (!![0.5, 0, 0; 0, 0.5, 0; 0, 0, 0.5])
    | 4 => some (!![0.5, 0, 0; 0, 0.5, 0; 0, 0, 0.5])
    | 5 => some (!![0.5, 0, 0; 0, 0.5, 0; 0, 0, 0.5])
    | 6 => some (!![0.5, 0, 0; 0, 0.5, 0; 0, 0, 0.5])
    | 7 => some (!![0.5, 0, 0; 0, 0.5, 0; 0, 0, 0.5])
    | _ => none
  right := fun s _ => match s with
    | 0 => some (!![2, 0, 0; 0, 2, 0; 0, 0, 2])
    | 1 => some (!![2, 0, 0; 0, 2, 0; 0, 0, 2])
    | 2 => some (!![2, 0, 0; 0, 2, 0; 0, 0, 2])
    | 3 => some (!![2, 0, 0; 0, 2, 0; 0, 0, 2])
    | 4 => some (!![2, 0, 0; 0, 2, 0; 0, 0, 2])
    | 5 => some (!![2, 0, 0; 0, 2, 0; 0, 0, 2])
    | 6 => some (!![2, 0, 0; 0, 2, 0; 0, 0, 2])
    | 7 => some (!![2, 0, 0; 0, 2, 0; 0, 0, 2])
    | _ => none
  numNew := 19
  numSubs := 8
  subNodes := fun s => match s with
    | 0 => some [0, 8, 12, 20, 16, 22, 24, 26]
    | 1 => some [8, 1, 20, 13, 22, 17, 26, 25]
    | 2 => some [12, 20, 2, 9, 24, 26, 18, 23]
    | 3 => some [20, 13, 9, 3, 26, 25, 23, 19]
    | 4 => some [16, 22, 24, 26, 4, 10, 14, 21]
    | 5 => some [22, 17, 26, 25, 10, 5, 21, 15]
    | 6 => some [24, 26, 18, 23, 14, 21, 6, 11]
    | 7 => some [26, 25, 23, 19, 21, 15, 11, 7]
    | _ => none
  subShape := fun s => if s < 8 then some (.cube) else none
  newNodes := [![0, -1, -1], ![0, 1, -1], ![0, -1, 1], ![0, 1, 1], ![-1, 0, -1], ![1, 0, -1], ![-1, 0, 1], ![1, 0, 1], ![-1, -1, 0], ![1, -1, 0], ![-1, 1, 0], ![1, 1, 0], ![-1, 0, 0], ![1, 0, 0], ![0, -1, 0], ![0, 1, 0], ![0, 0, -1], ![0, 0, 1], ![0, 0, 0]]
  faceMaps := [.square3, .square3, .square3, .square3, .square3, .square3]
  faceNodes := fun f => match f with
    | 0 => some [0, 1, 2, 3, 8, 12, 13, 9, 24]
    | 1 => some [0, 1, 4, 5, 8, 16, 17, 10, 22]
    | 2 => some [0, 2, 4, 6, 16, 12, 14, 18, 20]
    | 3 => some [1, 3, 5, 7, 17, 13, 15, 19, 21]
    | 4 => some [2, 3, 6, 7, 18, 9, 11, 19, 23]
    | 5 => some [4, 5, 6, 7, 10, 14, 15, 11, 25]
    | _ => none
  subFace := fun f j => match f with
    | 0 => some (j, 0)
    | 1 => some (j + 2 * (j / 2), 1)
    | 2 => some (j * 2, 2)
    | 3 => some (j * 2 + 1, 3)
    | 4 => some (j + 2 * (j / 2) + 2, 4)
    | 5 => some (j + 4, 5)
    | _ => none

/-- RefinementMapsForTetrahedron.h:66-180, "Identity map". -/
noncomputable def tetrahedron0 : Table 3 where
  shape := .tetrahedron
  transform := fun s p => if s < 1 then some (p) else none
  left := fun s _ => if s < 1 then some (!![1, 0, 0; 0, 1, 0; 0, 0, 1]) else none
  right := fun s _ => if s < 1 then some (!![1, 0, 0; 0, 1, 0; 0, 0, 1]) else none
  numNew := 0
  numSubs := 1
  subNodes := fun s => if s < 1 then some [0, 1, 2, 3] else none
  subShape := fun s => if s < 1 then some (.tetrahedron) else none
  newNodes := []
  faceMaps := [.triangle0, .triangle0, .triangle0, .triangle0]
  faceNodes := fun f => match f with
    | 0 => some [0, 3, 2]
    | 1 => some [0, 1, 3]
    | 2 => some [0, 2, 1]
    | 3 => some [1, 2, 3]
    | _ => none
  subFace := fun f _ => if f < 4 then some (0, f) else none

/-- RefinementMapsForPyramid.h:69-186, "Identity map". -/
noncomputable def pyramid0 : Table 3 where
  shape := .pyramid
  transform := fun s p => if s < 1 then some (p) else none
  left := fun s _ => if s < 1 then some (!![1, 0, 0; 0, 1, 0; 0, 0, 1]) else none
  right := fun s _ => if s < 1 then some (!![1, 0, 0; 0, 1, 0; 0, 0, 1]) else none
  numNew := 0
  numSubs := 1
  subNodes := fun s => if s < 1 then some [0, 1, 2, 3, 4] else none
  subShape := fun s => if s < 1 then some (.pyramid) else none
  newNodes := []
  faceMaps := [.square0, .triangle0, .triangle0, .triangle0, .triangle0]
  faceNodes := fun f => match f with
    | 0 => some [3, 4, 1, 2]
    | 1 => some [3, 1, 0]
    | 2 => some [2, 4, 0]
    | 3 => some [1, 2, 0]
    | 4 => some [4, 3, 0]
    | _ => none
  subFace := fun f _ => if f < 5 then some (0, f) else none

/-- RefinementMapsForTriangularPrism.h:175-292, "Identity map". -/
noncomputable def prism0 : Table 3 where
  shape := .prism
  transform := fun s p => if s < 1 then some (p) else none
  left := fun s _ => if s < 1 then some (!![1, 0, 0; 0, 1, 0; 0, 0, 1]) else none
  right := fun s _ => if s < 1 then some (!![1, 0, 0; 0, 1, 0; 0, 0, 1]) else none
  numNew := 0
  numSubs := 1
  subNodes := fun s => if s < 1 then some [0, 1, 2, 3, 4, 5] else none
  subShape := fun s => if s < 1 then some (.prism) else none
  newNodes := []
  faceMaps := [.triangle0, .triangle0, .square0, .square0, .square0]
  faceNodes := fun f => match f with
    | 0 => some [0, 2, 1]
    | 1 => some [3, 4, 5]
    | 2 => some [2, 0, 5, 3]
    | 3 => some [0, 1, 3, 4]
    | 4 => some [1, 2, 4, 5]
    | _ => none
  subFace := fun f _ => if f < 5 then some (0, f) else none

/-- RefinementMapsForTriangularPrism.h:300-434, "split in 2". -/
noncomputable def prism1 : Table 3 where
  shape := .prism
  transform := fun s p => if s < 2 then some (![(p 0 + s) / 2, p 1, p 2]) else none
  left := fun s _ => if s < 2 then some (!![0.5, 0, 0; 0, 1, 0; 0, 0, 1]) else none
  right := fun s _ => if s < 2 then some (!![2, 0, 0; 0, 1, 0; 0, 0, 1]) else none
  numNew := 2
  numSubs := 2
  subNodes := fun s => match s with
    | 0 => some [0, 6, 2, 3, 7, 5]
    | 1 => some [6, 1, 2, 7, 4, 5]
    | _ => none
  subShape := fun s => if s < 2 then some (.prism) else none
  newNodes := [![0.5, 0, -1], ![0.5, 0, 1]]
  faceMaps := [.triangle2, .triangle1, .square0, .square1, .square0]
  faceNodes := fun f => match f with
    | 0 => some [0, 2, 1, 6]
    | 1 => some [3, 4, 5, 7]
    | 2 => some [2, 0, 5, 3]
    | 3 => some [0, 1, 3, 4, 6, 7]
    | 4 => some [1, 2, 4, 5]
    | _ => none
  subFace := fun f j => match f with
    | 0 => some (j, 0)
    | 1 => some (j, 1)
    | 2 => some (0, 2)
    | 3 => some (j, 3)
    | 4 => some (1, 4)
    | _ => none

/-- RefinementMapsForTriangularPrism.h:442-576, "split in 2". -/
noncomputable def prism2 : Table 3 where
  shape := .prism
  transform := fun s p => if s < 2 then some (![p 0, (p 1 + s) / 2, p 2]) else none
  left := fun s _ => if s < 2 then some (!![1, 0, 0; 0, 0.5, 0; 0, 0, 1]) else none
  right := fun s _ => if s < 2 then some (!![1, 0, 0; 0, 2, 0; 0, 0, 1]) else none
  numNew := 2
  numSubs := 2
  subNodes := fun s => match s with
    | 0 => some [0, 1, 6, 3, 4, 7]
    | 1 => some [6, 1, 2, 7, 4, 5]
    | _ => none
  subShape := fun s => if s < 2 then some (.prism) else none
  newNodes := [![0, 0.5, -1], ![0, 0.5, 1]]
  faceMaps := [.triangle1, .triangle2, .square1, .square0, .square0]
  faceNodes := fun f => match f with
    | 0 => some [0, 2, 1, 6]
    | 1 => some [3, 4, 5, 7]
    | 2 => some [2, 0, 5, 3, 6, 7]
    | 3 => some [0, 1, 3, 4]
    | 4 => some [1, 2, 4, 5]
    | _ => none
  subFace := fun f j => match f with
    | 0 => some (j, 0)
    | 1 => some (j, 1)
    | 2 => some (j, 2)
    | 3 => some (0, 3)
    | 4 => some (1, 4)
    | _ => none

/-- RefinementMapsForTriangularPrism.h:584-731, "split in 2". -/
noncomputable def prism3 : Table 3 where
  shape := .prism
  transform := fun s p => match s with
    | 0 => some (![0.5 * p 0, 0.5 * p 0 + p 1, p 2])
    | 1 => some (![p 0 + 0.5 * p 1, 0.5 * p 1, p 2])
    | _ => none
  left := fun s _ => match s with
    | 0 => some (!![0.5, 0, 0; 0.5, 1, 0; 0, 0, 1])
    | 1 => some (!![1, 0.5, 0; 0, 0.5, 0; 0, 0, 1])
    | _ => none
  right := fun s _ => match s with
    | 0 => some (!![2, 0, 0; -1, 1, 0; 0, 0, 1])
    | 1 => some (!![1, -1, 0; 0, 2, 0; 0, 0, 1])
    | _ => none
  numNew := 2
  numSubs := 2
  subNodes := fun s => match s with
    | 0 => some [0, 6, 2, 3, 7, 5]
    | 1 => some [0, 1, 6, 3, 4, 7]
    | _ => none
  subShape := fun s => if s < 2 then some (.prism) else none
  newNodes := [![0.5, 0.5, -1], ![0.5, 0.5, 1]]
  faceMaps := [.triangle3, .triangle3, .square0, .square0, .square1]
  faceNodes := fun f => match f with
    | 0 => some [0, 2, 1, 6]
    | 1 => some [3, 4, 5, 7]
    | 2 => some [2, 0, 5, 3]
    | 3 => some [0, 1, 3, 4]
    | 4 => some [1, 2, 4, 5, 6, 7]
    | _ => none
  subFace := fun f j => match f with
    | 0 => some (j, 0)
    | 1 => some (j, 1)
    | 2 => some (0, 2)
    | 3 => some (1, 3)
    | 4 => some (j, 4)
    | _ => none

/-- RefinementMapsForTriangularPrism.h:739-945, "split in 4". -/
noncomputable def prism4 : Table 3 where
  shape := .prism
  transform := fun s p => match s with
    | 0 => some (![0.5 * p 0, 0.5 * p 1, p 2])
    | 1 => some (![0.5 + 0.5 * p 0, 0.5 * p 1, p 2])
    | 2 => some (![0.5 * p 0, 0.5 + 0.5 * p 1, p 2])
    | 3 => some (![0.5 - 0.5 * p 0, 0.5 - 0.5 * p 1, p 2])
    | _ => none
  left := fun s _ => match s with
    | 0 => some (!![0.5, 0, 0; 0, 0.5, 0; 0, 0, 1])
    | 1 => some (!![0.5, 0, 0; 0, 0.5, 0; 0, 0, 1])
    | 2 => some (!![0.5, 0, 0; 0, 0.5, 0; 0, 0, 1])
    | 3 => some (!![-0.5, 0, 0; 0, -0.5, 0; 0, 0, 1])
    | _ => none
  right := fun s _ => match s with
    | 0 => some (!![2, 0, 0; 0, 2, 0; 0, 0, 1])
    | 1 => some (!![2, 0, 0; 0, 2, 0; 0, 0, 1])
    | 2 => some (!![2, 0, 0; 0, 2, 0; 0, 0, 1])
    | 3 => some (!![-2, 0, 0; 0, -2, 0; 0, 0, 1])
    | _ => none
  numNew := 6
  numSubs := 4
  subNodes := fun s => match s with
    | 0 => some [0, 6, 7, 3, 9, 10]
    | 1 => some [6, 1, 8, 9, 4, 11]
    | 2 => some [7, 8, 2, 10, 11, 5]
    | 3 => some [8, 7, 6, 11, 10, 9]
    | _ => none
  subShape := fun s => if s < 4 then some (.prism) else none
  newNodes := [![0.5, 0, -1], ![0, 0.5, -1], ![0.5, 0.5, -1], ![0.5, 0, 1], ![0, 0.5, 1], ![0.5, 0.5, 1]]
  faceMaps := [.triangle4, .triangle4, .square1, .square1, .square1]
  faceNodes := fun f => match f with
    | 0 => some [0, 2, 1, 7, 6, 8]
    | 1 => some [3, 4, 5, 9, 10, 11]
    | 2 => some [2, 0, 5, 3, 7, 10]
    | 3 => some [0, 1, 3, 4, 6, 9]
    | 4 => some [1, 2, 4, 5, 8, 11]
    | _ => none
  subFace := fun f j => match f with
    | 0 => some (j, 0)
    | 1 => some (j, 1)
    | 2 => (triangle4.subFace 1 j).map fun r => (r.1, r.2 + 2)
    | 3 => (triangle4.subFace 0 j).map fun r => (r.1, r.2 + 2)
    | 4 => (triangle4.subFace 2 j).map fun r => (r.1, r.2 + 2)
    | _ => none

/-- RefinementMapsForTriangularPrism.h:953-1116, "split in 2". -/
noncomputable def prism5 : Table 3 where
  shape := .prism
  transform := fun s p => match s with
    | 0 => some (![p 0, p 1, 0.5 * p 2 - 0.5])
    | 1 => some (![p 0, p 1, 0.5 * p 2 + 0.5])
    | _ => none
  left := fun s _ => match s with
    | 0 => some (!![1, 0, 0; 0, 1, 0; 0, 0, 0.5])
    | 1 => some (!![1, 0, 0; 0, 1, 0; 0, 0, 0.5])
    | _ => none
  right := fun s _ => match s with
    | 0 => some (!![1, 0, 0; 0, 1, 0; 0, 0, 2])
    | 1 => some (!![1, 0, 0; 0, 1, 0; 0, 0, 2])
    | _ => none
  numNew := 3
  numSubs := 2
  subNodes := fun s => match s with
    | 0 => some [0, 1, 2, 6, 7, 8]
    | 1 => some [6, 7, 8, 3, 4, 5]
    | _ => none
  subShape := fun s => if s < 2 then some (.prism) else none
  newNodes := [![0, 0, 0], ![0, 1, 0], ![1, 0, 0]]
  faceMaps := [.triangle0, .triangle0, .square2, .square2, .square2]
  faceNodes := fun f => match f with
    | 0 => some [0, 2, 1]
    | 1 => some [3, 4, 5]
    | 2 => some [2, 0, 5, 3, 8, 6]
    | 3 => some [0, 1, 3, 4, 6, 7]
    | 4 => some [1, 2, 4, 5, 7, 8]
    | _ => none
  subFace := fun f j => match f with
    | 0 => some (0, 0)
    | 1 => some (1, 1)
    | 2 => some (j, 2)
    | 3 => some (j, 3)
    | 4 => some (j, 4)
    | _ => none

/-- RefinementMapsForTriangularPrism.h:1124-1337, "split in 3". -/
noncomputable def prism6 : Table 3 where
  shape := .prism
  transform := fun s p => match s with
    | 0 => some (![(p 1 + 1) * (5 + p 0) / 24, (1 - p 0) * (5 - p 1) / 24, p 2])
    | 1 => some (![((p 0 + 2) * (2 - p 1) + 3) / 12, (p 1 + 1) * (5 + p 0) / 24, p 2])
    | 2 => some (![(1 - p 0) * (5 - p 1) / 24, ((p 0 + 2) * (2 - p 1) + 3) / 12, p 2])
    | _ => none
  left := fun s p => match s with
    | 0 => some (!![(p 1 + 1) / 24, (p 0 + 5) / 24, 0; (p 1 - 5) / 24, (p 0 - 1) / 24, 0; 0, 0, 1])
    | 1 => some (!![(2 - p 1) / 12, -(p 0 + 2) / 12, 0; (p 1 + 1) / 24, (p 0 + 5) / 24, 0; 0, 0, 1])
    | 2 => some (!![(p 1 - 5) / 24, (p 0 - 1) / 24, 0; (2 - p 1) / 12, -(p 0 + 2) / 12, 0; 0, 0, 1])
    | _ => none
  right := fun s p => match s with
    | 0 => some (!![(p 0 - 1) * 4 / (p 0 - p 1 + 4), -(p 0 + 5) * 4 / (p 0 - p 1 + 4), 0; (5 - p 1) * 4 / (p 0 - p 1 + 4), (p 1 + 1) * 4 / (p 0 - p 1 + 4), 0; 0, 0, 1])
    | 1 => some (!![(p 0 + 5) * 4 / (p 0 - p 1 + 4), (2 * p 0 + 4) * 4 / (p 0 - p 1 + 4), 0; -(p 1 + 1) * 4 / (p 0 - p 1 + 4), (4 - 2 * p 1) * 4 / (p 0 - p 1 + 4), 0; 0, 0, 1])
    | 2 => some (!![-(2 * p 0 + 4) * 4 / (p 0 - p 1 + 4), (1 - p 0) * 4 / (p 0 - p 1 + 4), 0; (2 * p 1 - 4) * 4 / (p 0 - p 1 + 4), (p 1 - 5) * 4 / (p 0 - p 1 + 4), 0; 0, 0, 1])
    | _ => none
  numNew := 8
  numSubs := 3
  subNodes := fun s => match s with
    | 0 => some [7, 0, 9, 6, 11, 3, 13, 10]
    | 1 => some [6, 1, 9, 8, 10, 4, 13, 12]
    | 2 => some [8, 2, 9, 7, 12, 5, 13, 11]
    | _ => none
  subShape := fun s => if s < 3 then some (.cube) else none
  newNodes := [![0.5, 0, -1], ![0, 0.5, -1], ![0.5, 0.5, -1], ![1 / 3, 1 / 3, -1], ![0.5, 0, 1], ![0, 0.5, 1], ![0.5, 0.5, 1], ![1 / 3, 1 / 3, 1]]
  faceMaps := [.triangle5, .triangle5, .square1, .square1, .square1]
  faceNodes := fun f => match f with
    | 0 => some [0, 2, 1, 7, 6, 8, 9]
    | 1 => some [3, 4, 5, 10, 11, 12, 13]
    | 2 => some [2, 0, 5, 3, 7, 11]
    | 3 => some [0, 1, 3, 4, 6, 10]
    | 4 => some [1, 2, 4, 5, 8, 12]
    | _ => none
  subFace := fun f j => match f with
    | 0 => some (j, 0)
    | 1 => some (j, 1)
    | 2 => (triangle5.subFace 1 j).map fun r => (r.1, r.2 + 2)
    | 3 => (triangle5.subFace 0 j).map fun r => (r.1, r.2 + 2)
    | 4 => (triangle5.subFace 2 j).map fun r => (r.1, r.2 + 2)
    | _ => none

/-- RefinementMapsForTriangularPrism.h:1345-1537, "split in a haxahedron and a triangular prism". -/
noncomputable def prism7 : Table 3 where
  shape := .prism
  transform := fun s p => match s with
    | 0 => some (![(1 + p 0) / 4, (p 1 + 1) * (3 - p 0) / 8, p 2])
    | 1 => some (![(1 + p 0) / 2, p 1 / 2, p 2])
    | _ => none
  left := fun s p => match s with
    | 0 => some (!![0.25, 0, 0; -(p 1 + 1) / 8, (3 - p 0) / 8, 0; 0, 0, 1])
    | 1 => some (!![0.5, 0, 0; 0, 0.5, 0; 0, 0, 1])
    | _ => none
  right := fun s p => match s with
    | 0 => some (!![4, 0, 0; (p 1 + 1) * 4 / (3 - p 0), 8 / (3 - p 0), 0; 0, 0, 1])
    | 1 => some (!![2, 0, 0; 0, 2, 0; 0, 0, 1])
    | _ => none
  numNew := 4
  numSubs := 2
  subNodes := fun s => match s with
    | 0 => some [0, 6, 2, 7, 3, 8, 5, 9]
    | 1 => some [6, 1, 7, 8, 4, 9]
    | _ => none
  subShape := fun s => match s with
    | 0 => some (.cube)
    | 1 => some (.prism)
    | _ => none
  newNodes := [![0.5, 0, -1], ![0.5, 0.5, -1], ![0.5, 0, 1], ![0.5, 0.5, 1]]
  faceMaps := [.triangle7, .triangle6, .square0, .square1, .square1]
  faceNodes := fun f => match f with
    | 0 => some [0, 2, 1, 6, 7]
    | 1 => some [3, 4, 5, 8, 9]
    | 2 => some [2, 0, 5, 3]
    | 3 => some [0, 1, 3, 4, 6, 8]
    | 4 => some [1, 2, 4, 5, 7, 9]
    | _ => none
  subFace := fun f j => match f with
    | 0 => some (j, 0)
    | 1 => some (j, 1)
    | 2 => (triangle7.subFace 1 j).map fun r => (r.1, r.2 + 2)
    | 3 => (triangle7.subFace 0 j).map fun r => (r.1, r.2 + 2)
    | 4 => (triangle7.subFace 2 j).map fun r => (r.1, r.2 + 2)
    | _ => none

/-- RefinementMapsForTriangularPrism.h:1545-1737, "split in a haxahedron and a triangular prism". -/
noncomputable def prism8 : Table 3 where
  shape := .prism
  transform := fun s p => match s with
    | 0 => some (![(p 0 + 1) * (3 - p 1) / 8, (1 + p 1) / 4, p 2])
    | 1 => some (![p 0 / 2, (1 + p 1) / 2, p 2])
    | _ => none
  left := fun s p => match s with
    | 0 => some (!![(3 - p 1) / 8, -(p 0 + 1) / 8, 0; 0, 0.25, 0; 0, 0, 1])
    | 1 => some (!![0.5, 0, 0; 0, 0.5, 0; 0, 0, 1])
    | _ => none
  right := fun s p => match s with
    | 0 => some (!![8 / (3 - p 1), (p 0 + 1) * 4 / (3 - p 1), 0; 0, 4, 0; 0, 0, 1])
    | 1 => some (!![2, 0, 0; 0, 2, 0; 0, 0, 1])
    | _ => none
  numNew := 4
  numSubs := 2
  subNodes := fun s => match s with
    | 0 => some [0, 1, 6, 7, 3, 4, 8, 9]
    | 1 => some [6, 7, 2, 8, 9, 5]
    | _ => none
  subShape := fun s => match s with
    | 0 => some (.cube)
    | 1 => some (.prism)
    | _ => none
  newNodes := [![0, 0.5, -1], ![0.5, 0.5, -1], ![0, 0.5, 1], ![0.5, 0.5, 1]]
  faceMaps := [.triangle6, .triangle7, .square1, .square0, .square1]
  faceNodes := fun f => match f with
    | 0 => some [0, 2, 1, 6, 7]
    | 1 => some [3, 4, 5, 8, 9]
    | 2 => some [2, 0, 5, 3, 6, 8]
    | 3 => some [0, 1, 3, 4]
    | 4 => some [1, 2, 4, 5, 7, 9]
    | _ => none
  subFace := fun f j => match f with
    | 0 => some (j, 0)
    | 1 => some (j, 1)
    | 2 => (triangle6.subFace 1 j).map fun r => (r.1, r.2 + 2)
    | 3 => (triangle6.subFace 0 j).map fun r => (r.1, r.2 + 2)
    | 4 => (triangle6.subFace 2 j).map fun r => (r.1, r.2 + 2)
    | _ => none

/-- RefinementMapsForTriangularPrism.h:1745-1938, "split in a haxahedron and a triangular prism". -/
noncomputable def prism9 : Table 3 where
  shape := .prism
  transform := fun s p => match s with
    | 0 => some (![p 0 / 2, p 1 / 2, p 2])
    | 1 => some (![(1 - p 1) * (3 + p 0) / 8, (1 + p 1) * (3 + p 0) / 8, p 2])
    | _ => none
  left := fun s p => match s with
    | 0 => some (!![0.5, 0, 0; 0, 0.5, 0; 0, 0, 1])
    | 1 => some (!![(1 - p 1) / 8, -(3 + p 0) / 8, 0; (1 + p 1) / 8, (3 + p 0) / 8, 0; 0, 0, 1])
    | _ => none
  right := fun s p => match s with
    | 0 => some (!![2, 0, 0; 0, 2, 0; 0, 0, 1])
    | 1 => some (!![4, 4, 0; -(1 + p 1) * 4 / (p 0 + 3), (1 - p 1) * 4 / (p 0 + 3), 0; 0, 0, 1])
    | _ => none
  numNew := 4
  numSubs := 2
  subNodes := fun s => match s with
    | 0 => some [0, 6, 7, 3, 8, 9]
    | 1 => some [6, 1, 7, 2, 8, 4, 9, 5]
    | _ => none
  subShape := fun s => match s with
    | 0 => some (.prism)
    | 1 => some (.cube)
    | _ => none
  newNodes := [![0.5, 0, -1], ![0, 0.5, -1], ![0.5, 0, 1], ![0, 0.5, 1]]
  faceMaps := [.triangle8, .triangle8, .square1, .square1, .square0]
  faceNodes := fun f => match f with
    | 0 => some [0, 2, 1, 7, 6]
    | 1 => some [3, 4, 5, 8, 9]
    | 2 => some [2, 0, 5, 3, 7, 9]
    | 3 => some [0, 1, 3, 4, 6, 8]
    | 4 => some [1, 2, 4, 5]
    | _ => none
  subFace := fun f j => match f with
    | 0 => some (j, 0)
    | 1 => some (j, 1)
    | 2 => (triangle8.subFace 1 j).map fun r => (r.1, r.2 + 2)
    | 3 => (triangle8.subFace 0 j).map fun r => (r.1, r.2 + 2)
    | 4 => (triangle8.subFace 2 j).map fun r => (r.1, r.2 + 2)
    | _ => none

/-- The table of a class: the virtual functions of RefinementMapping.h:57-292 that it overrides. -/
noncomputable def Name.table : {d : Nat} → Name d → Table d
  | _, .point0 => Refine.point0
  | _, .line0 => Refine.line0
  | _, .line1 => Refine.line1
  | _, .square0 => Refine.square0
  | _, .square1 => Refine.square1
  | _, .square2 => Refine.square2
  | _, .square3 => Refine.square3
  | _, .triangle0 => Refine.triangle0
  | _, .triangle1 => Refine.triangle1
  | _, .triangle2 => Refine.triangle2
  | _, .triangle3 => Refine.triangle3
  | _, .triangle4 => Refine.triangle4
  | _, .triangle5 => Refine.triangle5
  | _, .triangle6 => Refine.triangle6
  | _, .triangle7 => Refine.triangle7
  | _, .triangle8 => Refine.triangle8
  | _, .cube0 => Refine.cube0
  | _, .cube1 => Refine.cube1
  | _, .cube2 => Refine.cube2
  | _, .cube3 => Refine.cube3
  | _, .cube4 => Refine.cube4
  | _, .cube5 => Refine.cube5
  | _, .cube6 => Refine.cube6
  | _, .cube7 => Refine.cube7
  | _, .tetrahedron0 => Refine.tetrahedron0
  | _, .pyramid0 => Refine.pyramid0
  | _, .prism0 => Refine.prism0
  | _, .prism1 => Refine.prism1
  | _, .prism2 => Refine.prism2
  | _, .prism3 => Refine.prism3
  | _, .prism4 => Refine.prism4
  | _, .prism5 => Refine.prism5
  | _, .prism6 => Refine.prism6
  | _, .prism7 => Refine.prism7
  | _, .prism8 => Refine.prism8
  | _, .prism9 => Refine.prism9

/-- `getSubElementAndLocalFaceIndex` with its assertions: the face and its part exist. -/
noncomputable def Name.subFace {d : Nat} (n : Name d) (f j : Nat) : Option (Nat × Nat) :=
  (n.table.faceMaps[f]?).bind fun m => if j < m.table.numSubs then n.table.subFace f j else none

section
variable {V : Type*} [AddCommGroup V] [Module ℝ V]

/-- MeshManipulator_Impl.h:1327-1398: the position of node `k` of the refined element, whose own nodes are at `P`. The
first nodes are those of the element; the others are at `referenceToPhysical` of `getNewNodeLocations`. -/
noncomputable def nodeAt {d : Nat} (n : Name d) (P : Nat → V) (k : Nat) : Option V :=
  if k < n.table.shape.corners then some (P k)
  else (n.table.newNodes[k - n.table.shape.corners]?).map (n.table.shape.place P)

/-- MeshManipulator_Impl.h:1402-1416: the positions of the nodes of sub-element `s`. -/
noncomputable def childNodes {d : Nat} (n : Name d) (P : Nat → V) (s : Nat) : Option (List V) :=
  (n.table.subNodes s).bind fun l => l.mapM (nodeAt n P)

/-- MeshManipulator_Impl.h:1402-1416: `referenceToPhysical` of sub-element `s`. `makeElement` finds the shape from the
number of nodes; it is the one of `getSubElementReferenceGeometry` (theorem `tables_fit`). -/
noncomputable def child {d : Nat} (n : Name d) (P : Nat → V) (s : Nat) : Option (Pt d → V) :=
  (n.table.subShape s).bind fun sh => (childNodes n P s).map fun l => sh.place fun i => l.getD i 0

end

end Verif.Refine
