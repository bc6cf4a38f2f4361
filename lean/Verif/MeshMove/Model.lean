import Verif.PhysMap.Model

/-!
# Moving a mesh

`MeshManipulator::move` (`kernel/Base/MeshManipulator_Impl.h` 1155-1168),
`kernel/Base/MeshMoverBase.h`, the `reinit` functions of
`kernel/Geometry/Mappings/MappingToPhys*.cpp`, and the movers of
`applications/SavageHutter/MeshMoverContraction.h` and
`applications/MeshMoverDemo/MeshMover.h`.
-/

namespace Verif.MeshMove

open Verif.RefGeometry (Pt)
open Verif.PhysMap (Kind transform)

/-- The maps that store coefficients in `reinit` (`MappingToPhysHypercubeLinear.cpp`
81-86, 175, 286, 385); the other `reinit` functions are empty, as the coefficients of
`MappingToPhysTriangularPrism.cpp` 174-189 are switched off. -/
def caches : Kind → Bool
  | .line => true
  | .square => true
  | .cube => true
  | .hypercube => true
  | .triangle => false
  | .triangle2 => false
  | .tetrahedron => false
  | .pyramid => false
  | .prism => false
  | .tetrahedron2 => false

section
variable {V : Type*} [AddCommGroup V] [Module ℝ V]

/-- An element: its map, the indices of its nodes and the coordinates from which the
stored coefficients were computed. -/
structure Element (V : Type*) where
  kind : Kind
  nodes : List ℕ
  stored : ℕ → V

/-- A mesh: `theMesh_.getNodeCoordinates()` and the elements. -/
structure Mesh (V : Type*) where
  coords : List V
  elements : List (Element V)

/-- `getLocalNodeCoordinates`; a node that does not exist is the origin. -/
def localNode (coords : List V) (e : Element V) (i : ℕ) : V :=
  coords.getD (e.nodes.getD i coords.length) 0

/-- `Element::referenceToPhysical`. -/
noncomputable def toPhysical (m : Mesh V) (e : Element V) (x : Pt e.kind.dim) : V :=
  if caches e.kind then transform e.kind e.stored x
  else transform e.kind (localNode m.coords e) x

/-- `MeshManipulator::move`, lines 1155-1162; `none`: no mover is set. -/
def move (mover : Option (V → V)) (m : Mesh V) : Mesh V :=
  match mover with
  | some f => { m with coords := m.coords.map f }
  | none => m

/-- `getReferenceToPhysicalMap()->reinit()` for one element. -/
def reinit (coords : List V) (e : Element V) : Element V :=
  { e with stored := localNode coords e }

/-- The loop over all elements behind `move`, `SavageHutter2DBasic.cpp` 88-91. -/
def reinitAll (m : Mesh V) : Mesh V :=
  { m with elements := m.elements.map (reinit m.coords) }

end

/-- The members of `MeshMoverContraction`. -/
structure Contraction where
  xBegin : ℝ
  xMiddle : ℝ
  xEnd : ℝ
  contractionWidth : ℝ

/-- `MeshMoverContraction::movePoint`, lines 57-77. -/
noncomputable def Contraction.movePoint (c : Contraction) (point : Pt 2) : Pt 2 :=
  let lengthFirst := c.xMiddle - c.xBegin
  let lengthSecond := c.xEnd - c.xMiddle
  let indentationWidth := (1 - c.contractionWidth) / 2
  let y := point 1
  let y :=
    if point 0 ≥ c.xBegin ∧ point 0 < c.xMiddle then
      (indentationWidth + y * c.contractionWidth) -
        (y - (indentationWidth + y * c.contractionWidth)) * ((point 0 - c.xMiddle) / lengthFirst)
    else y
  let y :=
    if point 0 ≥ c.xMiddle ∧ point 0 ≤ c.xEnd then
      (indentationWidth + y * c.contractionWidth) +
        (y - (indentationWidth + y * c.contractionWidth)) * ((point 0 - c.xMiddle) / lengthSecond)
    else y
  ![point 0, y]

/-- `MeshMover::movePoint` of the demo, lines 56-61. -/
noncomputable def demoMover (point : Pt 2) : Pt 2 :=
  ![point 0, point 1 * (point 0 + 1 / 2)]

/-- `MeshMoverExampleProblem::solve`, `MeshMoverDemo.cpp` 111: the mesh is moved, no
element is told. -/
noncomputable def demoSolve (m : Mesh (Pt 2)) : Mesh (Pt 2) := move (some demoMover) m

end Verif.MeshMove
