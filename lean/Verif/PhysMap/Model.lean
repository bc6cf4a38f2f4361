import Verif.RefGeometry.Model
import Verif.Lattice.Model
import Mathlib.LinearAlgebra.Matrix.NonsingularInverse
import Mathlib.Algebra.Module.Pi

/-!
# Model of the maps from reference elements to physical elements

kernel/Geometry/Mappings/MappingToPhys*.{h,cpp} and the choice between them in
kernel/Geometry/ElementGeometry.h. `double` is `ℝ` and arithmetic is exact. `p i` is
`geometry_->getLocalNodeCoordinates(i)`. The values of `transform` are in any real vector space `V`,
because the code works on all coordinates alike; the maps of the code have `V = Pt d`.
`reinit` is called by the constructor and has to be called when nodes move; the coefficients it
stores are recomputed here from the nodes.
-/
namespace Verif.PhysMap
open Verif.RefGeometry (Pt)
open Matrix

/-- The mappings that ElementGeometry.h:215-288 creates. -/
inductive Kind where
  | line | triangle | square | triangle2 | tetrahedron | pyramid | prism | cube | tetrahedron2 | hypercube
deriving DecidableEq

namespace Kind

/-- The dimension of the element. -/
abbrev dim : Kind → Nat
  | line => 1
  | triangle => 2
  | square => 2
  | triangle2 => 2
  | tetrahedron => 3
  | pyramid => 3
  | prism => 3
  | cube => 3
  | tetrahedron2 => 3
  | hypercube => 4

/-- ReferenceGeometryFactory.cpp:60-180: the nodes of the reference element of the same number of
nodes. -/
noncomputable def nodes : (k : Kind) → List (Pt k.dim)
  | line => RefGeometry.lineG.nodes
  | triangle => RefGeometry.triangleG.nodes
  | square => RefGeometry.squareG.nodes
  | triangle2 => Lattice.curvedTriangle 2
  | tetrahedron => RefGeometry.tetrahedronG.nodes
  | pyramid => RefGeometry.pyramidG.nodes
  | prism => RefGeometry.prismG.nodes
  | cube => RefGeometry.cubeG.nodes
  | tetrahedron2 => Lattice.curvedTetrahedron 2
  | hypercube => RefGeometry.hypercubeG.nodes

end Kind

/-- ElementGeometry.h:215-288 `createMappings`, by dimension and number of nodes; the fatal errors and
the failing debug assertions are `none`. -/
def createMappings (dim size : Nat) : Option Kind :=
  match dim with
  | 1 => if size = 2 then some .line else none
  | 2 => if size = 3 then some .triangle else if size = 4 then some .square
         else if size = 6 then some .triangle2 else none
  | 3 => if size = 4 then some .tetrahedron else if size = 5 then some .pyramid
         else if size = 6 then some .prism else if size = 8 then some .cube
         else if size = 10 then some .tetrahedron2 else none
  | 4 => if size = 16 then some .hypercube else none
  | _ => none

section
variable {V : Type*} [AddCommGroup V] [Module ℝ V]

/-! ### Lines, squares, cubes -/

/-- MappingToPhysHypercubeLinear.cpp:81-86 -/
noncomputable def mid (p : Nat → V) : V := (0.5 : ℝ) • (p 1 + p 0)
/-- MappingToPhysHypercubeLinear.cpp:81-86 -/
noncomputable def slope (p : Nat → V) : V := (0.5 : ℝ) • (p 1 - p 0)

/-- MappingToPhysHypercubeLinear.cpp:62-74; the warning is not modelled. -/
noncomputable def line (p : Nat → V) (x : Pt 1) : V := mid p + x 0 • slope p

/-- MappingToPhysHypercubeLinear.h: the members of the two-dimensional map. -/
structure Coeffs2 (V : Type*) where
  a0 : V
  a1 : V
  a2 : V
  a12 : V

/-- MappingToPhysHypercubeLinear.cpp:175-201 `reinit`, statement by statement. -/
noncomputable def reinit2 (p : Nat → V) : Coeffs2 V :=
  let a0 := p 0
  let a1 := p 1
  let a2 := p 2
  let temp := p 3
  let a0 := a0 + temp
  let a12 := a1
  let a12 := a12 + a2
  let a12 := a12 - a0
  let a12 := (-0.25 : ℝ) • a12
  let a0 := a0 + a1
  let a0 := a0 + a2
  let a1 := a1 + temp
  let a2 := a2 + temp
  let a1 := a1 + (-0.5 : ℝ) • a0
  let a2 := a2 + (-0.5 : ℝ) • a0
  let a0 := (0.25 : ℝ) • a0
  let a1 := (0.5 : ℝ) • a1
  let a2 := (0.5 : ℝ) • a2
  ⟨a0, a1, a2, a12⟩

/-- MappingToPhysHypercubeLinear.cpp:113-140; both branches do the same. -/
noncomputable def square (p : Nat → V) (x : Pt 2) : V :=
  let c := reinit2 p
  x 1 • (c.a2 + x 0 • c.a12) + c.a0 + x 0 • c.a1

/-- MappingToPhysHypercubeLinear.cpp:163-173: the columns of the Jacobian. -/
noncomputable def squareCols (p : Nat → V) (x : Pt 2) : Fin 2 → V :=
  let c := reinit2 p
  ![c.a1 + x 1 • c.a12, c.a2 + x 0 • c.a12]

/-- MappingToPhysHypercubeLinear.h: the members of the three-dimensional map. -/
structure Coeffs3 (V : Type*) where
  a0 : V
  a1 : V
  a2 : V
  a3 : V
  a12 : V
  a13 : V
  a23 : V
  a123 : V

/-- MappingToPhysHypercubeLinear.cpp:286-304 `reinit` -/
noncomputable def reinit3 (p : Nat → V) : Coeffs3 V where
  a0 := (0.125 : ℝ) • (p 0 + p 1 + p 2 + p 3 + p 4 + p 5 + p 6 + p 7)
  a1 := (0.125 : ℝ) • (p 1 - p 0 + p 3 - p 2 + p 5 - p 4 + p 7 - p 6)
  a2 := (0.125 : ℝ) • (p 2 - p 0 + p 3 - p 1 + p 6 - p 4 + p 7 - p 5)
  a3 := (0.125 : ℝ) • (p 4 - p 0 + p 5 - p 1 + p 6 - p 2 + p 7 - p 3)
  a12 := (0.125 : ℝ) • (p 0 - p 1 + p 3 - p 2 + p 4 - p 5 + p 7 - p 6)
  a13 := (0.125 : ℝ) • (p 0 - p 1 + p 2 - p 3 + p 5 - p 4 + p 7 - p 6)
  a23 := (0.125 : ℝ) • (p 0 - p 2 + p 1 - p 3 + p 6 - p 4 + p 7 - p 5)
  a123 := (0.125 : ℝ) • (p 1 - p 0 + p 2 - p 3 + p 4 - p 5 + p 7 - p 6)

/-- MappingToPhysHypercubeLinear.cpp:222-231; both branches do the same. -/
noncomputable def cube (p : Nat → V) (x : Pt 3) : V :=
  let c := reinit3 p
  c.a0 + x 0 • (c.a1 + x 1 • (c.a12 + x 2 • c.a123) + x 2 • c.a13) + x 1 • (c.a2 + x 2 • c.a23) + x 2 • c.a3

/-- MappingToPhysHypercubeLinear.cpp:254-284: the columns of the Jacobian. -/
noncomputable def cubeCols (p : Nat → V) (x : Pt 3) : Fin 3 → V :=
  let c := reinit3 p
  ![c.a1 + x 1 • c.a12 + x 2 • c.a13 + (x 1 * x 2) • c.a123,
    c.a2 + x 0 • c.a12 + x 2 • c.a23 + (x 0 * x 2) • c.a123,
    c.a3 + x 0 • c.a13 + x 1 • c.a23 + (x 0 * x 1) • c.a123]

/-- MappingToPhysHypercubeLinear.h: the members of the four-dimensional map. -/
structure Coeffs4 (V : Type*) where
  abar : V
  a0 : V
  a1 : V
  a2 : V
  a3 : V

/-- MappingToPhysHypercubeLinear.cpp:385-407 `reinit` -/
noncomputable def reinit4 (p : Nat → V) : Coeffs4 V where
  abar := (0.0625 : ℝ) • (p 0 + p 1 + p 2 + p 3 + p 4 + p 5 + p 6 + p 7 + p 8 +
    p 9 + p 10 + p 11 + p 12 + p 13 + p 14 + p 15)
  a0 := (0.0625 : ℝ) • (-p 0 + p 1 - p 2 + p 3 - p 4 + p 5 - p 6 + p 7 -
    p 8 + p 9 - p 10 + p 11 - p 12 + p 13 - p 14 + p 15)
  a1 := (0.0625 : ℝ) • (-p 0 - p 1 + p 2 + p 3 - p 4 - p 5 + p 6 + p 7 -
    p 8 - p 9 + p 10 + p 11 - p 12 - p 13 + p 14 + p 15)
  a2 := (0.0625 : ℝ) • (-p 0 - p 1 - p 2 - p 3 + p 4 + p 5 + p 6 + p 7 -
    p 8 - p 9 - p 10 - p 11 + p 12 + p 13 + p 14 + p 15)
  a3 := (0.0625 : ℝ) • (-p 0 - p 1 - p 2 - p 3 - p 4 - p 5 - p 6 - p 7 +
    p 8 + p 9 + p 10 + p 11 + p 12 + p 13 + p 14 + p 15)

/-- MappingToPhysHypercubeLinear.cpp:328-333 -/
noncomputable def hypercube (p : Nat → V) (x : Pt 4) : V :=
  let c := reinit4 p
  c.abar + x 0 • c.a0 + x 1 • c.a1 + x 2 • c.a2 + x 3 • c.a3

/-- MappingToPhysHypercubeLinear.cpp:356-383 -/
noncomputable def hypercubeCols (p : Nat → V) (_ : Pt 4) : Fin 4 → V :=
  let c := reinit4 p
  ![c.a0, c.a1, c.a2, c.a3]

/-! ### Simplices -/

/-- MappingToPhysSimplexLinear_Impl.h:49-64, the loop, for the first `n` coordinates. -/
noncomputable def simplexLoop {d : Nat} (p : Nat → V) (x : Pt d) : Nat → V
  | 0 => p 0
  | i + 1 => simplexLoop p x i + (if h : i < d then x ⟨i, h⟩ else 0) • (p (i + 1) - p 0)

/-- MappingToPhysSimplexLinear_Impl.h:49-64 -/
noncomputable def simplex {d : Nat} (p : Nat → V) (x : Pt d) : V := simplexLoop p x d

/-- MappingToPhysSimplexLinear_Impl.h:78-96: the columns of the Jacobian. -/
def simplexCols {d : Nat} (p : Nat → V) (_ : Pt d) : Fin d → V := fun i => p (i + 1) - p 0

/-! ### Maps given by weights -/

/-- The loop `result += weights[i] * p_i`, which starts from zero, as in MappingToPhysPyramid.cpp:78-82. -/
noncomputable def weigh (w : List ℝ) (p : Nat → V) : V :=
  w.zipIdx.foldl (fun s a => s + a.1 • p a.2) 0

/-- MappingToPhysPyramid.cpp:63-66, the denominator `1 - z + 1e-50`. For a double `z` other than one the
difference `1 - z` is at least `2^-53` in absolute value, and adding `1e-50` does not change it. -/
noncomputable def tipDenominator (z : ℝ) : ℝ := if z = 1 then 1e-50 else 1 - z

/-- MappingToPhysPyramid.cpp:57-76, the weights. -/
noncomputable def pyramidWeights (x : Pt 3) : List ℝ :=
  let t1 := x 0 * x 1
  let t2 := x 0 * x 1 * x 2 / tipDenominator (x 2)
  [x 2,
   0.25 * (1 - x 0 - x 1 + t1 - x 2 + t2),
   0.25 * (1 + x 0 - x 1 - t1 - x 2 - t2),
   0.25 * (1 - x 0 + x 1 - t1 - x 2 - t2),
   0.25 * (1 + x 0 + x 1 + t1 - x 2 + t2)]

/-- MappingToPhysPyramid.cpp:57-84 -/
noncomputable def pyramid (p : Nat → V) (x : Pt 3) : V := weigh (pyramidWeights x) p

/-- MappingToPhysPyramid.cpp:115-117: the condition under which the Jacobian is that of a point below. -/
def NearTip (x : Pt 3) : Prop := |x 2 - 1| + |x 0| + |x 1| < 1e-14

open Classical in
/-- MappingToPhysPyramid.cpp:115-117 -/
noncomputable def awayFromTip (x : Pt 3) : Pt 3 := if NearTip x then ![x 0, x 1, x 2 - 1e-10] else x

/-- MappingToPhysPyramid.cpp:119-139: the derivatives of the weights. -/
noncomputable def pyramidDerivs (x : Pt 3) : Fin 3 → List ℝ :=
  let dt6dx0 := x 1 * x 2 / (1 - x 2)
  let dt6dx1 := x 0 * x 2 / (1 - x 2)
  let dt6dx2 := x 0 * x 1 / ((1 - x 2) * (1 - x 2))
  ![[0, 0.25 * (-1 + x 1 + dt6dx0), 0.25 * (1 - x 1 - dt6dx0), 0.25 * (-1 - x 1 - dt6dx0),
      0.25 * (1 + x 1 + dt6dx0)],
    [0, 0.25 * (-1 + x 0 + dt6dx1), 0.25 * (-1 - x 0 - dt6dx1), 0.25 * (1 - x 0 - dt6dx1),
      0.25 * (1 + x 0 + dt6dx1)],
    [1, 0.25 * (-1 + dt6dx2), 0.25 * (-1 - dt6dx2), 0.25 * (-1 - dt6dx2), 0.25 * (-1 + dt6dx2)]]

/-- MappingToPhysPyramid.cpp:107-167: the columns of the Jacobian. -/
noncomputable def pyramidCols (p : Nat → V) (x : Pt 3) : Fin 3 → V :=
  fun k => weigh (pyramidDerivs (awayFromTip x) k) p

/-- MappingToPhysTriangularPrism.cpp:66-75 (without `SAVECOEFFS`). -/
noncomputable def prismWeights (x : Pt 3) : List ℝ :=
  let t1 := x 0 * x 2
  let t2 := x 1 * x 2
  [0.5 * (1 - x 0 - x 1 - x 2 + t1 + t2), 0.5 * (x 0 - t1), 0.5 * (x 1 - t2),
   0.5 * (-t2 + 1 - x 0 - t1 - x 1 + x 2), 0.5 * (t1 + x 0), 0.5 * (t2 + x 1)]

/-- MappingToPhysTriangularPrism.cpp:59-85 -/
noncomputable def prism (p : Nat → V) (x : Pt 3) : V := weigh (prismWeights x) p

/-- MappingToPhysTriangularPrism.cpp:123-142: the derivatives of the weights. -/
noncomputable def prismDerivs (x : Pt 3) : Fin 3 → List ℝ :=
  ![[0.5 * (-1 + x 2), 0.5 * (1 - x 2), 0, 0.5 * (-1 - x 2), 0.5 * (1 + x 2), 0],
    [0.5 * (-1 + x 2), 0, 0.5 * (1 - x 2), 0.5 * (-1 - x 2), 0, 0.5 * (1 + x 2)],
    [0.5 * (-1 + x 0 + x 1), -0.5 * x 0, -0.5 * x 1, 0.5 * (1 - x 1 - x 0), 0.5 * x 0, 0.5 * x 1]]

/-- MappingToPhysTriangularPrism.cpp:108-172: the columns of the Jacobian. -/
noncomputable def prismCols (p : Nat → V) (x : Pt 3) : Fin 3 → V := fun k => weigh (prismDerivs x k) p

/-- MappingToPhysTriangleQuadratic.cpp:67-80 -/
noncomputable def triangle2Weights (q : Pt 2) : List ℝ :=
  let x := q 0
  let y := q 1
  let r := 1 - x - y
  [r * (2 * r - 1), 4 * x * r, x * (2 * x - 1), 4 * y * r, 4 * x * y, y * (2 * y - 1)]

/-- MappingToPhysTriangleQuadratic.cpp:67-88 -/
noncomputable def triangle2 (p : Nat → V) (x : Pt 2) : V := weigh (triangle2Weights x) p

/-- MappingToPhysTriangleQuadratic.cpp:110-134 -/
noncomputable def triangle2Derivs (q : Pt 2) : Fin 2 → List ℝ :=
  let x := q 0
  let y := q 1
  let r := 1 - x - y
  ![[-4 * r + 1, 4 * (r - x), 4 * x - 1, -4 * y, 4 * y, 0],
    [-4 * r + 1, -4 * x, 0, 4 * (r - y), 4 * x, 4 * y - 1]]

/-- MappingToPhysTriangleQuadratic.cpp:108-147: the columns of the Jacobian. -/
noncomputable def triangle2Cols (p : Nat → V) (x : Pt 2) : Fin 2 → V := fun k => weigh (triangle2Derivs x k) p

/-- MappingToPhysTetrahedronQuadratic.cpp:71-82 -/
noncomputable def tetrahedron2Weights (q : Pt 3) : List ℝ :=
  let x := q 0
  let y := q 1
  let z := q 2
  let r := 1 - x - y - z
  [r * (2 * r - 1), 4 * x * r, x * (2 * x - 1), 4 * r * y, 4 * x * y, y * (2 * y - 1),
   4 * r * z, 4 * x * z, 4 * y * z, z * (2 * z - 1)]

/-- MappingToPhysTetrahedronQuadratic.cpp:71-88 -/
noncomputable def tetrahedron2 (p : Nat → V) (x : Pt 3) : V := weigh (tetrahedron2Weights x) p

/-- MappingToPhysTetrahedronQuadratic.cpp:110-127: the rows of the matrix `derivs`. -/
noncomputable def tetrahedron2Derivs (q : Pt 3) : Fin 3 → List ℝ :=
  let x := q 0
  let y := q 1
  let z := q 2
  let r := 1 - x - y - z
  let t1 := -4 * r + 1
  ![[t1, 4 * (r - x), 4 * x - 1, -4 * y, 4 * y, 0, -4 * z, 4 * z, 0, 0],
    [t1, -4 * x, 0, 4 * (r - y), 4 * x, 4 * y - 1, -4 * z, 0, 4 * z, 0],
    [t1, -4 * x, 0, -4 * y, 0, 0, 4 * (r - z), 4 * x, 4 * y, 4 * z - 1]]

/-- MappingToPhysTetrahedronQuadratic.cpp:107-138: the columns of the Jacobian. -/
noncomputable def tetrahedron2Cols (p : Nat → V) (x : Pt 3) : Fin 3 → V :=
  fun k => weigh (tetrahedron2Derivs x k) p

/-! ### All maps -/

/-- `MappingReferenceToPhysical::transform` -/
noncomputable def transform : (k : Kind) → (Nat → V) → Pt k.dim → V
  | .line => line
  | .triangle => simplex
  | .square => square
  | .triangle2 => triangle2
  | .tetrahedron => simplex
  | .pyramid => pyramid
  | .prism => prism
  | .cube => cube
  | .tetrahedron2 => tetrahedron2
  | .hypercube => hypercube

/-- The columns of `MappingReferenceToPhysical::calcJacobian`. -/
noncomputable def cols : (k : Kind) → (Nat → V) → Pt k.dim → Fin k.dim → V
  | .line => fun p _ _ => slope p
  | .triangle => simplexCols
  | .square => squareCols
  | .triangle2 => triangle2Cols
  | .tetrahedron => simplexCols
  | .pyramid => pyramidCols
  | .prism => prismCols
  | .cube => cubeCols
  | .tetrahedron2 => tetrahedron2Cols
  | .hypercube => hypercubeCols

end

/-- `MappingReferenceToPhysical::calcJacobian`: row `i`, column `j`. -/
noncomputable def jacobian (k : Kind) (p : Nat → Pt k.dim) (x : Pt k.dim) : Matrix (Fin k.dim) (Fin k.dim) ℝ :=
  Matrix.of fun i j => cols k p x j i

/-! ### Inverse maps -/

open Classical in
/-- SmallMatrix_impl.h:382-395 `solve`: LAPACK's `dgesv`, which leaves the right hand side alone if the
matrix is singular. -/
noncomputable def solve {d : Nat} (A : Matrix (Fin d) (Fin d) ℝ) (b : Pt d) : Pt d :=
  if A.det = 0 then b else A⁻¹ *ᵥ b

/-- `(pointPhysical - comparison).l2NormSquared()` -/
def distSq {d : Nat} (a b : Pt d) : ℝ := ∑ i, (a i - b i) ^ 2

/-- MappingToPhysHypercubeLinear.cpp:150-153 and the same lines of the other files: one round of the
iteration. -/
noncomputable def newtonStep {d : Nat} (F : Pt d → Pt d) (J : Pt d → Matrix (Fin d) (Fin d) ℝ) (q : Pt d)
    (result : Pt d) : Pt d := result + solve (J result) (q - F result)

open Classical in
/-- MappingToPhysHypercubeLinear.cpp:145-155: `while (error > 1e-28 && loop_count++ < 100)`. The first
argument is `100 - loop_count`, the value is `result` and `loop_count` after the loop. The counter is
also incremented by the test that ends the loop. -/
noncomputable def newtonLoop {d : Nat} (F : Pt d → Pt d) (J : Pt d → Matrix (Fin d) (Fin d) ℝ) (q : Pt d) :
    Nat → Nat → Pt d → Pt d × Nat
  | 0, loopCount, result => if distSq q (F result) > 1e-28 then (result, loopCount + 1) else (result, loopCount)
  | n + 1, loopCount, result =>
    if distSq q (F result) > 1e-28 then newtonLoop F J q n (loopCount + 1) (newtonStep F J q result)
    else (result, loopCount)

/-- MappingToPhysHypercubeLinear.cpp:142-161, 233-252, 335-354, MappingToPhysPyramid.cpp:86-105,
MappingToPhysTriangularPrism.cpp:87-106. The result that is not a number is `none`. -/
noncomputable def newton {d : Nat} (F : Pt d → Pt d) (J : Pt d → Matrix (Fin d) (Fin d) ℝ) (q : Pt d) :
    Option (Pt d) :=
  let r := newtonLoop F J q 100 0 0
  if r.2 = 100 then none else some r.1

open Classical in
/-- MappingToPhysTriangleQuadratic.cpp:92-106, MappingToPhysTetrahedronQuadratic.cpp:91-105: the
`do ... while`; `none` if it does not end. -/
noncomputable def quadLoop {d : Nat} (F : Pt d → Pt d) (J : Pt d → Matrix (Fin d) (Fin d) ℝ) (q : Pt d)
    (result : Pt d) : Option (Pt d) :=
  let correction := solve (J result) (F result - q)
  if (∑ i, correction i ^ 2) > 1e-10 then quadLoop F J q (result - correction)
  else some (result - correction)
partial_fixpoint

open Classical in
/-- MappingToPhysHypercubeLinear.cpp:76-79; dividing by zero gives an infinity or no number. -/
noncomputable def lineInverse (p : Nat → Pt 1) (q : Pt 1) : Option (Pt 1) :=
  if slope p 0 = 0 then none else some ![(q 0 - mid p 0) / slope p 0]

/-- MappingToPhysSimplexLinear_Impl.h:66-76 -/
noncomputable def simplexInverse {d : Nat} (p : Nat → Pt d) (q : Pt d) : Pt d :=
  solve (Matrix.of fun i j => simplexCols p (0 : Pt d) j i) (q - p 0)

/-- `MappingReferenceToPhysical::inverseTransform` -/
noncomputable def inverseTransform : (k : Kind) → (Nat → Pt k.dim) → Pt k.dim → Option (Pt k.dim)
  | .line => lineInverse
  | .triangle => fun p q => some (simplexInverse p q)
  | .square => fun p => newton (transform .square p) (jacobian .square p)
  | .triangle2 => fun p q => quadLoop (transform .triangle2 p) (jacobian .triangle2 p) q ![0.3333, 0.333]
  | .tetrahedron => fun p q => some (simplexInverse p q)
  | .pyramid => fun p => newton (transform .pyramid p) (jacobian .pyramid p)
  | .prism => fun p => newton (transform .prism p) (jacobian .prism p)
  | .cube => fun p => newton (transform .cube p) (jacobian .cube p)
  | .tetrahedron2 => fun p q =>
      quadLoop (transform .tetrahedron2 p) (jacobian .tetrahedron2 p) q ![0.3333, 0.333, 0.3333]
  | .hypercube => fun p => newton (transform .hypercube p) (jacobian .hypercube p)

end Verif.PhysMap
