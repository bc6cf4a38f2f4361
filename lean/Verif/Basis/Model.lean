import Verif.RefGeometry.Model
import Verif.Legendre.Model

/-!
# Model of the H1 conforming basis functions

kernel/FE/BasisFunctions*H1Conforming*.cpp and BasisFunctionsPiecewiseConstant.cpp. A class derived
from `BaseBasisFunction` becomes a constructor whose arguments are the arguments of the C++
constructor; `eval` and `evalDeriv k` are the virtual functions `eval` and `evalDeriv<k>`.
`double` is `ℝ`. `none` is the fatal error of `LobattoPolynomialDerivative` (degree above 3). Node
numbers are `Fin n`: the constructors assert the range in debug builds.
-/
namespace Verif.Basis
open Verif.RefGeometry (Pt)
open Verif.Legendre (lobatto lobattoDeriv)

/-! ### Barycentric coordinates -/

/-- helperFunctions.cpp:147-153 `baricentric_2D` -/
def bary2 (node : Fin 3) (p : Pt 2) : ℝ :=
  match node with
  | 0 => 1 - p 0 - p 1
  | 1 => p 0
  | 2 => p 1

/-- helperFunctions.cpp:139-145 `baricentric_3D` -/
def bary3 (node : Fin 4) (p : Pt 3) : ℝ :=
  match node with
  | 0 => 1 - p 0 - p 1 - p 2
  | 1 => p 0
  | 2 => p 1
  | 3 => p 2

/-- helperFunctions.cpp:155-164 `baricentricDeriv` -/
def baryDeriv (node direction : Nat) : ℝ :=
  if node = 0 then -1 else if node = direction + 1 then 1 else 0

/-! ### Line -/

/-- BasisFunctions1DH1ConformingLine.h and BasisFunctionsPiecewiseConstant.cpp:48-58 -/
inductive LineFn
  | constant
  | vertex (node : Fin 2)
  | interior (order : Nat)
deriving DecidableEq

/-- BasisFunctions1DH1ConformingLine.cpp:52-55, 62-66 -/
noncomputable def LineFn.eval : LineFn → Pt 1 → ℝ
  | .constant, _ => 1
  | .vertex node, p => (1 + (2 * (node.val : ℝ) - 1) * p 0) / 2
  | .interior order, p => (1 + p 0) * (1 - p 0) * lobatto order (p 0) / 4

/-- BasisFunctions1DH1ConformingLine.cpp:57-60, 68-73 -/
noncomputable def LineFn.evalDeriv : LineFn → Fin 1 → Pt 1 → Option ℝ
  | .constant, _, _ => some 0
  | .vertex node, _, _ => some ((2 * (node.val : ℝ) - 1) / 2)
  | .interior order, _, p => do
    let d ← lobattoDeriv order (p 0)
    return -p 0 * lobatto order (p 0) / 2 + (1 + p 0) * (1 - p 0) * d / 4

/-! ### Triangle -/

/-- BasisFunctions2DH1ConformingTriangle.h -/
inductive TriangleFn
  | constant
  | vertex (node : Fin 3)
  | face (node0 node1 : Fin 3) (order : Nat)
  | interior (order0 order1 : Nat)
deriving DecidableEq

/-- BasisFunctions2DH1ConformingTriangle.cpp:84-96, 147-152 -/
noncomputable def TriangleFn.eval : TriangleFn → Pt 2 → ℝ
  | .constant, _ => 1
  | .vertex node, p => bary2 node p
  | .face node0 node1 order, p =>
    bary2 node0 p * bary2 node1 p * lobatto order (bary2 node1 p - bary2 node0 p)
  | .interior order0 order1, p =>
    let x0 := bary2 0 p - bary2 1 p
    let x1 := bary2 1 p - bary2 2 p
    bary2 0 p * bary2 1 p * bary2 2 p * lobatto order0 x0 * lobatto order1 x1

/-- BasisFunctions2DH1ConformingTriangle.cpp:53-82, 98-145, 154-174 -/
noncomputable def TriangleFn.evalDeriv : TriangleFn → Fin 2 → Pt 2 → Option ℝ
  | .constant, _, _ => some 0
  | .vertex node, k, _ => some (baryDeriv node k)
  | .face node0 node1 order, k, p => do
    let l := lobatto order (bary2 node1 p - bary2 node0 p)
    let dl ← lobattoDeriv order (bary2 node1 p - bary2 node0 p)
    return baryDeriv node0 k * (bary2 node1 p * l - bary2 node0 p * bary2 node1 p * dl) +
      baryDeriv node1 k * (bary2 node0 p * l + bary2 node1 p * bary2 node0 p * dl)
  | .interior order0 order1, 0, p => do
    let x0 := bary2 0 p - bary2 1 p
    let x1 := bary2 1 p - bary2 2 p
    let d0 ← lobattoDeriv order0 x0
    let d1 ← lobattoDeriv order1 x1
    return baryDeriv 0 0 * (bary2 1 p * bary2 2 p * lobatto order0 x0 * lobatto order1 x1 +
        bary2 0 p * bary2 1 p * bary2 2 p * d0 * lobatto order1 x1) +
      baryDeriv 1 0 * (bary2 0 p * bary2 2 p * lobatto order0 x0 * lobatto order1 x1 -
        bary2 0 p * bary2 1 p * bary2 2 p * d0 * lobatto order1 x1 +
        bary2 0 p * bary2 1 p * bary2 2 p * lobatto order0 x0 * d1)
  | .interior order0 order1, 1, p => do
    let x0 := bary2 0 p - bary2 1 p
    let x1 := bary2 1 p - bary2 2 p
    let d0 ← lobattoDeriv order0 x0
    let d1 ← lobattoDeriv order1 x1
    return baryDeriv 0 1 * (bary2 1 p * bary2 2 p * lobatto order0 x0 * lobatto order1 x1 +
        bary2 0 p * bary2 1 p * bary2 2 p * d0 * lobatto order1 x1) +
      baryDeriv 2 1 * (bary2 0 p * bary2 1 p * lobatto order0 x0 * lobatto order1 x1 -
        bary2 0 p * bary2 1 p * bary2 2 p * lobatto order0 x0 * d1)

/-! ### Square -/

/-- BasisFunctions2DH1ConformingSquare.h -/
inductive SquareFn
  | constant
  | vertex (node : Fin 4)
  | face0 (node0 node1 : Fin 4) (order : Nat)
  | face1 (node0 node1 : Fin 4) (order : Nat)
  | interior (order0 order1 : Nat)
deriving DecidableEq

/-- The member `mirroring_` of most edge and face functions: `node0 < node1 ? 1 : -1` (equivalent
for different nodes to `node0 > node1 ? -1 : 1` in BasisFunctions2DH1ConformingSquare.cpp:78,112). -/
def mirror {n : Nat} (node0 node1 : Fin n) : ℝ := if node0 < node1 then 1 else -1

/-- BasisFunctions2DH1ConformingSquare.cpp:78,112: `node0 > node1 ? -1 : 1` -/
def mirror' {n : Nat} (node0 node1 : Fin n) : ℝ := if node0 > node1 then -1 else 1

/-- BasisFunctions2DH1ConformingSquare.cpp:79,113: `edgePosition_` -/
def squareEdgePosition (node0 node1 : Fin 4) : ℝ := if node0.val + node1.val < 3 then -1 else 1

/-- `(node % 2) * 2 - 1`, e.g. BasisFunctions2DH1ConformingSquare.h:60 -/
def pos0 {n : Nat} (node : Fin n) : ℝ := ((node.val % 2 : Nat) : ℝ) * 2 - 1

/-- `((node / 2) % 2) * 2 - 1`, e.g. BasisFunctions3DH1ConformingCube.cpp:56; for the square
(BasisFunctions2DH1ConformingSquare.h:61) the `% 2` is missing but `node < 4`. -/
def pos1 {n : Nat} (node : Fin n) : ℝ := ((node.val / 2 % 2 : Nat) : ℝ) * 2 - 1

/-- `(node / 4) * 2 - 1`, e.g. BasisFunctions3DH1ConformingCube.cpp:57 -/
def pos2 {n : Nat} (node : Fin n) : ℝ := ((node.val / 4 : Nat) : ℝ) * 2 - 1

/-- BasisFunctions2DH1ConformingSquare.cpp:54-57, 81-85, 116-120, 139-144 -/
noncomputable def SquareFn.eval : SquareFn → Pt 2 → ℝ
  | .constant, _ => 1
  | .vertex node, p => (1 + pos0 node * p 0) * (1 + pos1 node * p 1) / 4
  | .face0 node0 node1 order, p =>
    (1 + squareEdgePosition node0 node1 * p 1) * (1 - p 0) * (1 + p 0) *
      lobatto order (mirror' node0 node1 * p 0) / 8
  | .face1 node0 node1 order, p =>
    (1 + squareEdgePosition node0 node1 * p 0) * (1 - p 1) * (1 + p 1) *
      lobatto order (mirror' node0 node1 * p 1) / 8
  | .interior order0 order1, p =>
    (1 - p 0) * (1 + p 0) * (1 - p 1) * (1 + p 1) * lobatto order0 (p 0) * lobatto order1 (p 1) / 16

/-- BasisFunctions2DH1ConformingSquare.cpp:59-67, 87-102, 122-137, 146-162 -/
noncomputable def SquareFn.evalDeriv : SquareFn → Fin 2 → Pt 2 → Option ℝ
  | .constant, _, _ => some 0
  | .vertex node, 0, p => some (pos0 node * (1 + pos1 node * p 1) / 4)
  | .vertex node, 1, p => some (pos1 node * (1 + pos0 node * p 0) / 4)
  | .face0 node0 node1 order, 0, p => do
    let m := mirror' node0 node1
    let d ← lobattoDeriv order (m * p 0)
    return (1 + squareEdgePosition node0 node1 * p 1) *
      (-p 0 * lobatto order (m * p 0) + (1 - p 0) * (1 + p 0) * d * m / 2) / 4
  | .face0 node0 node1 order, 1, p =>
    some (squareEdgePosition node0 node1 * (1 - p 0) * (1 + p 0) *
      lobatto order (mirror' node0 node1 * p 0) / 8)
  | .face1 node0 node1 order, 0, p =>
    some (squareEdgePosition node0 node1 * (1 - p 1) * (1 + p 1) *
      lobatto order (mirror' node0 node1 * p 1) / 8)
  | .face1 node0 node1 order, 1, p => do
    let m := mirror' node0 node1
    let d ← lobattoDeriv order (m * p 1)
    return (1 + squareEdgePosition node0 node1 * p 0) *
      (-p 1 * lobatto order (m * p 1) + (1 - p 1) * (1 + p 1) * d * m / 2) / 4
  | .interior order0 order1, 0, p => do
    let d ← lobattoDeriv order0 (p 0)
    return lobatto order1 (p 1) * (1 - p 1) * (1 + p 1) / 4 *
      (-p 0 * lobatto order0 (p 0) / 2 + (1 - p 0) * (1 + p 0) * d / 4)
  | .interior order0 order1, 1, p => do
    let d ← lobattoDeriv order1 (p 1)
    return lobatto order0 (p 0) * (1 - p 0) * (1 + p 0) / 4 *
      (-p 1 * lobatto order1 (p 1) / 2 + (1 - p 1) * (1 + p 1) * d / 4)

/-! ### Tetrahedron -/

/-- BasisFunctions3DH1ConformingTetrahedron.h -/
inductive TetFn
  | constant
  | vertex (node : Fin 4)
  | edge (node0 node1 : Fin 4) (order : Nat)
  | face (node0 node1 node2 : Fin 4) (order0 order1 : Nat)
  | interior (order0 order1 order2 : Nat)
deriving DecidableEq

/-- BasisFunctions3DH1ConformingTetrahedron.cpp:53-56, 73-78, 146-154, 258-267 -/
noncomputable def TetFn.eval : TetFn → Pt 3 → ℝ
  | .constant, _ => 1
  | .vertex node, p => bary3 node p
  | .edge node0 node1 order, p =>
    bary3 node0 p * bary3 node1 p * lobatto order (bary3 node0 p - bary3 node1 p)
  | .face node0 node1 node2 order0 order1, p =>
    let x0 := bary3 node0 p - bary3 node1 p
    let x1 := bary3 node1 p - bary3 node2 p
    bary3 node0 p * bary3 node1 p * bary3 node2 p * lobatto order0 x0 * lobatto order1 x1
  | .interior order0 order1 order2, p =>
    let x0 := bary3 0 p - bary3 1 p
    let x1 := bary3 1 p - bary3 2 p
    let x2 := bary3 2 p - bary3 3 p
    bary3 0 p * bary3 1 p * bary3 2 p * bary3 3 p * lobatto order0 x0 * lobatto order1 x1 *
      lobatto order2 x2

/-- BasisFunctions3DH1ConformingTetrahedron.cpp:58-71, 80-144, 156-256, 269-364. The three
directions of the vertex, edge and face functions are the same code with another argument of
`baricentricDeriv`. -/
noncomputable def TetFn.evalDeriv : TetFn → Fin 3 → Pt 3 → Option ℝ
  | .constant, _, _ => some 0
  | .vertex node, k, _ => some (baryDeriv node k)
  | .edge node0 node1 order, k, p => do
    let l := lobatto order (bary3 node0 p - bary3 node1 p)
    let dl ← lobattoDeriv order (bary3 node0 p - bary3 node1 p)
    return baryDeriv node0 k * (bary3 node1 p * l + bary3 node0 p * bary3 node1 p * dl) +
      baryDeriv node1 k * (bary3 node0 p * l - bary3 node0 p * bary3 node1 p * dl)
  | .face node0 node1 node2 order0 order1, k, p => do
    let x0 := bary3 node0 p - bary3 node1 p
    let x1 := bary3 node1 p - bary3 node2 p
    let d0 ← lobattoDeriv order0 x0
    let d1 ← lobattoDeriv order1 x1
    return baryDeriv node0 k *
        (bary3 node1 p * bary3 node2 p * lobatto order0 x0 * lobatto order1 x1 +
          bary3 node0 p * bary3 node1 p * bary3 node2 p * d0 * lobatto order1 x1) +
      baryDeriv node1 k *
        (bary3 node0 p * bary3 node2 p * lobatto order0 x0 * lobatto order1 x1 -
          bary3 node0 p * bary3 node1 p * bary3 node2 p * d0 * lobatto order1 x1 +
          bary3 node0 p * bary3 node1 p * bary3 node2 p * lobatto order0 x0 * d1) +
      baryDeriv node2 k *
        (bary3 node0 p * bary3 node1 p * lobatto order0 x0 * lobatto order1 x1 -
          bary3 node0 p * bary3 node1 p * bary3 node2 p * lobatto order0 x0 * d1)
  | .interior order0 order1 order2, 0, p => do
    let x0 := bary3 0 p - bary3 1 p
    let x1 := bary3 1 p - bary3 2 p
    let x2 := bary3 2 p - bary3 3 p
    let d0 ← lobattoDeriv order0 x0
    let d1 ← lobattoDeriv order1 x1
    let l0 := lobatto order0 x0
    let l1 := lobatto order1 x1
    let l2 := lobatto order2 x2
    return baryDeriv 0 0 * (bary3 1 p * bary3 2 p * bary3 3 p * l0 * l1 * l2 +
        bary3 0 p * bary3 1 p * bary3 2 p * bary3 3 p * d0 * l1 * l2) +
      baryDeriv 1 0 * (bary3 0 p * bary3 2 p * bary3 3 p * l0 * l1 * l2 -
        bary3 0 p * bary3 1 p * bary3 2 p * bary3 3 p * d0 * l1 * l2 +
        bary3 0 p * bary3 1 p * bary3 2 p * bary3 3 p * l0 * d1 * l2)
  | .interior order0 order1 order2, 1, p => do
    let x0 := bary3 0 p - bary3 1 p
    let x1 := bary3 1 p - bary3 2 p
    let x2 := bary3 2 p - bary3 3 p
    let d0 ← lobattoDeriv order0 x0
    let d1 ← lobattoDeriv order1 x1
    let d2 ← lobattoDeriv order2 x2
    let l0 := lobatto order0 x0
    let l1 := lobatto order1 x1
    let l2 := lobatto order2 x2
    return baryDeriv 0 1 * (bary3 1 p * bary3 2 p * bary3 3 p * l0 * l1 * l2 +
        bary3 0 p * bary3 1 p * bary3 2 p * bary3 3 p * d0 * l1 * l2) +
      baryDeriv 2 1 * (bary3 0 p * bary3 1 p * bary3 3 p * l0 * l1 * l2 -
        bary3 0 p * bary3 1 p * bary3 2 p * bary3 3 p * l0 * d1 * l2 +
        bary3 0 p * bary3 1 p * bary3 2 p * bary3 3 p * l0 * l1 * d2)
  | .interior order0 order1 order2, 2, p => do
    let x0 := bary3 0 p - bary3 1 p
    let x1 := bary3 1 p - bary3 2 p
    let x2 := bary3 2 p - bary3 3 p
    let d0 ← lobattoDeriv order0 x0
    let d2 ← lobattoDeriv order2 x2
    let l0 := lobatto order0 x0
    let l1 := lobatto order1 x1
    let l2 := lobatto order2 x2
    return baryDeriv 0 2 * (bary3 1 p * bary3 2 p * bary3 3 p * l0 * l1 * l2 +
        bary3 0 p * bary3 1 p * bary3 2 p * bary3 3 p * d0 * l1 * l2) +
      baryDeriv 3 2 * (bary3 0 p * bary3 1 p * bary3 2 p * l0 * l1 * l2 -
        bary3 0 p * bary3 1 p * bary3 2 p * bary3 3 p * l0 * l1 * d2)

/-! ### Triangular prism -/

/-- BasisFunctions3DH1ConformingPrism.h -/
inductive PrismFn
  | constant
  | vertex (node : Fin 6)
  | edge0 (node0 node1 : Fin 6) (order : Nat)
  | edge1 (node0 node1 : Fin 6) (order : Nat)
  | face0 (node0 node1 node2 : Fin 6) (order0 order1 : Nat)
  | face1 (node0 node1 node2 : Fin 6) (order0 order1 : Nat)
  | interior (order0 order1 order2 : Nat)
deriving DecidableEq

/-- `baricentric_2D(node, {p[0], p[1]})` -/
def baryP (node : Fin 3) (p : Pt 3) : ℝ := bary2 node ![p 0, p 1]

/-- `node % 3`: the number of a node of the prism inside its triangle. -/
def triNode (node : Fin 6) : Fin 3 := ⟨node.val % 3, Nat.mod_lt _ (by decide)⟩

/-- `(node / 3) * 2 - 1`, BasisFunctions3DH1ConformingPrism.cpp:55, 205, .h:78 -/
def posP (node : Fin 6) : ℝ := ((node.val / 3 : Nat) : ℝ) * 2 - 1

/-- BasisFunctions3DH1ConformingPrism.cpp:159, 316, 321: `a < b ? -1 : 1` -/
def mirrorP (a b : Fin 6) : ℝ := if a < b then -1 else 1

/-- The members `node0_`, `node1_`, `mirroring_`, `polynomialOrder0_`, `polynomialOrder1_` of
`BasisFunction3DFacePrism_1` -/
structure Face1 where
  node0 : Fin 3
  node1 : Fin 3
  mirroring : ℝ
  order0 : Nat
  order1 : Nat

/-- BasisFunctions3DH1ConformingPrism.cpp:306-324, the constructor. -/
def mkFace1 (node0 node1 node2 : Fin 6) (order0 order1 : Nat) : Face1 :=
  if triNode node1 = triNode node0 then
    { node0 := triNode node0, node1 := triNode node2, mirroring := mirrorP node0 node1,
      order0 := order0, order1 := order1 }
  else
    { node0 := triNode node0, node1 := triNode node1, mirroring := mirrorP node0 node2,
      order0 := order1, order1 := order0 }

/-- BasisFunctions3DH1ConformingPrism.cpp:59-63, 80-88, 161-165, 208-217, 326-335, 410-420 -/
noncomputable def PrismFn.eval : PrismFn → Pt 3 → ℝ
  | .constant, _ => 1
  | .vertex node, p => baryP (triNode node) p * (1 + posP node * p 2) / 2
  | .edge0 node0 node1 order, p =>
    (1 + posP node0 * p 2) * baryP (triNode node0) p * baryP (triNode node1) p *
      lobatto order (baryP (triNode node0) p - baryP (triNode node1) p) / 2
  | .edge1 node0 node1 order, p =>
    baryP (triNode node0) p * (1 - p 2) * (1 + p 2) *
      lobatto order (mirrorP node0 node1 * p 2) / 4
  | .face0 node0 node1 node2 order0 order1, p =>
    let x0 := baryP (triNode node0) p - baryP (triNode node1) p
    let x1 := baryP (triNode node1) p - baryP (triNode node2) p
    (1 + posP node0 * p 2) * baryP (triNode node0) p * baryP (triNode node1) p *
      baryP (triNode node2) p * lobatto order0 x0 * lobatto order1 x1 / 2
  | .face1 node0 node1 node2 order0 order1, p =>
    let f := mkFace1 node0 node1 node2 order0 order1
    (1 + p 2) * (1 - p 2) * baryP f.node0 p * baryP f.node1 p *
      lobatto f.order0 (baryP f.node0 p - baryP f.node1 p) * lobatto f.order1 (f.mirroring * p 2) / 4
  | .interior order0 order1 order2, p =>
    let x0 := baryP 0 p - baryP 1 p
    let x1 := baryP 1 p - baryP 2 p
    baryP 0 p * baryP 1 p * baryP 2 p * (1 - p 2) * (1 + p 2) * lobatto order0 x0 *
      lobatto order1 x1 * lobatto order2 (p 2) / 4

/-- The common part of `evalDeriv0` and `evalDeriv1` of `BasisFunction3DEdgePrism_0`,
BasisFunctions3DH1ConformingPrism.cpp:90-138 (`k` is the direction). -/
noncomputable def prismEdge0Deriv (node0 node1 : Fin 6) (order k : Nat) (p : Pt 3) : Option ℝ := do
  let b0 := baryP (triNode node0) p
  let b1 := baryP (triNode node1) p
  let dl ← lobattoDeriv order (b0 - b1)
  return (1 + posP node0 * p 2) * baryDeriv (triNode node0) k *
      (b1 * lobatto order (b0 - b1) + b0 * b1 * dl) / 2 +
    (1 + posP node0 * p 2) * baryDeriv (triNode node1) k *
      (b0 * lobatto order (b0 - b1) - b0 * b1 * dl) / 2

/-- The common part of `evalDeriv0` and `evalDeriv1` of `BasisFunction3DFacePrism_0`,
BasisFunctions3DH1ConformingPrism.cpp:219-293. -/
noncomputable def prismFace0Deriv (node0 node1 node2 : Fin 6) (order0 order1 k : Nat) (p : Pt 3) :
    Option ℝ := do
  let b0 := baryP (triNode node0) p
  let b1 := baryP (triNode node1) p
  let b2 := baryP (triNode node2) p
  let x0 := b0 - b1
  let x1 := b1 - b2
  let d0 ← lobattoDeriv order0 x0
  let d1 ← lobattoDeriv order1 x1
  return (1 + posP node0 * p 2) * baryDeriv (triNode node0) k *
      (b1 * b2 * lobatto order0 x0 * lobatto order1 x1 + b0 * b1 * b2 * d0 * lobatto order1 x1) / 2 +
    (1 + posP node0 * p 2) * baryDeriv (triNode node1) k *
      (b0 * b2 * lobatto order0 x0 * lobatto order1 x1 - b0 * b1 * b2 * d0 * lobatto order1 x1 +
        b0 * b1 * b2 * lobatto order0 x0 * d1) / 2 +
    (1 + posP node0 * p 2) * baryDeriv (triNode node2) k *
      (b0 * b1 * lobatto order0 x0 * lobatto order1 x1 -
        b0 * b1 * b2 * lobatto order0 x0 * d1) / 2

/-- The common part of `evalDeriv0` and `evalDeriv1` of `BasisFunction3DFacePrism_1`,
BasisFunctions3DH1ConformingPrism.cpp:337-393. -/
noncomputable def prismFace1Deriv (f : Face1) (k : Nat) (p : Pt 3) : Option ℝ := do
  let b0 := baryP f.node0 p
  let b1 := baryP f.node1 p
  let dl ← lobattoDeriv f.order0 (b0 - b1)
  return (1 + p 2) * (1 - p 2) * lobatto f.order1 (f.mirroring * p 2) * baryDeriv f.node0 k *
      (b1 * lobatto f.order0 (b0 - b1) + b0 * b1 * dl) / 4 +
    (1 + p 2) * (1 - p 2) * lobatto f.order1 (f.mirroring * p 2) * baryDeriv f.node1 k *
      (b0 * lobatto f.order0 (b0 - b1) - b0 * b1 * dl) / 4

/-- BasisFunctions3DH1ConformingPrism.cpp:65-78, 90-149, 167-188, 219-304, 337-408, 422-487 -/
noncomputable def PrismFn.evalDeriv : PrismFn → Fin 3 → Pt 3 → Option ℝ
  | .constant, _, _ => some 0
  | .vertex node, 0, p => some (baryDeriv (triNode node) 0 * (1 + posP node * p 2) / 2)
  | .vertex node, 1, p => some (baryDeriv (triNode node) 1 * (1 + posP node * p 2) / 2)
  | .vertex node, 2, p => some (baryP (triNode node) p * posP node / 2)
  | .edge0 node0 node1 order, 0, p => prismEdge0Deriv node0 node1 order 0 p
  | .edge0 node0 node1 order, 1, p => prismEdge0Deriv node0 node1 order 1 p
  | .edge0 node0 node1 order, 2, p =>
    some (posP node0 * baryP (triNode node0) p * baryP (triNode node1) p *
      lobatto order (baryP (triNode node0) p - baryP (triNode node1) p) / 2)
  | .edge1 node0 node1 order, 0, p =>
    some (baryDeriv (triNode node0) 0 * (1 - p 2) * (1 + p 2) *
      lobatto order (mirrorP node0 node1 * p 2) / 4)
  | .edge1 node0 node1 order, 1, p =>
    some (baryDeriv (triNode node0) 1 * (1 - p 2) * (1 + p 2) *
      lobatto order (mirrorP node0 node1 * p 2) / 4)
  | .edge1 node0 node1 order, 2, p => do
    let m := mirrorP node0 node1
    let d ← lobattoDeriv order (m * p 2)
    return baryP (triNode node0) p *
      (-p 2 * lobatto order (m * p 2) / 2 + (1 - p 2) * (1 + p 2) * d * m / 4)
  | .face0 node0 node1 node2 order0 order1, 0, p =>
    prismFace0Deriv node0 node1 node2 order0 order1 0 p
  | .face0 node0 node1 node2 order0 order1, 1, p =>
    prismFace0Deriv node0 node1 node2 order0 order1 1 p
  | .face0 node0 node1 node2 order0 order1, 2, p =>
    let x0 := baryP (triNode node0) p - baryP (triNode node1) p
    let x1 := baryP (triNode node1) p - baryP (triNode node2) p
    some (posP node0 * baryP (triNode node0) p * baryP (triNode node1) p *
      baryP (triNode node2) p * lobatto order0 x0 * lobatto order1 x1 / 2)
  | .face1 node0 node1 node2 order0 order1, 0, p =>
    prismFace1Deriv (mkFace1 node0 node1 node2 order0 order1) 0 p
  | .face1 node0 node1 node2 order0 order1, 1, p =>
    prismFace1Deriv (mkFace1 node0 node1 node2 order0 order1) 1 p
  | .face1 node0 node1 node2 order0 order1, 2, p => do
    let f := mkFace1 node0 node1 node2 order0 order1
    let d ← lobattoDeriv f.order1 (f.mirroring * p 2)
    return baryP f.node0 p * baryP f.node1 p * lobatto f.order0 (baryP f.node0 p - baryP f.node1 p) *
      (-p 2 * lobatto f.order1 (f.mirroring * p 2) / 2 +
        (1 + p 2) * (1 - p 2) * d * f.mirroring / 4)
  | .interior order0 order1 order2, 0, p => do
    let x0 := baryP 0 p - baryP 1 p
    let x1 := baryP 1 p - baryP 2 p
    let d0 ← lobattoDeriv order0 x0
    let d1 ← lobattoDeriv order1 x1
    return (1 - p 2) * (1 + p 2) * lobatto order2 (p 2) / 4 *
      (baryDeriv 0 0 * (baryP 1 p * baryP 2 p * lobatto order0 x0 * lobatto order1 x1 +
          baryP 0 p * baryP 1 p * baryP 2 p * d0 * lobatto order1 x1) +
        baryDeriv 1 0 * (baryP 0 p * baryP 2 p * lobatto order0 x0 * lobatto order1 x1 -
          baryP 0 p * baryP 1 p * baryP 2 p * d0 * lobatto order1 x1 +
          baryP 0 p * baryP 1 p * baryP 2 p * lobatto order0 x0 * d1))
  | .interior order0 order1 order2, 1, p => do
    let x0 := baryP 0 p - baryP 1 p
    let x1 := baryP 1 p - baryP 2 p
    let d0 ← lobattoDeriv order0 x0
    let d1 ← lobattoDeriv order1 x1
    return (1 - p 2) * (1 + p 2) * lobatto order2 (p 2) / 4 *
      (baryDeriv 0 1 * (baryP 1 p * baryP 2 p * lobatto order0 x0 * lobatto order1 x1 +
          baryP 0 p * baryP 1 p * baryP 2 p * d0 * lobatto order1 x1) +
        baryDeriv 2 1 * (baryP 0 p * baryP 1 p * lobatto order0 x0 * lobatto order1 x1 -
          baryP 0 p * baryP 1 p * baryP 2 p * lobatto order0 x0 * d1))
  | .interior order0 order1 order2, 2, p => do
    let x0 := baryP 0 p - baryP 1 p
    let x1 := baryP 1 p - baryP 2 p
    let d ← lobattoDeriv order2 (p 2)
    return baryP 0 p * baryP 1 p * baryP 2 p * lobatto order0 x0 * lobatto order1 x1 *
      (-p 2 * lobatto order2 (p 2) / 2 + (1 - p 2) * (1 + p 2) * d / 4)

/-! ### Cube -/

/-- BasisFunctions3DH1ConformingCube.h -/
inductive CubeFn
  | constant
  | vertex (node : Fin 8)
  | edge0 (node0 node1 : Fin 8) (order : Nat)
  | edge1 (node0 node1 : Fin 8) (order : Nat)
  | edge2 (node0 node1 : Fin 8) (order : Nat)
  | face0 (node0 node1 node2 : Fin 8) (order1 order2 : Nat)
  | face1 (node0 node1 node2 : Fin 8) (order0 order2 : Nat)
  | face2 (node0 node1 node2 : Fin 8) (order0 order1 : Nat)
  | interior (order0 order1 order2 : Nat)
deriving DecidableEq

/-- BasisFunctions3DH1ConformingCube.cpp:53-64, 96-105, 144-153, 192-194, 203-208, 243-253, 294-304,
352-362, 396-402 -/
noncomputable def CubeFn.eval : CubeFn → Pt 3 → ℝ
  | .constant, _ => 1
  | .vertex n, p => (1 + pos0 n * p 0) * (1 + pos1 n * p 1) * (1 + pos2 n * p 2) / 8
  | .edge0 a b o, p =>
    (1 - p 0) * (1 + p 0) * (1 + pos1 a * p 1) * (1 + pos2 a * p 2) *
      lobatto o (mirror a b * p 0) / 16
  | .edge1 a b o, p =>
    (1 - p 1) * (1 + p 1) * (1 + pos0 a * p 0) * (1 + pos2 a * p 2) *
      lobatto o (mirror a b * p 1) / 16
  | .edge2 a b o, p =>
    (1 - p 2) * (1 + p 2) * (1 + pos0 a * p 0) * (1 + pos1 a * p 1) *
      lobatto o (mirror a b * p 2) / 16
  | .face0 a b c o1 o2, p =>
    (1 + pos0 a * p 0) * (1 - p 1) * (1 + p 1) * (1 - p 2) * (1 + p 2) *
      lobatto o1 (mirror a b * p 1) * lobatto o2 (mirror a c * p 2) / 32
  | .face1 a b c o0 o2, p =>
    (1 + pos1 a * p 1) * (1 - p 0) * (1 + p 0) * (1 - p 2) * (1 + p 2) *
      lobatto o0 (mirror a b * p 0) * lobatto o2 (mirror a c * p 2) / 32
  | .face2 a b c o0 o1, p =>
    (1 + pos2 a * p 2) * (1 - p 0) * (1 + p 0) * (1 - p 1) * (1 + p 1) *
      lobatto o0 (mirror a b * p 0) * lobatto o1 (mirror a c * p 1) / 32
  | .interior o0 o1 o2, p =>
    (1 - p 0) * (1 + p 0) * (1 - p 1) * (1 + p 1) * (1 - p 2) * (1 + p 2) * lobatto o0 (p 0) *
      lobatto o1 (p 1) * lobatto o2 (p 2) / 64

/-- BasisFunctions3DH1ConformingCube.cpp:66-82, 107-130, 155-178, 196-226, 255-278, 306-336, 364-394,
404-432, 1069-1074 -/
noncomputable def CubeFn.evalDeriv : CubeFn → Fin 3 → Pt 3 → Option ℝ
  | .constant, _, _ => some 0
  | .vertex n, 0, p => some (pos0 n * (1 + pos1 n * p 1) * (1 + pos2 n * p 2) / 8)
  | .vertex n, 1, p => some (pos1 n * (1 + pos0 n * p 0) * (1 + pos2 n * p 2) / 8)
  | .vertex n, 2, p => some (pos2 n * (1 + pos0 n * p 0) * (1 + pos1 n * p 1) / 8)
  | .edge0 a b o, 0, p => do
    let m := mirror a b
    let d ← lobattoDeriv o (m * p 0)
    return -p 0 * (1 + pos1 a * p 1) * (1 + pos2 a * p 2) * lobatto o (m * p 0) / 8 +
      m * (1 - p 0) * (1 + p 0) * (1 + pos1 a * p 1) * (1 + pos2 a * p 2) * d / 16
  | .edge0 a b o, 1, p =>
    some ((1 - p 0) * (1 + p 0) * pos1 a * (1 + pos2 a * p 2) * lobatto o (mirror a b * p 0) / 16)
  | .edge0 a b o, 2, p =>
    some ((1 - p 0) * (1 + p 0) * pos2 a * (1 + pos1 a * p 1) * lobatto o (mirror a b * p 0) / 16)
  | .edge1 a b o, 0, p =>
    some ((1 - p 1) * (1 + p 1) * pos0 a * (1 + pos2 a * p 2) * lobatto o (mirror a b * p 1) / 16)
  | .edge1 a b o, 1, p => do
    let m := mirror a b
    let d ← lobattoDeriv o (m * p 1)
    return -p 1 * (1 + pos0 a * p 0) * (1 + pos2 a * p 2) * lobatto o (m * p 1) / 8 +
      m * (1 - p 1) * (1 + p 1) * (1 + pos0 a * p 0) * (1 + pos2 a * p 2) * d / 16
  | .edge1 a b o, 2, p =>
    some ((1 - p 1) * (1 + p 1) * pos2 a * (1 + pos0 a * p 0) * lobatto o (mirror a b * p 1) / 16)
  | .edge2 a b o, 0, p =>
    some ((1 - p 2) * (1 + p 2) * pos0 a * (1 + pos1 a * p 1) * lobatto o (mirror a b * p 2) / 16)
  | .edge2 a b o, 1, p =>
    some ((1 - p 2) * (1 + p 2) * pos1 a * (1 + pos0 a * p 0) * lobatto o (mirror a b * p 2) / 16)
  | .edge2 a b o, 2, p => do
    let m := mirror a b
    let d ← lobattoDeriv o (m * p 2)
    return -p 2 * (1 + pos0 a * p 0) * (1 + pos1 a * p 1) * lobatto o (m * p 2) / 8 +
      m * (1 - p 2) * (1 + p 2) * (1 + pos0 a * p 0) * (1 + pos1 a * p 1) * d / 16
  | .face0 a b c o1 o2, 0, p =>
    some (pos0 a * (1 - p 1) * (1 + p 1) * (1 - p 2) * (1 + p 2) * lobatto o1 (mirror a b * p 1) *
      lobatto o2 (mirror a c * p 2) / 32)
  | .face0 a b c o1 o2, 1, p => do
    let m1 := mirror a b
    let m2 := mirror a c
    let d ← lobattoDeriv o1 (m1 * p 1)
    return -p 1 * (1 + pos0 a * p 0) * (1 - p 2) * (1 + p 2) * lobatto o1 (m1 * p 1) *
        lobatto o2 (m2 * p 2) / 16 +
      m1 * (1 + pos0 a * p 0) * (1 - p 1) * (1 + p 1) * (1 - p 2) * (1 + p 2) * d *
        lobatto o2 (m2 * p 2) / 32
  | .face0 a b c o1 o2, 2, p => do
    let m1 := mirror a b
    let m2 := mirror a c
    let d ← lobattoDeriv o2 (m2 * p 2)
    return -p 2 * (1 + pos0 a * p 0) * (1 - p 1) * (1 + p 1) * lobatto o1 (m1 * p 1) *
        lobatto o2 (m2 * p 2) / 16 +
      m2 * (1 + pos0 a * p 0) * (1 - p 1) * (1 + p 1) * (1 - p 2) * (1 + p 2) *
        lobatto o1 (m1 * p 1) * d / 32
  | .face1 a b c o0 o2, 0, p => do
    let m0 := mirror a b
    let m2 := mirror a c
    let d ← lobattoDeriv o0 (m0 * p 0)
    return -p 0 * (1 + pos1 a * p 1) * (1 - p 2) * (1 + p 2) * lobatto o0 (m0 * p 0) *
        lobatto o2 (m2 * p 2) / 16 +
      m0 * (1 + pos1 a * p 1) * (1 - p 0) * (1 + p 0) * (1 - p 2) * (1 + p 2) * d *
        lobatto o2 (m2 * p 2) / 32
  | .face1 a b c o0 o2, 1, p =>
    some (pos1 a * (1 - p 0) * (1 + p 0) * (1 - p 2) * (1 + p 2) * lobatto o0 (mirror a b * p 0) *
      lobatto o2 (mirror a c * p 2) / 32)
  | .face1 a b c o0 o2, 2, p => do
    let m0 := mirror a b
    let m2 := mirror a c
    let d ← lobattoDeriv o2 (m2 * p 2)
    return -p 2 * (1 + pos1 a * p 1) * (1 - p 0) * (1 + p 0) * lobatto o0 (m0 * p 0) *
        lobatto o2 (m2 * p 2) / 16 +
      m2 * (1 + pos1 a * p 1) * (1 - p 0) * (1 + p 0) * (1 - p 2) * (1 + p 2) *
        lobatto o0 (m0 * p 0) * d / 32
  | .face2 a b c o0 o1, 0, p => do
    let m0 := mirror a b
    let m1 := mirror a c
    let d ← lobattoDeriv o0 (m0 * p 0)
    return -p 0 * (1 + pos2 a * p 2) * (1 - p 1) * (1 + p 1) * lobatto o1 (m1 * p 1) *
        lobatto o0 (m0 * p 0) / 16 +
      m0 * (1 + pos2 a * p 2) * (1 - p 0) * (1 + p 0) * (1 - p 1) * (1 + p 1) *
        lobatto o1 (m1 * p 1) * d / 32
  | .face2 a b c o0 o1, 1, p => do
    let m0 := mirror a b
    let m1 := mirror a c
    let d ← lobattoDeriv o1 (m1 * p 1)
    return -p 1 * (1 + pos2 a * p 2) * (1 - p 0) * (1 + p 0) * lobatto o1 (m1 * p 1) *
        lobatto o0 (m0 * p 0) / 16 +
      m1 * (1 + pos2 a * p 2) * (1 - p 0) * (1 + p 0) * (1 - p 1) * (1 + p 1) * d *
        lobatto o0 (m0 * p 0) / 32
  | .face2 a b c o0 o1, 2, p =>
    some (pos2 a * (1 - p 0) * (1 + p 0) * (1 - p 1) * (1 + p 1) * lobatto o1 (mirror a c * p 1) *
      lobatto o0 (mirror a b * p 0) / 32)
  | .interior o0 o1 o2, 0, p => do
    let d ← lobattoDeriv o0 (p 0)
    return (1 - p 1) * (1 + p 1) * (1 - p 2) * (1 + p 2) * lobatto o1 (p 1) * lobatto o2 (p 2) *
      (-p 0 * lobatto o0 (p 0) / 32 + (1 - p 0) * (1 + p 0) * d / 64)
  | .interior o0 o1 o2, 1, p => do
    let d ← lobattoDeriv o1 (p 1)
    return (1 - p 0) * (1 + p 0) * (1 - p 2) * (1 + p 2) * lobatto o0 (p 0) * lobatto o2 (p 2) *
      (-p 1 * lobatto o1 (p 1) / 32 + (1 - p 1) * (1 + p 1) * d / 64)
  | .interior o0 o1 o2, 2, p => do
    let d ← lobattoDeriv o2 (p 2)
    return (1 - p 0) * (1 + p 0) * (1 - p 1) * (1 + p 1) * lobatto o0 (p 0) * lobatto o1 (p 1) *
      (-p 2 * lobatto o2 (p 2) / 32 + (1 - p 2) * (1 + p 2) * d / 64)

/-! ### Pyramid -/

/-- BasisFunctions3DH1ConformingPyramid.cpp:58-85. `eps` is the literal `1e-50`; it is a parameter
here because rational arithmetic with it would not be negligible as it is in `double`. -/
noncomputable def pyramidEval (eps : ℝ) (node : Fin 5) (p : Pt 3) : ℝ :=
  match node with
  | 0 => p 2
  | 1 => (1 - p 2 - p 0) * (1 - p 2 - p 1) / 4 / (1 - p 2 + eps)
  | 2 => (1 - p 2 + p 0) * (1 - p 2 - p 1) / 4 / (1 - p 2 + eps)
  | 3 => (1 - p 2 - p 0) * (1 - p 2 + p 1) / 4 / (1 - p 2 + eps)
  | 4 => (1 - p 2 + p 0) * (1 - p 2 + p 1) / 4 / (1 - p 2 + eps)

/-- BasisFunctions3DH1ConformingPyramid.cpp:89-92, 113-116, 137-140: points near the tip are moved
before a derivative is computed. -/
noncomputable def pyramidShift (p : Pt 3) : Pt 3 :=
  if |p 0| + |p 1| + |p 2 - 1| < 1e-14 then ![p 0, p 1, p 2 - 1e-10] else p

/-- BasisFunctions3DH1ConformingPyramid.cpp:87-169 -/
noncomputable def pyramidDeriv (node : Fin 5) (k : Fin 3) (pR : Pt 3) : ℝ :=
  let p := pyramidShift pR
  match node, k with
  | 0, 0 => 0
  | 1, 0 => -(1 - p 2 - p 1) / 4 / (1 - p 2)
  | 2, 0 => (1 - p 2 - p 1) / 4 / (1 - p 2)
  | 3, 0 => -(1 - p 2 + p 1) / 4 / (1 - p 2)
  | 4, 0 => (1 - p 2 + p 1) / 4 / (1 - p 2)
  | 0, 1 => 0
  | 1, 1 => -(1 - p 2 - p 0) / 4 / (1 - p 2)
  | 2, 1 => -(1 - p 2 + p 0) / 4 / (1 - p 2)
  | 3, 1 => (1 - p 2 - p 0) / 4 / (1 - p 2)
  | 4, 1 => (1 - p 2 + p 0) / 4 / (1 - p 2)
  | 0, 2 => 1
  | 1, 2 => (1 - p 2 - p 0) * (1 - p 2 - p 1) / 4 / (1 - p 2) / (1 - p 2) -
      (1 - p 2 - p 1) / 4 / (1 - p 2) - (1 - p 2 - p 0) / 4 / (1 - p 2)
  | 2, 2 => (1 - p 2 + p 0) * (1 - p 2 - p 1) / 4 / (1 - p 2) / (1 - p 2) -
      (1 - p 2 - p 1) / 4 / (1 - p 2) - (1 - p 2 + p 0) / 4 / (1 - p 2)
  | 3, 2 => (1 - p 2 - p 0) * (1 - p 2 + p 1) / 4 / (1 - p 2) / (1 - p 2) -
      (1 - p 2 + p 1) / 4 / (1 - p 2) - (1 - p 2 - p 0) / 4 / (1 - p 2)
  | 4, 2 => (1 - p 2 + p 0) * (1 - p 2 + p 1) / 4 / (1 - p 2) / (1 - p 2) -
      (1 - p 2 + p 1) / 4 / (1 - p 2) - (1 - p 2 + p 0) / 4 / (1 - p 2)

/-! ### Monomials -/

/-- BasisFunctionsMonomials.cpp:49-53 `ipow`: repeated multiplication. -/
def ipow (value : ℝ) : Nat → ℝ
  | 0 => 1
  | n + 1 => ipow value n * value

/-- BasisFunctionsMonomials.cpp:61-67 `evalDIM`, the loop over the coordinates is a left fold. -/
def monomialEval {d : Nat} (powers : Fin d → Nat) (p : Pt d) : ℝ :=
  (List.finRange d).foldl (fun result i => result * ipow (p i) (powers i)) 1

/-- BasisFunctionsMonomials.cpp:69-83 `evalDerivDIM` -/
def monomialDeriv {d : Nat} (powers : Fin d → Nat) (k : Fin d) (p : Pt d) : ℝ :=
  (List.finRange d).foldl
    (fun result i =>
      if i ≠ k then result * ipow (p i) (powers i)
      else if powers i ≠ 0 then result * ipow (p i) (powers i - 1)
      else 0)
    ((powers k : Nat) : ℝ)

end Verif.Basis
