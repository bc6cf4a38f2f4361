import Verif.Common.Fill
import Verif.RefGeometry.Model
import Mathlib.Algebra.Group.Pi.Basic
import Mathlib.Algebra.BigOperators.Fin
import Mathlib.Analysis.Real.Sqrt
import Mathlib.Algebra.Order.Archimedean.Real.Basic

/-!
# Model of the Lagrange point lattices

kernel/Output/VTKLagrange*.cpp (the points of a VTK Lagrange element, in the order VTK expects) and
kernel/Geometry/ReferenceCurvilinear*.cpp (the nodes of a curved reference element). `double` is `ℝ`;
vectors are filled by assignments (`fill`), an assignment outside the vector gives `none`, a failed
`assert_always` as well. `writesFrom index l` stands for a run of `v[index++] = …`.
-/
namespace Verif.Lattice
open RefGeometry

/-- `std::valarray<std::size_t>` of length `k`. -/
abbrev IVec (k : Nat) := Fin k → Nat

/-! ## Triangle -/

/-- VTKLagrangeTriangle.cpp:70-97: the loop over the layers, from `layer` and `index` on; the
assignments and the final index. The first argument bounds the number of rounds. -/
def triLoop (order : Nat) : Nat → Nat → Nat → List (Nat × IVec 3) × Nat
  | 0, _, index => ([], index)
  | fuel + 1, layer, index =>
    if 3 * layer ≤ order then
      let offset : IVec 3 := ![layer, layer, layer]
      let r := order - 3 * layer
      if r = 0 then ([(index, offset + ![r, 0, 0])], index + 1)
      else
        let corners := [(index, offset + ![r, 0, 0]), (index + 1, offset + ![0, r, 0]),
          (index + 2, offset + ![0, 0, r])]
        let index := index + 3
        let edges := (List.range (r - 1)).flatMap fun i =>
          let i1 := i + 1
          let i2 := r - i - 1
          [(index + i + 0 * (r - 1), offset + ![i2, i1, 0]),
            (index + i + 1 * (r - 1), offset + ![0, i2, i1]),
            (index + i + 2 * (r - 1), offset + ![i1, 0, i2])]
        let rest := triLoop order fuel (layer + 1) (index + 3 * (r - 1))
        (corners ++ edges ++ rest.1, rest.2)
    else ([], index)

/-- VTKLagrangeTriangle.cpp:57-104 `computeBaryIntegerPoints` -/
def baryTriangle (order : Nat) : Option (List (IVec 3)) :=
  let numPoints := (order + 1) * (order + 2) / 2
  let (w, index) := triLoop order (order + 1) 0 0
  if index = numPoints then fill numPoints 0 w else none

/-- VTKLagrangeTriangle.cpp:45-55 -/
noncomputable def vtkTriangle (order : Nat) : Option (List (Pt 2)) :=
  (baryTriangle order).map fun bary =>
    let h : ℝ := 1 / order
    bary.map fun b => ![h * b 1, h * b 2]

/-! ## Tetrahedron -/

/-- VTKLagrangeTetrahedron.cpp:155-161 `faceMapping` -/
def faceMapping : List (Fin 3 → Fin 4) := [![0, 1, 3], ![2, 3, 1], ![0, 3, 2], ![0, 2, 1]]

/-- VTKLagrangeTetrahedron.cpp:165-168: the local point on a face. -/
def toFace (fm : Fin 3 → Fin 4) (b : IVec 3) : IVec 4 :=
  (List.finRange 3).foldl (fun l j => Function.update l (fm j) (b j)) ![0, 0, 0, 0]

/-- VTKLagrangeTetrahedron.cpp:75-173: the loop over the layers. -/
def tetLoop (order : Nat) : Nat → Nat → Nat → Option (List (Nat × IVec 4) × Nat)
  | 0, _, index => some ([], index)
  | fuel + 1, layer, index =>
    if 4 * layer ≤ order then
      let offset : IVec 4 := ![layer, layer, layer, layer]
      let r := order - 4 * layer
      if r = 0 then some ([(index, offset + ![r, 0, 0, 0])], index + 1)
      else do
        let corners := [(index, offset + ![r, 0, 0, 0]), (index + 1, offset + ![0, r, 0, 0]),
          (index + 2, offset + ![0, 0, r, 0]), (index + 3, offset + ![0, 0, 0, r])]
        let index := index + 4
        let edges := (List.range (r - 1)).flatMap fun i =>
          let ito := i + 1
          let ifrom := r - ito
          [(index + 0 * (r - 1) + i, offset + ![ifrom, ito, 0, 0]),
            (index + 1 * (r - 1) + i, offset + ![0, ifrom, ito, 0]),
            (index + 2 * (r - 1) + i, offset + ![ito, 0, ifrom, 0]),
            (index + 3 * (r - 1) + i, offset + ![ifrom, 0, 0, ito]),
            (index + 4 * (r - 1) + i, offset + ![0, ifrom, 0, ito]),
            (index + 5 * (r - 1) + i, offset + ![0, 0, ifrom, ito])]
        let index := index + 6 * (r - 1)
        let facePoints ← baryTriangle r
        let skip := 3 * r
        let toAdd := facePoints.length - skip
        let faces := faceMapping.flatMap fun fm => (List.range toAdd).map fun i =>
          offset + toFace fm (facePoints.getD (i + skip) 0)
        let rest ← tetLoop order fuel (layer + 1) (index + faces.length)
        some (corners ++ edges ++ writesFrom index faces ++ rest.1, rest.2)
    else some ([], index)

/-- VTKLagrangeTetrahedron.cpp:69-178: the scaled barycentric coordinates. -/
def baryTetrahedron (order : Nat) : Option (List (IVec 4)) := do
  let numPoints := (order + 1) * (order + 2) * (order + 3) / 6
  let (w, index) ← tetLoop order (order + 1) 0 0
  if index = numPoints then fill numPoints 0 w else none

/-- VTKLagrangeTetrahedron.cpp:47-185 -/
noncomputable def vtkTetrahedron (order : Nat) : Option (List (Pt 3)) :=
  (baryTetrahedron order).map fun bary =>
    let h : ℝ := 1 / order
    bary.map fun b => ![h * b 1, h * b 2, h * b 3]

/-! ## Curve, quadrilateral, hexahedron; order at least one (`order - 1` wraps around for 0) -/

/-- VTKLagrangeCurve.cpp:43-52 -/
noncomputable def vtkCurve (order : Nat) : Option (List (Pt 1)) :=
  let h : ℝ := 2 / order
  let ends : List (Nat × Pt 1) := [(0, ![-1]), (1, ![1])]
  fill (1 + order) 0 (ends ++
    (List.range' 1 (order - 1)).map fun (i : Nat) => (i + 1, ![-1 + i * h]))

/-- VTKLagrangeQuadrilateral.cpp:44-79 -/
noncomputable def vtkQuadrilateral (order : Nat) : Option (List (Pt 2)) :=
  let h : ℝ := 2 / order
  let corners : List (Nat × Pt 2) := [(0, ![-1, -1]), (1, ![1, -1]), (2, ![1, 1]), (3, ![-1, 1])]
  let sides : List (Nat × Pt 2) := (List.range (order - 1)).flatMap fun (i : Nat) =>
    [(4 + 0 * order + i, ![-1 + (i + 1) * h, -1]), (3 + 1 * order + i, ![1, -1 + (i + 1) * h]),
      (2 + 2 * order + i, ![-1 + (i + 1) * h, 1]), (1 + 3 * order + i, ![-1, -1 + (i + 1) * h])]
  let inner : List (Pt 2) := (List.range (order - 1)).flatMap fun (i : Nat) =>
    let y : ℝ := -1 + (i + 1) * h
    (List.range (order - 1)).map fun (j : Nat) =>
      let x : ℝ := -1 + (j + 1) * h
      ![x, y]
  fill ((order + 1) * (order + 1)) 0 (corners ++ sides ++ writesFrom (4 * order) inner)

/-- VTKLagrangeHexahedron.cpp:43-133 -/
noncomputable def vtkHexahedron (order : Nat) : Option (List (Pt 3)) :=
  let h : ℝ := 2 / order
  let corners : List (Nat × Pt 3) :=
    [(0, ![-1, -1, -1]), (1, ![1, -1, -1]), (2, ![1, 1, -1]), (3, ![-1, 1, -1]),
      (4, ![-1, -1, 1]), (5, ![1, -1, 1]), (6, ![1, 1, 1]), (7, ![-1, 1, 1])]
  let offset : Nat := 8
  let m := order - 1
  let edges : List (Nat × Pt 3) := (List.range m).flatMap fun (i : Nat) =>
    let dx : ℝ := (i + 1) * h
    [(offset + 0 * m + i, ![-1 + dx, -1, -1]), (offset + 1 * m + i, ![1, -1 + dx, -1]),
      (offset + 2 * m + i, ![-1 + dx, 1, -1]), (offset + 3 * m + i, ![-1, -1 + dx, -1]),
      (offset + 4 * m + i, ![-1 + dx, -1, 1]), (offset + 5 * m + i, ![1, -1 + dx, 1]),
      (offset + 6 * m + i, ![-1 + dx, 1, 1]), (offset + 7 * m + i, ![-1, -1 + dx, 1]),
      (offset + 8 * m + i, ![-1, -1, -1 + dx]), (offset + 9 * m + i, ![1, -1, -1 + dx]),
      (offset + 10 * m + i, ![-1, 1, -1 + dx]), (offset + 11 * m + i, ![1, 1, -1 + dx])]
  let offset := offset + 12 * m
  let facePoints := m * m
  let faces : List (Nat × Pt 3) := (List.range m).flatMap fun (i : Nat) =>
    let slow : ℝ := -1 + (i + 1) * h
    (List.range m).flatMap fun (j : Nat) =>
      let fast : ℝ := -1 + (j + 1) * h
      [(offset + 0 * facePoints + i * m + j, ![-1, fast, slow]),
        (offset + 1 * facePoints + i * m + j, ![1, fast, slow]),
        (offset + 2 * facePoints + i * m + j, ![fast, -1, slow]),
        (offset + 3 * facePoints + i * m + j, ![fast, 1, slow]),
        (offset + 4 * facePoints + i * m + j, ![fast, slow, -1]),
        (offset + 5 * facePoints + i * m + j, ![fast, slow, 1])]
  let offset := offset + 6 * facePoints
  let inner : List (Pt 3) := (List.range m).flatMap fun (zi : Nat) =>
    let z : ℝ := -1 + (zi + 1) * h
    (List.range m).flatMap fun (yi : Nat) =>
      let y : ℝ := -1 + (yi + 1) * h
      (List.range m).map fun (xi : Nat) =>
        let x : ℝ := -1 + (xi + 1) * h
        ![x, y, z]
  fill ((order + 1) * (order + 1) * (order + 1)) 0 (corners ++ edges ++ faces ++ writesFrom offset inner)

/-! ## Curved reference elements -/

/-- ReferenceCurvilinearLine.cpp:70-79 -/
noncomputable def curvedLine (order : Nat) : List (Pt 1) :=
  let h : ℝ := 2 / order
  (List.range (order + 1)).map fun (i : Nat) => ![-1 + i * h]

/-- ReferenceCurvilinearTriangle.cpp:85-99 -/
noncomputable def curvedTriangle (order : Nat) : List (Pt 2) :=
  let h : ℝ := 1 / order
  (List.range (order + 1)).flatMap fun (i : Nat) =>
    (List.range (order + 1 - i)).map fun (j : Nat) => ![j * h, i * h]

/-- ReferenceCurvilinearTetrahedron.cpp:87-104 -/
noncomputable def curvedTetrahedron (order : Nat) : List (Pt 3) :=
  let h : ℝ := 1 / order
  (List.range (order + 1)).flatMap fun (iz : Nat) =>
    (List.range (order + 1 - iz)).flatMap fun (iy : Nat) =>
      (List.range (order + 1 - iz - iy)).map fun (ix : Nat) => ![ix * h, iy * h, iz * h]

/-- `std::lround`: to the nearest integer, halves away from zero. -/
noncomputable def lround (x : ℝ) : ℤ := if 0 ≤ x then ⌊x + 1 / 2⌋ else ⌈x - 1 / 2⌉

/-- ReferenceCurvilinearTriangle.cpp:52-66 `getOrderFromPoints`, for at least one point. The square
root is exact. -/
noncomputable def triangleOrderFromPoints (numberOfPoints : Nat) : ℤ :=
  let orderD : ℝ := -3 / 2 + Real.sqrt (9 + 8 * ((numberOfPoints : ℝ) - 1)) / 2
  let order := lround orderD
  if (order + 2) * (order + 1) / 2 = numberOfPoints then order else -1

/-- ReferenceCurvilinearTetrahedron.cpp:58-65: the loop, with a bound on the number of rounds. -/
def tetOrderLoop (numberOfPoints : Nat) : Nat → Nat → Nat → ℤ
  | 0, _, _ => -1
  | fuel + 1, tetraNumber, order =>
    if tetraNumber ≤ numberOfPoints then
      if tetraNumber = numberOfPoints then order
      else
        let order := order + 1
        tetOrderLoop numberOfPoints fuel (tetraNumber + ((order + 1) * (order + 2)) / 2) order
    else -1

/-- ReferenceCurvilinearTetrahedron.cpp:54-67 `getOrderFromPoints`; every round adds at least one. -/
def tetrahedronOrderFromPoints (numberOfPoints : Nat) : ℤ :=
  tetOrderLoop numberOfPoints (numberOfPoints + 1) 1 0

/-- ReferenceCurvilinearElement_Impl.h:200-213 `findPoint`: the first point closer than `EPS`;
`logger.fail` when there is none. -/
noncomputable def findPoint {d : Nat} (points : List (Pt d)) (p : Pt d) : Option Nat :=
  points.findIdx? fun q => decide (∑ i, (p i - q i) ^ 2 < (1e-8 : ℝ) * 1e-8)

/-- ReferenceCurvilinearElement_Impl.h:84-89, 232-249, 259-276: the indices of the corners and of the
nodes of a face or edge with nodes `nodes` that `map` sends into the element. -/
noncomputable def nodeIndices {d e : Nat} (points : List (Pt d)) (map : Pt e → Pt d)
    (nodes : List (Pt e)) : Option (List Nat) :=
  nodes.mapM fun x => findPoint points (map x)

end Verif.Lattice
