import Verif.Basis.Model

/-!
# Model of the basis function sets

A `BasisFunctionSet` (kernel/FE/BasisFunctionSet.h) is the list of its functions in the order in
which they were added. The `createDG…` functions make the set of a discontinuous method, the
`createVertex…`, `createEdge…`, `createFace…` and `createInterior…` functions make the sets of a
conforming method. The conforming functions assert `order > 0` in debug builds.
-/
namespace Verif.Basis

/-- `for (std::size_t i = 0; i + c <= order; ++i)` -/
def upTo (c order : Nat) : List Nat := List.range (order + 1 - c)

/-- OrientedBasisFunctionSet.h:54-80: a set with the codimension 0 mapping index it is meant for and
the local number of the face (or edge). -/
structure OrientedSet (F : Type) where
  orientation : Nat
  face : Nat
  fns : List F

/-! ### Line -/

/-- BasisFunctions1DH1ConformingLine.cpp:75-88 `createDGBasisFunctions1DH1Line` -/
def lineDG (order : Nat) : List LineFn :=
  if order > 0 then [.vertex 0, .vertex 1] ++ (upTo 2 order).map .interior else [.constant]

/-- BasisFunctions1DH1ConformingLine.cpp:100-110 -/
def lineInterior (order : Nat) : List LineFn := (upTo 2 order).map .interior

/-- BasisFunctions1DH1ConformingLine.cpp:112-126 -/
def lineVertexSets (_order : Nat) : List (OrientedSet LineFn) :=
  [⟨0, 0, [.vertex 0]⟩, ⟨0, 1, [.vertex 1]⟩]

/-! ### Triangle -/

/-- ReferenceTriangle.cpp:59-60, the nodes of the faces. -/
def triangleFaceNodes : List (Fin 3 × Fin 3) := [(0, 1), (0, 2), (1, 2)]

/-- BasisFunctions2DH1ConformingTriangle.cpp:176-201 -/
def triangleDG (order : Nat) : List TriangleFn :=
  if order > 0 then
    (List.finRange 3).map .vertex ++
    (upTo 2 order).flatMap fun k =>
      ((List.finRange 3).flatMap fun i =>
        ((List.finRange 3).filter (· < i)).map fun j => .face i j k) ++
      if k + 3 ≤ order then (List.range (k + 1)).map fun j => .interior (k - j) j else []
  else [.constant]

/-- BasisFunctions2DH1ConformingTriangle.cpp:211-223 -/
def triangleInterior (order : Nat) : List TriangleFn :=
  (upTo 3 order).flatMap fun i => (upTo (i + 3) order).map fun j => .interior i j

/-- BasisFunctions2DH1ConformingTriangle.cpp:225-238 -/
def triangleVertexSets (_order : Nat) : List (List TriangleFn) :=
  (List.finRange 3).map fun i => [.vertex i]

/-- BasisFunctions2DH1ConformingTriangle.cpp:240-266 -/
def triangleFaceSets (order : Nat) : List (OrientedSet TriangleFn) :=
  triangleFaceNodes.zipIdx.flatMap fun ((v0, v1), i) =>
    [⟨0, i, (upTo 2 order).map fun j => .face v0 v1 j⟩,
     ⟨1, i, (upTo 2 order).map fun j => .face v1 v0 j⟩]

/-! ### Square -/

/-- ReferenceSquare.cpp:60-61, the nodes of the faces. -/
def squareFaceNodes : List (Fin 4 × Fin 4) := [(0, 1), (0, 2), (1, 3), (2, 3)]

/-- BasisFunctions2DH1ConformingSquare.cpp:164-184 -/
def squareDG (order : Nat) : List SquareFn :=
  if order > 0 then
    (List.finRange 4).map .vertex ++
    (upTo 2 order).flatMap fun i =>
      [.face0 0 1 i, .face0 2 3 i, .face1 0 2 i, .face1 1 3 i] ++
      (upTo 2 order).map fun j => .interior i j
  else [.constant]

/-- BasisFunctions2DH1ConformingSquare.cpp:186-197 -/
def squareInterior (order : Nat) : List SquareFn :=
  (upTo 2 order).flatMap fun i => (upTo 2 order).map fun j => .interior i j

/-- BasisFunctions2DH1ConformingSquare.cpp:199-212 -/
def squareVertexSets (_order : Nat) : List (List SquareFn) :=
  (List.finRange 4).map fun i => [.vertex i]

/-- The class chosen at BasisFunctions2DH1ConformingSquare.cpp:228-233, 238-243. -/
def squareFaceFn (v0 v1 : Fin 4) (j : Nat) : SquareFn :=
  if (v0.val + v1.val) % 2 = 1 then .face0 v0 v1 j else .face1 v0 v1 j

/-- BasisFunctions2DH1ConformingSquare.cpp:214-247 -/
def squareFaceSets (order : Nat) : List (OrientedSet SquareFn) :=
  squareFaceNodes.zipIdx.flatMap fun ((v0, v1), i) =>
    [⟨0, i, (upTo 2 order).map fun j => squareFaceFn v0 v1 j⟩,
     ⟨1, i, (upTo 2 order).map fun j => squareFaceFn v1 v0 j⟩]

/-! ### Tetrahedron -/

/-- ReferenceTetrahedron.cpp:59-60, the nodes of the edges. -/
def tetEdgeNodes : List (Fin 4 × Fin 4) := [(0, 1), (0, 2), (0, 3), (2, 3), (1, 3), (1, 2)]

/-- ReferenceTetrahedron.cpp:56-57, the nodes of the faces. -/
def tetFaceNodes : List (Fin 4 × Fin 4 × Fin 4) := [(0, 3, 2), (0, 1, 3), (0, 2, 1), (1, 2, 3)]

/-- The order in which the nodes of a triangular face are passed for orientation 0, …, 5:
BasisFunctions3DH1ConformingTetrahedron.cpp:483-536, BasisFunctions3DH1ConformingPrism.cpp:638-691 -/
def trianglePerms {α : Type} : α × α × α → List (α × α × α)
  | (a, b, c) => [(a, b, c), (a, c, b), (b, c, a), (b, a, c), (c, b, a), (c, a, b)]

/-- BasisFunctions3DH1ConformingTetrahedron.cpp:366-409 -/
def tetDG (order : Nat) : List TetFn :=
  if order > 0 then
    (List.finRange 4).map .vertex ++
    (upTo 2 order).flatMap fun j =>
      (tetEdgeNodes.map fun (a, b) => .edge a b j) ++
      (if j > 0 then
        tetFaceNodes.flatMap fun (a, b, c) => (upTo 1 j).map fun k => .face a b c (j - k - 1) k
       else []) ++
      (if j > 1 then
        (upTo 2 j).flatMap fun i => (upTo (i + 2) j).map fun k => .interior i (j - i - k - 2) k
       else [])
  else [.constant]

/-- BasisFunctions3DH1ConformingTetrahedron.cpp:411-426 -/
def tetInterior (order : Nat) : List TetFn :=
  (upTo 4 order).flatMap fun i => (upTo (i + 4) order).flatMap fun j =>
    (upTo (i + j + 4) order).map fun k => .interior i j k

/-- BasisFunctions3DH1ConformingTetrahedron.cpp:428-441 -/
def tetVertexSets (_order : Nat) : List (List TetFn) := (List.finRange 4).map fun i => [.vertex i]

/-- BasisFunctions3DH1ConformingTetrahedron.cpp:443-469 -/
def tetEdgeSets (order : Nat) : List (OrientedSet TetFn) :=
  tetEdgeNodes.zipIdx.flatMap fun ((v0, v1), i) =>
    [⟨0, i, (upTo 2 order).map fun j => .edge v0 v1 j⟩,
     ⟨1, i, (upTo 2 order).map fun j => .edge v1 v0 j⟩]

/-- BasisFunctions3DH1ConformingTetrahedron.cpp:471-539 -/
def tetFaceSets (order : Nat) : List (OrientedSet TetFn) :=
  tetFaceNodes.zipIdx.flatMap fun (v, i) =>
    (trianglePerms v).zipIdx.map fun ((a, b, c), o) =>
      ⟨o, i, (upTo 3 order).flatMap fun j => (upTo (j + 3) order).map fun k => .face a b c j k⟩

/-! ### Triangular prism -/

/-- ReferenceTriangularPrism.cpp:52-53: edges 0-5 lie on the triangles, edges 6-8 connect them. -/
def prismTriEdgeNodes : List (Fin 6 × Fin 6) := [(0, 1), (0, 2), (1, 2), (3, 4), (3, 5), (4, 5)]

/-- ReferenceTriangularPrism.cpp:52-53, edges 6-8. -/
def prismSideEdgeNodes : List (Fin 6 × Fin 6) := [(0, 3), (1, 4), (2, 5)]

/-- ReferenceTriangularPrism.cpp:49-50, faces 0 and 1. -/
def prismTriFaceNodes : List (Fin 6 × Fin 6 × Fin 6) := [(0, 2, 1), (3, 4, 5)]

/-- ReferenceTriangularPrism.cpp:49-50, faces 2, 3, 4. -/
def prismSquareFaceNodes : List (Fin 6 × Fin 6 × Fin 6 × Fin 6) :=
  [(2, 0, 5, 3), (0, 1, 3, 4), (1, 2, 4, 5)]

/-- BasisFunctions3DH1ConformingPrism.cpp:489-549 -/
def prismDG (order : Nat) : List PrismFn :=
  if order > 0 then
    (List.finRange 6).map .vertex ++
    (upTo 2 order).flatMap fun j =>
      (prismTriEdgeNodes.map fun (a, b) => .edge0 a b j) ++
      (prismSideEdgeNodes.map fun (a, b) => .edge1 a b j) ++
      (prismTriFaceNodes.flatMap fun (a, b, c) =>
        (List.range j).map fun k => .face0 a b c (j - k - 1) k) ++
      (prismSquareFaceNodes.flatMap fun (a, b, c, _) =>
        [.face1 a b c j j] ++
        (List.range j).flatMap fun k => [.face1 a b c j k, .face1 a b c k j]) ++
      ((List.range j).flatMap fun i => (List.range (j - i)).flatMap fun k =>
        [.interior i j k, .interior j i k, .interior i k j])
  else [.constant]

/-- BasisFunctions3DH1ConformingPrism.cpp:551-566 -/
def prismInterior (order : Nat) : List PrismFn :=
  (upTo 3 order).flatMap fun i => (upTo (i + 3) order).flatMap fun j =>
    (upTo 2 order).map fun k => .interior i j k

/-- BasisFunctions3DH1ConformingPrism.cpp:568-581 -/
def prismVertexSets (_order : Nat) : List (List PrismFn) :=
  (List.finRange 6).map fun i => [.vertex i]

/-- BasisFunctions3DH1ConformingPrism.cpp:583-624 -/
def prismEdgeSets (order : Nat) : List (OrientedSet PrismFn) :=
  (prismTriEdgeNodes.zipIdx.flatMap fun ((v0, v1), i) =>
    [⟨0, i, (upTo 2 order).map fun j => .edge0 v0 v1 j⟩,
     ⟨1, i, (upTo 2 order).map fun j => .edge0 v1 v0 j⟩]) ++
  ((prismSideEdgeNodes.zipIdx 6).flatMap fun ((v0, v1), i) =>
    [⟨0, i, (upTo 2 order).map fun j => .edge1 v0 v1 j⟩,
     ⟨1, i, (upTo 2 order).map fun j => .edge1 v1 v0 j⟩])

/-- The order in which the nodes of a square face are passed for orientation 0, …, 7,
BasisFunctions3DH1ConformingPrism.cpp:695-766. -/
def prismSquarePerms {α : Type} : α × α × α × α → List (α × α × α)
  | (a, b, c, d) => [(a, b, c), (b, c, d), (c, d, a), (d, a, b), (d, c, b), (b, a, d), (c, b, a),
      (a, d, c)]

/-- BasisFunctions3DH1ConformingPrism.cpp:626-769. The square faces get functions of the class for
triangular faces (lines 693-767), as in the code. -/
def prismFaceSets (order : Nat) : List (OrientedSet PrismFn) :=
  (prismTriFaceNodes.zipIdx.flatMap fun (v, i) =>
    (trianglePerms v).zipIdx.map fun ((a, b, c), o) =>
      ⟨o, i, (upTo 3 order).flatMap fun j => (upTo (j + 3) order).map fun k => .face0 a b c j k⟩) ++
  ((prismSquareFaceNodes.zipIdx 2).flatMap fun (v, i) =>
    (prismSquarePerms v).zipIdx.map fun ((a, b, c), o) =>
      ⟨o, i, (upTo 2 order).flatMap fun j => (upTo 2 order).map fun k => .face0 a b c j k⟩)

/-! ### Cube -/

/-- ReferenceCube.cpp:56-59, edges 0-3, 4-7 and 8-11: those in direction 0, 1 and 2. -/
def cubeEdgeNodes0 : List (Fin 8 × Fin 8) := [(0, 1), (2, 3), (4, 5), (6, 7)]
/-- See `cubeEdgeNodes0`. -/
def cubeEdgeNodes1 : List (Fin 8 × Fin 8) := [(0, 2), (1, 3), (4, 6), (5, 7)]
/-- See `cubeEdgeNodes0`. -/
def cubeEdgeNodes2 : List (Fin 8 × Fin 8) := [(0, 4), (1, 5), (2, 6), (3, 7)]

/-- ReferenceCube.cpp:52-54, the nodes of the faces. -/
def cubeFaceNodes : List (Fin 8 × Fin 8 × Fin 8 × Fin 8) :=
  [(0, 1, 2, 3), (0, 1, 4, 5), (0, 2, 4, 6), (1, 3, 5, 7), (2, 3, 6, 7), (4, 5, 6, 7)]

/-- BasisFunctions3DH1ConformingCube.cpp:434-528 -/
def cubeDG (order : Nat) : List CubeFn :=
  if order > 0 then
    (List.finRange 8).map .vertex ++
    (upTo 2 order).flatMap fun j =>
      (cubeEdgeNodes0.map fun (a, b) => .edge0 a b j) ++
      (cubeEdgeNodes1.map fun (a, b) => .edge1 a b j) ++
      (cubeEdgeNodes2.map fun (a, b) => .edge2 a b j) ++
      [.face2 0 1 2 j j, .face1 0 1 4 j j, .face0 0 2 4 j j, .face0 1 3 5 j j, .face1 2 3 6 j j,
       .face2 4 5 6 j j, .interior j j j] ++
      (List.range j).flatMap fun i =>
        [.face2 0 1 2 i j, .face1 0 1 4 i j, .face0 0 2 4 i j, .face0 1 3 5 i j, .face1 2 3 6 i j,
         .face2 4 5 6 i j, .face2 0 1 2 j i, .face1 0 1 4 j i, .face0 0 2 4 j i, .face0 1 3 5 j i,
         .face1 2 3 6 j i, .face2 4 5 6 j i, .interior i i j, .interior i j i, .interior j i i,
         .interior j j i, .interior j i j, .interior i j j] ++
        (List.range i).flatMap fun k =>
          [.interior i j k, .interior i k j, .interior j i k, .interior j k i, .interior k i j,
           .interior k j i]
  else [.constant]

/-- BasisFunctions3DH1ConformingCube.cpp:530-544 -/
def cubeInterior (order : Nat) : List CubeFn :=
  (upTo 2 order).flatMap fun i => (upTo 2 order).flatMap fun j =>
    (upTo 2 order).map fun k => .interior i j k

/-- BasisFunctions3DH1ConformingCube.cpp:546-560 -/
def cubeVertexSets (_order : Nat) : List (List CubeFn) := (List.finRange 8).map fun i => [.vertex i]

/-- BasisFunctions3DH1ConformingCube.cpp:562-617 -/
def cubeEdgeSets (order : Nat) : List (OrientedSet CubeFn) :=
  (cubeEdgeNodes0.zipIdx.flatMap fun ((v0, v1), i) =>
    [⟨0, i, (upTo 2 order).map fun j => .edge0 v0 v1 j⟩,
     ⟨1, i, (upTo 2 order).map fun j => .edge0 v1 v0 j⟩]) ++
  ((cubeEdgeNodes1.zipIdx 4).flatMap fun ((v0, v1), i) =>
    [⟨0, i, (upTo 2 order).map fun j => .edge1 v0 v1 j⟩,
     ⟨1, i, (upTo 2 order).map fun j => .edge1 v1 v0 j⟩]) ++
  ((cubeEdgeNodes2.zipIdx 8).flatMap fun ((v0, v1), i) =>
    [⟨0, i, (upTo 2 order).map fun j => .edge2 v0 v1 j⟩,
     ⟨1, i, (upTo 2 order).map fun j => .edge2 v1 v0 j⟩])

/-- The order in which the nodes of a face of the cube are passed for orientation 0, …, 7, e.g.
BasisFunctions3DH1ConformingCube.cpp:629-700. -/
def cubeSquarePerms {α : Type} : α × α × α × α → List (α × α × α)
  | (a, b, c, d) => [(a, b, c), (b, d, a), (d, c, b), (c, a, d), (c, d, a), (b, a, d), (d, b, c),
      (a, c, b)]

/-- The class of the functions of face `i`: BasisFunctions3DH1ConformingCube.cpp:629-1067. -/
def cubeFaceFn (i : Nat) (a b c : Fin 8) (j k : Nat) : CubeFn :=
  if i = 0 ∨ i = 5 then .face2 a b c j k
  else if i = 1 ∨ i = 4 then .face1 a b c j k
  else .face0 a b c j k

/-- BasisFunctions3DH1ConformingCube.cpp:619-1067 -/
def cubeFaceSets (order : Nat) : List (OrientedSet CubeFn) :=
  cubeFaceNodes.zipIdx.flatMap fun (v, i) =>
    (cubeSquarePerms v).zipIdx.map fun ((a, b, c), o) =>
      ⟨o, i, (upTo 2 order).flatMap fun j => (upTo 2 order).map fun k => cubeFaceFn i a b c j k⟩

/-! ### Monomials -/

/-- BasisFunctionsMonomials.cpp:174-209 `assembleMonomialBasisFunctions{1,2,3,4}D`: the exponents in
the order of the nested loops. -/
def monomials1 (maxPower : Nat) : List (Fin 1 → Nat) := (upTo 0 maxPower).map fun i => ![i]
/-- See `monomials1`. -/
def monomials2 (maxPower : Nat) : List (Fin 2 → Nat) :=
  (upTo 0 maxPower).flatMap fun i => (upTo i maxPower).map fun j => ![i, j]
/-- See `monomials1`. -/
def monomials3 (maxPower : Nat) : List (Fin 3 → Nat) :=
  (upTo 0 maxPower).flatMap fun i => (upTo i maxPower).flatMap fun j =>
    (upTo (i + j) maxPower).map fun k => ![i, j, k]
/-- See `monomials1`. -/
def monomials4 (maxPower : Nat) : List (Fin 4 → Nat) :=
  (upTo 0 maxPower).flatMap fun i => (upTo i maxPower).flatMap fun j =>
    (upTo (i + j) maxPower).flatMap fun k => (upTo (i + j + k) maxPower).map fun l => ![i, j, k, l]

end Verif.Basis
