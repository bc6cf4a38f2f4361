import Mathlib.Data.List.Sort

/-! # The element shapes of the preprocessor

Models `applications/Preprocessor/lib/mesh/{elementShape.h,elementShape_impl.h,ElementShapes.cpp}`. `none` stands for
an index outside a vector. -/
namespace Verif.ElementShape

/-- `ElementShape` (elementShape.h:157-335): for every dimension up to `dim` the node lists of the parts
(`ElementShapePart`, elementShape.h:60-124). The shape of a part is not stored: its constructor only compares the number
of nodes. -/
structure Shape where
  dim : Nat
  parts : Nat → List (List Nat)

/-- `getNumberOfEntities` (elementShape_impl.h:46-51). -/
def Shape.count (s : Shape) (d : Nat) : Nat := (s.parts d).length

/-- `std::includes` on sorted ranges: is every element of the second range found in the first one. -/
def includes : List Nat → List Nat → Bool
  | _, [] => true
  | [], _ :: _ => false
  | x :: xs, y :: ys =>
    if y < x then false
    else if x < y then includes xs (y :: ys)
    else includes xs ys

/-- `std::sort`. -/
def sort (l : List Nat) : List Nat := l.insertionSort (· ≤ ·)

/-- The loop over the candidates of `completeSubShapes` (elementShape_impl.h:222-252): the indices of the parts of
dimension `t` that lie on, or contain, a part with nodes `nodes` of dimension `d`. -/
def connected (s : Shape) (d t : Nat) (nodes : List Nat) : List Nat :=
  (List.range (s.count t)).filter fun i =>
    match (s.parts t)[i]? with
    | none => false
    | some candidate =>
      if t < d then includes (sort nodes) (sort candidate) else includes (sort candidate) (sort nodes)

/-- `getAdjacentEntities<d, t>(i)` (elementShape_impl.h:67-80) after `completeSubShapes` (elementShape_impl.h:192-264)
has filled the tables. The nodes (`t = 0`) are input. The part itself is stored as `{entityDimension}`
(elementShape_impl.h:211-212). -/
def Shape.adjacent (s : Shape) (d t i : Nat) : Option (List Nat) :=
  match (s.parts d)[i]? with
  | none => none
  | some nodes =>
    if t = 0 then some nodes
    else if t = d then some [d]
    else some (connected s d t nodes)

/-- `generateVertices` (ElementShapes.cpp:193-200). -/
def vertices (n : Nat) : List (List Nat) := (List.range n).map fun i => [i]

/-- The part for the whole element, added by the constructor (elementShape.h:197-203). -/
def whole (n : Nat) : List (List Nat) := [List.range n]

/-- ElementShapes.cpp:74-76. -/
def lineShape (n : Nat) : Shape :=
  ⟨1, fun | 0 => vertices n | 1 => whole n | _ => []⟩

/-- A two-dimensional shape from its edges and number of vertices. -/
def shape2 (edges : List (List Nat)) (n : Nat) : Shape :=
  ⟨2, fun | 0 => vertices n | 1 => edges | 2 => whole n | _ => []⟩

/-- A three-dimensional shape from its faces, edges and number of vertices. -/
def shape3 (faces edges : List (List Nat)) (n : Nat) : Shape :=
  ⟨3, fun | 0 => vertices n | 1 => edges | 2 => faces | 3 => whole n | _ => []⟩

/-- ElementShapes.cpp:74. -/
def line : Shape := lineShape 2
/-- ElementShapes.cpp:76. -/
def line2 : Shape := lineShape 3
/-- ElementShapes.cpp:78-82. -/
def triangle : Shape := shape2 [[0, 1], [0, 2], [1, 2]] 3
/-- ElementShapes.cpp:83-87. -/
def square : Shape := shape2 [[0, 1], [0, 2], [1, 3], [2, 3]] 4
/-- ElementShapes.cpp:89-94. -/
def triangle2 : Shape := shape2 [[0, 1, 2], [0, 3, 5], [2, 4, 5]] 6
/-- ElementShapes.cpp:96-107. -/
def tetrahedron : Shape :=
  shape3 [[0, 3, 2], [0, 1, 3], [0, 2, 1], [1, 2, 3]] [[0, 1], [0, 2], [0, 3], [2, 3], [1, 3], [1, 2]] 4
/-- ElementShapes.cpp:109-133. -/
def cube : Shape :=
  shape3 [[0, 1, 2, 3], [0, 1, 4, 5], [0, 2, 4, 6], [1, 3, 5, 7], [2, 3, 6, 7], [4, 5, 6, 7]]
    [[0, 1], [2, 3], [4, 5], [6, 7], [0, 2], [1, 3], [4, 6], [5, 7], [0, 4], [1, 5], [2, 6], [3, 7]] 8
/-- ElementShapes.cpp:135-154. -/
def triangularPrism : Shape :=
  shape3 [[0, 2, 1], [3, 4, 5], [2, 0, 5, 3], [0, 1, 3, 4], [1, 2, 4, 5]]
    [[0, 1], [0, 2], [1, 2], [3, 4], [3, 5], [4, 5], [0, 3], [1, 4], [2, 5]] 6
/-- ElementShapes.cpp:155-169. -/
def pyramid : Shape :=
  shape3 [[3, 4, 1, 2], [3, 1, 0], [2, 4, 0], [1, 2, 0], [4, 3, 0]]
    [[0, 1], [0, 2], [0, 3], [0, 4], [1, 2], [2, 4], [4, 3], [3, 1]] 5
/-- ElementShapes.cpp:171-189. -/
def tetrahedron2 : Shape :=
  shape3 [[0, 6, 9, 3, 8, 5], [0, 1, 2, 6, 7, 9], [0, 3, 5, 1, 4, 2], [2, 4, 5, 7, 8, 9]]
    [[0, 1, 2], [0, 3, 5], [0, 6, 9], [5, 8, 9], [2, 7, 9], [2, 4, 5]] 10

/-- `hpgemShapes` (ElementShapes.cpp:214-220). -/
def hpgemShapes : Nat → List Shape
  | 1 => [line, line2]
  | 2 => [triangle, triangle2, square]
  | 3 => [tetrahedron, cube, triangularPrism, pyramid, tetrahedron2]
  | _ => []

/-- `Mesh::findGeometry` (Mesh_Impl.h:297-306): the first shape with the number of nodes. -/
def findGeometry (shapes : List Shape) (n : Nat) : Option Shape := shapes.find? fun s => s.count 0 = n

end Verif.ElementShape
