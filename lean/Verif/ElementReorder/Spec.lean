import Verif.ElementReorder.Model
import Verif.RefGeometry.Model
import Mathlib.LinearAlgebra.Matrix.Determinant.Basic
import Mathlib.LinearAlgebra.Matrix.NonsingularInverse

/-! # Vocabulary: the nodes of the mesh file format and affine maps -/
namespace Verif.ElementReorder
open RefGeometry

/-- The reference nodes of the elements of the gmsh file format (its manual, section "Node ordering"):
end points of a line, corners of a polygon in cyclic order, bottom polygon before top polygon or
apex; second order elements add the midpoints of the edges 01, 12, 20, and for a tetrahedron
01, 12, 20, 30, 32, 31. -/
noncomputable def gmshPoint : List (Pt 0) := [![]]
noncomputable def gmshLine : List (Pt 1) := [![-1], ![1]]
noncomputable def gmshLine2 : List (Pt 1) := [![-1], ![1], ![0]]
noncomputable def gmshTriangle : List (Pt 2) := [![0, 0], ![1, 0], ![0, 1]]
noncomputable def gmshTriangle2 : List (Pt 2) :=
  [![0, 0], ![1, 0], ![0, 1], ![1 / 2, 0], ![1 / 2, 1 / 2], ![0, 1 / 2]]
noncomputable def gmshQuadrangle : List (Pt 2) := [![-1, -1], ![1, -1], ![1, 1], ![-1, 1]]
noncomputable def gmshTetrahedron : List (Pt 3) := [![0, 0, 0], ![1, 0, 0], ![0, 1, 0], ![0, 0, 1]]
noncomputable def gmshTetrahedron2 : List (Pt 3) :=
  [![0, 0, 0], ![1, 0, 0], ![0, 1, 0], ![0, 0, 1], ![1 / 2, 0, 0], ![1 / 2, 1 / 2, 0],
    ![0, 1 / 2, 0], ![0, 0, 1 / 2], ![0, 1 / 2, 1 / 2], ![1 / 2, 0, 1 / 2]]
noncomputable def gmshHexahedron : List (Pt 3) :=
  [![-1, -1, -1], ![1, -1, -1], ![1, 1, -1], ![-1, 1, -1],
    ![-1, -1, 1], ![1, -1, 1], ![1, 1, 1], ![-1, 1, 1]]
noncomputable def gmshPrism : List (Pt 3) :=
  [![0, 0, -1], ![1, 0, -1], ![0, 1, -1], ![0, 0, 1], ![1, 0, 1], ![0, 1, 1]]
noncomputable def gmshPyramid : List (Pt 3) :=
  [![-1, -1, 0], ![1, -1, 0], ![1, 1, 0], ![-1, 1, 0], ![0, 0, 1]]

/-- The nodes of the second order reference line, triangle and tetrahedron
(ReferenceCurvilinearLine.cpp:70-79, ReferenceCurvilinearTriangle.cpp:85-99,
ReferenceCurvilinearTetrahedron.cpp:87-104, at order 2). -/
noncomputable def hpLine2 : List (Pt 1) := [![-1], ![0], ![1]]
noncomputable def hpTriangle2 : List (Pt 2) :=
  [![0, 0], ![1 / 2, 0], ![1, 0], ![0, 1 / 2], ![1 / 2, 1 / 2], ![0, 1]]
noncomputable def hpTetrahedron2 : List (Pt 3) :=
  [![0, 0, 0], ![1 / 2, 0, 0], ![1, 0, 0], ![0, 1 / 2, 0], ![1 / 2, 1 / 2, 0], ![0, 1, 0],
    ![0, 0, 1 / 2], ![1 / 2, 0, 1 / 2], ![0, 1 / 2, 1 / 2], ![0, 0, 1]]

/-- An invertible affine map of `ℝ^d`. -/
structure Affine (d : Nat) where
  mat : Matrix (Fin d) (Fin d) ℝ
  shift : Pt d
  inv : mat.det ≠ 0

def Affine.map {d : Nat} (a : Affine d) (p : Pt d) : Pt d := a.mat.mulVec p + a.shift

/-- The mesh nodes `indices` lie at the image of `nodes` under the map `a`. -/
def PlacedBy {d : Nat} (pos : Nat → Pt d) (indices : List Nat) (nodes : List (Pt d)) (a : Affine d) :
    Prop :=
  indices.map pos = nodes.map a.map

/-- Reading an element whose nodes are an invertible affine image of the gmsh reference nodes gives
an element whose nodes are an invertible affine image of the hpGEM reference nodes. -/
def ReadCorrectly {d : Nat} (reg : Registry) (gmshNodes hpNodes : List (Pt d)) : Prop :=
  ∀ (pos : Nat → Pt d) (indices : List Nat) (a : Affine d), PlacedBy pos indices gmshNodes a →
    ∃ r b, reorderToHpGem reg d indices = some r ∧ PlacedBy pos r hpNodes b

end Verif.ElementReorder
