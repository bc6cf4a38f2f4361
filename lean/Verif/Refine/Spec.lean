import Verif.Refine.Model
import Mathlib.Analysis.Calculus.FDeriv.Basic
import Mathlib.Topology.Algebra.Module.FiniteDimension
import Mathlib.LinearAlgebra.Matrix.ToLin
import Mathlib.Topology.Instances.Real.Lemmas
import Mathlib.Analysis.Normed.Module.Basic

/-! # Vocabulary for statements about refinements -/
namespace Verif.Refine
open Verif.RefGeometry (Pt Geom Face)

/-- The points of a reference shape: those for which `isInternalPoint` holds. -/
def Shape.body {d : Nat} (sh : Shape d) : Set (Pt d) := {p | sh.geom.isInternal p}

/-- The position of corner `k` of a reference shape (zero for corners that do not exist). -/
def Shape.corner {d : Nat} (sh : Shape d) (k : Nat) : Pt d := sh.geom.nodes.getD k 0

/-- `getRefinementMappingMatrixL` is the derivative of `refinementTransform` at each point of the sub-element, and
`getRefinementMappingMatrixR` is its inverse. -/
def MatricesFit {d : Nat} (n : Name d) (s : Nat) : Prop :=
  ∃ (T : Pt d → Pt d) (sh : Shape d), (∀ p, n.table.transform s p = some (T p)) ∧ n.table.subShape s = some sh ∧
    ∀ p ∈ sh.body, ∃ L R, n.table.left s p = some L ∧ n.table.right s p = some R ∧
      HasFDerivAt T L.mulVecLin.toContinuousLinearMap p ∧ L * R = 1 ∧ R * L = 1

/-- The sizes of a table agree with each other: the nodes that are listed exist, a sub-element has as many nodes as its
shape, and so do the parts of the faces. -/
def Wellformed {d : Nat} (n : Name d) : Prop :=
  n.table.newNodes.length = n.table.numNew ∧
  (∀ s < n.table.numSubs, ∃ sh l, n.table.subShape s = some sh ∧ n.table.subNodes s = some l ∧ l.length = sh.corners ∧
    ∀ k ∈ l, k < n.table.shape.corners + n.table.numNew) ∧
  ∀ s, n.table.numSubs ≤ s → n.table.subShape s = none ∧ n.table.subNodes s = none ∧
    ∀ p, n.table.transform s p = none ∧ n.table.left s p = none ∧ n.table.right s p = none

/-- The sub-elements of the refined reference shape lie in the shape, each point of the shape lies in a sub-element, and
no interior point of a sub-element is met twice. Here `sub s` is the shape of sub-element `s`, and `c s` places it. -/
structure Tiling {d : Nat} (sh : Shape d) (N : Nat) (sub : Nat → Shape d) (c : Nat → Pt d → Pt d) : Prop where
  inside : ∀ s < N, ∀ p ∈ (sub s).body, c s p ∈ sh.body
  cover : ∀ x ∈ sh.body, ∃ s < N, ∃ p ∈ (sub s).body, c s p = x
  once : ∀ s < N, ∀ s' < N, ∀ p ∈ interior (sub s).body, ∀ p' ∈ (sub s').body, c s p = c s' p' → s = s' ∧ p = p'

/-- The sub-elements that `refine` makes of the reference shape tile it. -/
def Tiles {d : Nat} (n : Name d) : Prop :=
  ∃ (sub : Nat → Shape d) (c : Nat → Pt d → Pt d),
    (∀ s < n.table.numSubs, n.table.subShape s = some (sub s) ∧ child n n.table.shape.corner s = some (c s)) ∧
    Tiling n.table.shape n.table.numSubs sub c

/-- The parts of face `f`: `getCodim1RefinementMaps` says how the face is divided, `getSubElementAndLocalFaceIndex` names a
sub-element and one of its faces for each part. The points of that face of the sub-element are the points of that part of
the face, in the same coordinates. -/
def FaceFits {d : Nat} (n : Name (d + 1)) (f : Nat) : Prop :=
  ∃ (F : Face d) (m : Name d), n.table.shape.faces[f]? = some F ∧ n.table.faceMaps[f]? = some m ∧
    m.table.shape.geom = F.geom ∧
    ∀ j < m.table.numSubs, ∃ (e g : Nat) (sub : Shape (d + 1)) (G : Face d) (part : Shape d) (c : Pt (d + 1) → Pt (d + 1))
        (cf : Pt d → Pt d),
      n.subFace f j = some (e, g) ∧ n.table.subShape e = some sub ∧ sub.faces[g]? = some G ∧
      m.table.subShape j = some part ∧ G.geom = part.geom ∧
      child n n.table.shape.corner e = some c ∧ child m m.table.shape.corner j = some cf ∧
      ∀ q ∈ part.body, c (G.map.transform q) = F.map.transform (cf q)

/-- The nodes on face `f`: `getCodim1LocalNodeIndices` lists them in the order of the refinement of the face, first those of
the face itself. The nodes of each part are those of the face of the sub-element that `getSubElementAndLocalFaceIndex`
names, in the same order. -/
def FaceNodesFit {d : Nat} (n : Name (d + 1)) (f : Nat) : Prop :=
  ∃ (F : Face d) (m : Name d) (l : List Nat), n.table.shape.faces[f]? = some F ∧ n.table.faceMaps[f]? = some m ∧
    n.table.faceNodes f = some l ∧ l.length = m.table.shape.corners + m.table.numNew ∧
    l.take m.table.shape.corners = F.nodeIdx ∧
    ∀ j < m.table.numSubs, ∃ (e g : Nat) (sub : Shape (d + 1)) (G : Face d) (le lj : List Nat),
      n.subFace f j = some (e, g) ∧ n.table.subShape e = some sub ∧ sub.faces[g]? = some G ∧
      n.table.subNodes e = some le ∧ m.table.subNodes j = some lj ∧
      G.nodeIdx.mapM (le[·]?) = lj.mapM (l[·]?) ∧ (lj.mapM (l[·]?)).isSome

/-- `refinementTransform` takes a point of a sub-element to its place in the element. -/
def TransformFits {d : Nat} (n : Name d) : Prop :=
  ∀ s < n.table.numSubs, ∃ (sub : Shape d) (c : Pt d → Pt d), n.table.subShape s = some sub ∧
    child n n.table.shape.corner s = some c ∧ ∀ p ∈ sub.body, n.table.transform s p = some (c p)

/-- Wherever the nodes of the element are, a point of a sub-element is where the element has the point in which the
sub-element of the reference shape has it. -/
def ChildrenFollow {d : Nat} (n : Name d) : Prop :=
  ∀ {V : Type} [AddCommGroup V] [Module ℝ V] (P : Nat → V), ∀ s < n.table.numSubs, ∃ c : Pt d → Pt d,
    child n n.table.shape.corner s = some c ∧ child n P s = some fun p => n.table.shape.place P (c p)

/-- The refinements whose sub-elements do not tile the element. -/
def badTiling : {d : Nat} → Name d → Bool
  | _, .cube5 => true
  | _, .cube6 => true
  | _, .cube7 => true
  | _, .prism5 => true
  | _, _ => false

/-- The refinements of which `refinementTransform` does not place the sub-elements. -/
def badTransform : {d : Nat} → Name d → Bool
  | _, .triangle1 => true
  | _, .triangle2 => true
  | _, .triangle3 => true
  | _, .cube5 => true
  | _, .cube6 => true
  | _, .cube7 => true
  | _, .prism1 => true
  | _, .prism2 => true
  | _, .prism5 => true
  | _, _ => false

/-- The faces of which the parts are not the named faces of the sub-elements. -/
def badFaces : {d : Nat} → Name d → List Nat
  | _, .triangle5 => [1]
  | _, .triangle6 => [2]
  | _, .triangle8 => [0, 2]
  | _, .cube5 => [0, 1, 2, 3, 4, 5]
  | _, .cube6 => [0, 1, 2, 3, 4, 5]
  | _, .cube7 => [0, 2, 3, 5]
  | _, .prism2 => [2]
  | _, .prism3 => [1, 4]
  | _, .prism4 => [0, 2, 3]
  | _, .prism5 => [2, 3, 4]
  | _, .prism6 => [0, 1, 2, 3, 4]
  | _, .prism7 => [0, 1, 2, 3, 4]
  | _, .prism8 => [0, 1, 2, 3, 4]
  | _, .prism9 => [0, 1, 2, 3, 4]
  | _, _ => []

/-- The faces of which the nodes are not those of the named faces of the sub-elements. -/
def badFaceNodes : {d : Nat} → Name d → List Nat
  | _, .triangle5 => [1]
  | _, .triangle6 => [2]
  | _, .triangle8 => [0, 2]
  | _, .cube5 => [0, 1, 2, 3, 4, 5]
  | _, .cube6 => [0, 1, 2, 3, 4, 5]
  | _, .cube7 => [0, 2, 3, 4, 5]
  | _, .prism2 => [2]
  | _, .prism3 => [1, 4]
  | _, .prism4 => [0, 2, 3]
  | _, .prism6 => [0, 1, 2, 3, 4]
  | _, .prism7 => [0, 1, 2, 3, 4]
  | _, .prism8 => [0, 1, 2, 3, 4]
  | _, .prism9 => [0, 1, 2, 3, 4]
  | _, _ => []

end Verif.Refine
