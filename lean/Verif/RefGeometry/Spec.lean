import Verif.RefGeometry.Model
import Mathlib.Analysis.Convex.Hull
import Mathlib.Analysis.Normed.Module.Basic
import Mathlib.Analysis.Calculus.FDeriv.Basic
import Mathlib.Topology.Algebra.Module.FiniteDimension
import Mathlib.LinearAlgebra.Matrix.ToLin
import Mathlib.LinearAlgebra.Matrix.Determinant.Basic

/-! # Vocabulary of the reference geometry properties -/
namespace Verif.RefGeometry
open Matrix

/-- The closed set of points that `isInternalPoint` accepts. -/
def body {d : Nat} (g : Geom d) : Set (Pt d) := {p | g.isInternal p}

/-- The corners of a face, taken from the node table of the element. -/
def faceCorners {d : Nat} (S : Shape d) (f : Face d) : Set (Pt (d + 1)) :=
  {x | ∃ k ∈ f.nodeIdx, S.geom.nodes[k]? = some x}

/-- The image of the reference face in the reference element. -/
def faceImage {d : Nat} (f : Face d) : Set (Pt (d + 1)) := f.map.transform '' body f.geom

/-- `calcJacobian` is the (Fréchet) derivative of `transform` everywhere. -/
def JacobianCorrect {m n : Nat} (f : RefMap m n) : Prop :=
  ∀ p, HasFDerivAt f.transform (f.jacobian p).mulVecLin.toContinuousLinearMap p

/-- `A` with `v` appended as the last column. -/
def appendCol {d : Nat} (A : Matrix (Fin (d + 1)) (Fin d) ℝ) (v : Pt (d + 1)) :
    Matrix (Fin (d + 1)) (Fin (d + 1)) ℝ :=
  Matrix.of fun i j => Fin.snoc (α := fun _ => ℝ) (A i) (v i) j

/-- All normals of all shapes of dimension `d + 1` are outward normals scaled by the surface
element: for every invertible element Jacobian `j2` and face point `p` the vector `n`
* has non-positive inner product with every (linearised) direction from the face point to a point
  `x` of the element, and zero only if `x` lies on the face itself;
* is orthogonal to the image of the face;
* has length equal to the factor between physical and reference face measure, i.e. its square is the
  Gram determinant of the columns of `j2 * J`. -/
def NormalsOutward (d : Nat) (wedge : Matrix (Fin (d + 1)) (Fin d) ℝ → Pt (d + 1))
    (det : Matrix (Fin (d + 1)) (Fin (d + 1)) ℝ → ℝ) : Prop :=
  ∀ S ∈ shapes d, ∀ f ∈ S.faces, ∀ j2 : Matrix (Fin (d + 1)) (Fin (d + 1)) ℝ, j2.det ≠ 0 →
    ∀ p : Pt d,
      (∀ x ∈ body S.geom,
        normalVector wedge det f.map j2 p ⬝ᵥ (j2 *ᵥ (x - f.map.transform p)) ≤ 0 ∧
        (normalVector wedge det f.map j2 p ⬝ᵥ (j2 *ᵥ (x - f.map.transform p)) = 0 ↔
          x ∈ faceImage f)) ∧
      (∀ v, normalVector wedge det f.map j2 p ⬝ᵥ ((j2 * f.map.jacobian p) *ᵥ v) = 0) ∧
      normalVector wedge det f.map j2 p ⬝ᵥ normalVector wedge det f.map j2 p =
        ((j2 * f.map.jacobian p)ᵀ * (j2 * f.map.jacobian p)).det

end Verif.RefGeometry
