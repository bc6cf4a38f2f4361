import Verif.PhysMap.Model
import Verif.RefGeometry.Spec

/-! # Vocabulary for statements about the maps to physical elements -/
namespace Verif.PhysMap
open Verif.RefGeometry (Pt Face)

variable {V : Type*} [AddCommGroup V] [Module ℝ V]

/-- On the face `f` the map `T` of an element is the map `T'` of the shape of the face, for the nodes that the
element lists for the face. The points of the face are those for which `isInternalPoint` of the shape of the face
holds. -/
def OnFace {d : Nat} (T : (Nat → V) → Pt (d + 1) → V) (f : Face d) (T' : (Nat → V) → Pt d → V) : Prop :=
  ∀ p, ∀ x ∈ RefGeometry.body f.geom, T p (f.map.transform x) = T' (fun i => p (f.nodeIdx.getD i 0)) x

/-- The shapes of dimension two and three with straight edges, as pairs of a map and a face of the element; the
faces have `n` nodes. -/
inductive HasFace (V : Type*) [AddCommGroup V] [Module ℝ V] :
    (d n : Nat) → ((Nat → V) → Pt (d + 1) → V) → Face d → Prop
  | triangle (f) (hf : f ∈ RefGeometry.triangleFaces) : HasFace V 1 2 (transform .triangle) f
  | square (f) (hf : f ∈ RefGeometry.squareFaces) : HasFace V 1 2 (transform .square) f
  | tetrahedron (f) (hf : f ∈ RefGeometry.tetrahedronFaces) : HasFace V 2 3 (transform .tetrahedron) f
  | cube (f) (hf : f ∈ RefGeometry.cubeFaces) : HasFace V 2 4 (transform .cube) f
  | pyramid (n f) (hf : f ∈ RefGeometry.pyramidFaces) (hn : f.nodeIdx.length = n) :
      HasFace V 2 n (transform .pyramid) f
  | prism (n f) (hf : f ∈ RefGeometry.prismFaces) (hn : f.nodeIdx.length = n) : HasFace V 2 n (transform .prism) f

/-- The points at which `calcJacobian` evaluates the derivative without shifting the point: all but the ones next to the
tip of the pyramid. For the pyramid, moreover, points of height one are excluded; in the pyramid there is only the tip. -/
def Regular : (k : Kind) → Pt k.dim → Prop
  | .pyramid, x => ¬ NearTip x ∧ x 2 ≠ 1
  | _, _ => True

/-- The quadratic curve through three points, at the parameters -1, 0 and 1. -/
noncomputable def parabola (p : Nat → V) (x : Pt 1) : V :=
  (x 0 * (x 0 - 1) / 2) • p 0 + (1 - x 0 ^ 2) • p 1 + (x 0 * (x 0 + 1) / 2) • p 2

end Verif.PhysMap
