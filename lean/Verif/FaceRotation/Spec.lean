import Verif.FaceRotation.Model

/-!
# C66: what the turn between the two sides of a face should be
-/
namespace Verif.FaceRotation
open Verif.RefGeometry (Pt)
open Verif.PhysMap (distSq)
open Matrix

variable {d : Nat}

/-- The two images of the reference face are congruent: corresponding points have the same distances. -/
def SameShape (left right : Pt d → Pt (d + 1)) : Prop :=
  ∀ i j : Fin (d + 1), distSq (left (corner i)) (left (corner j)) = distSq (right (corner i)) (right (corner j))

/-- The image of the reference face is not degenerate. -/
def Spread (left : Pt d → Pt (d + 1)) : Prop :=
  LinearIndependent ℝ fun i : Fin d => left (corner i.succ) - left (corner 0)

/-- `X` is a proper rotation that, with a translation, takes the right face to the left one. -/
def Turns (X : Matrix (Fin (d + 1)) (Fin (d + 1)) ℝ) (left right : Pt d → Pt (d + 1)) : Prop :=
  Xᵀ * X = 1 ∧ X.det = 1 ∧
    ∀ i j, X *ᵥ (right (corner i) - right (corner j)) = left (corner i) - left (corner j)

/-- Nothing has to be turned: the two faces are (up to rounding) at the same place, or the rotation is the identity (up to
rounding). -/
def Aligned (left right : Pt d → Pt (d + 1)) : Prop :=
  (∀ i, distSq (left (corner i)) (right (corner i)) < 1 / 10 ^ 24) ∨
    ∀ X, Turns X left right → ∀ i j, |X i j - (1 : Matrix (Fin (d + 1)) (Fin (d + 1)) ℝ) i j| ≤ 1 / 10 ^ 8

end Verif.FaceRotation
