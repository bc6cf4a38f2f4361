import Verif.Transform.Model

/-!
# C66: how the two sides of a face are turned towards each other

Model of `PhysicalFace::updateLeftRightTransform` and `computeDirectionVectors`, kernel/Base/PhysicalFace_Impl.h 1077-1185, and of
what the getters do with the result (e.g. 52-58, 276-280, 1029-1033, 1048-1052, 1067-1071). `double` is `ℝ`. The dimension of the
face is `d`, that of the elements `d + 1`. `wedge` is `computeWedgeStuffVector` for the dimension at hand (RefGeometry.Model).
-/
namespace Verif.FaceRotation
open Verif.RefGeometry (Pt)
open Verif.PhysMap (solve distSq)
open Matrix

variable {d : Nat}

/-- The reference points, PhysicalFace_Impl.h 1108-1111: the origin and the unit vectors. -/
def corner : Fin (d + 1) → Pt d := Fin.cons 0 fun i => Pi.single i 1

/-- `computeDirectionVectors`, PhysicalFace_Impl.h 1165-1185: the directions from the first point to the others, and the normal, as
rows. -/
def directions (wedge : Matrix (Fin (d + 1)) (Fin d) ℝ → Pt (d + 1)) (points : Fin (d + 1) → Pt (d + 1)) :
    Matrix (Fin (d + 1)) (Fin (d + 1)) ℝ :=
  let temp : Matrix (Fin (d + 1)) (Fin d) ℝ := Matrix.of fun j i => points i.succ j - points 0 j
  Matrix.of (Fin.snoc (α := fun _ => Pt (d + 1)) (fun i j => points i.succ j - points 0 j) (wedge temp))

/-- `SmallMatrix::solve(SmallMatrix&)`, SmallMatrix_impl.h 365-380: LAPACK's `dgesv` for each column. -/
noncomputable def solveMatrix (A B : Matrix (Fin d) (Fin d) ℝ) : Matrix (Fin d) (Fin d) ℝ :=
  Matrix.of fun i j => solve A (fun k => B k j) i

open Classical in
/-- `updateLeftRightTransform`, PhysicalFace_Impl.h 1077-1162, for an internal face in two or more dimensions. `left` and `right` map
the reference face through the left and the right element to space. The result is `rightVectorTransform` if `requiresTransformation`;
the outer option is the assertion at 1158. -/
noncomputable def update (wedge : Matrix (Fin (d + 1)) (Fin d) ℝ → Pt (d + 1))
    (det : Matrix (Fin (d + 1)) (Fin (d + 1)) ℝ → ℝ) (left right : Pt d → Pt (d + 1)) :
    Option (Option (Matrix (Fin (d + 1)) (Fin (d + 1)) ℝ)) :=
  let leftPoints := fun i => left (corner i)
  let rightPoints := fun i => right (corner i)
  if ∀ i, distSq (leftPoints i) (rightPoints i) < 1 / 10 ^ 24 then some none
  else
    let x := solveMatrix (directions wedge leftPoints) (directions wedge rightPoints)
    if ∃ i j, |x i j - (if i = j then 1 else 0)| > 1 / 10 ^ 8 then
      if |det x - 1| < 1 / 10 ^ 8 then some (some x) else none
    else some none

/-- Values from the right element are transformed if necessary, e.g. PhysicalFace_Impl.h 54-57. -/
def fromRight {W : Type} (transform : W → Matrix (Fin d) (Fin d) ℝ → W) (o : Option (Matrix (Fin d) (Fin d) ℝ)) (w : W) : W :=
  match o with
  | some x => transform w x
  | none => w

end Verif.FaceRotation
