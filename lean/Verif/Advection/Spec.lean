import Verif.DgMesh.Lemmas

/-!
# What advection has to keep
-/

namespace Verif.Advection.Spec

open DgMesh

variable {d : ℕ} {E F G : Type}

/-- The square of the norm of the solution. -/
def energy [Fintype E] (m : Mesh d E F G) (U : Vec E) : ℝ :=
  ∑ e, ∑ q, (m.elem e q).weight * value (m.nb e) (m.elem e q).toTrace (U e) ^ 2

/-- The integral of the solution. -/
def total [Fintype E] (m : Mesh d E F G) (U : Vec E) : ℝ :=
  ∑ e, ∑ q, (m.elem e q).weight * value (m.nb e) (m.elem e q).toTrace (U e)

/-- Velocity through a face. -/
def through (a normal : Fin d → ℝ) : ℝ := ∑ k, a k * normal k

/-- The derivative along the wind. -/
def along (a : Fin d → ℝ) (n : ℕ) (t : Trace d) (u : ℕ → ℝ) : ℝ :=
  ∑ k, a k * gradient n t u k

/-- Integration by parts is exact in every element: `∫ v a·∇u + u a·∇v` is the
integral of `(a·n) u v` over the faces. -/
def ByParts [Fintype F] [Fintype G] [DecidableEq E] (a : Fin d → ℝ) (m : Mesh d E F G) : Prop :=
  ∀ (e : E) (v u : ℕ → ℝ),
    ∑ q, (m.elem e q).weight *
      (value (m.nb e) (m.elem e q).toTrace v * along a (m.nb e) (m.elem e q).toTrace u +
        value (m.nb e) (m.elem e q).toTrace u * along a (m.nb e) (m.elem e q).toTrace v) =
    (∑ f, ((if m.left f = e then ∑ q, (m.inner f q).weight * (through a (m.inner f q).normal *
        (value (m.nb e) (m.inner f q).left v * value (m.nb e) (m.inner f q).left u)) else 0) -
      if m.right f = e then ∑ q, (m.inner f q).weight * (through a (m.inner f q).normal *
        (value (m.nb e) (m.inner f q).right v * value (m.nb e) (m.inner f q).right u)) else 0)) +
    ∑ g, if m.inside g = e then ∑ q, (m.boundary g q).weight *
      (through a (m.boundary g q).normal * (value (m.nb e) (m.boundary g q).toTrace v *
        value (m.nb e) (m.boundary g q).toTrace u)) else 0

/-- The coefficients of the function one exist in every element. -/
def HasOne (m : Mesh d E F G) (one : Vec E) : Prop :=
  (∀ e q, value (m.nb e) (m.elem e q).toTrace (one e) = 1 ∧
    ∀ k, gradient (m.nb e) (m.elem e q).toTrace (one e) k = 0) ∧
  (∀ f q, value (m.nb (m.left f)) (m.inner f q).left (one (m.left f)) = 1 ∧
    value (m.nb (m.right f)) (m.inner f q).right (one (m.right f)) = 1) ∧
  ∀ g q, value (m.nb (m.inside g)) (m.boundary g q).toTrace (one (m.inside g)) = 1

/-- Faces have points with nonnegative weights. -/
def FaceWeights (m : Mesh d E F G) : Prop :=
  (∀ f q, 0 ≤ (m.inner f q).weight) ∧ ∀ g q, 0 ≤ (m.boundary g q).weight

/-- The wind is not exactly as strong as the threshold of the program on any face. -/
def OffThreshold (a : Fin d → ℝ) (m : Mesh d E F G) : Prop :=
  (∀ f q, |through a (m.inner f q).normal| ≠ 1 / 10 ^ 12) ∧
  ∀ g q, |through a (m.boundary g q).normal| ≠ 1 / 10 ^ 12

/-- The solution on the sides of a face. -/
def onLeft (m : Mesh d E F G) (U : Vec E) (f : F) (q : Fin (m.innerPoints f)) : ℝ :=
  value (m.nb (m.left f)) (m.inner f q).left (U (m.left f))

@[inherit_doc onLeft]
def onRight (m : Mesh d E F G) (U : Vec E) (f : F) (q : Fin (m.innerPoints f)) : ℝ :=
  value (m.nb (m.right f)) (m.inner f q).right (U (m.right f))

@[inherit_doc onLeft]
def onBoundary (m : Mesh d E F G) (U : Vec E) (g : G) (q : Fin (m.boundaryPoints g)) : ℝ :=
  value (m.nb (m.inside g)) (m.boundary g q).toTrace (U (m.inside g))

/-- What the wind carries over a face: the value on the side it comes from, or the
mean in a calm. -/
noncomputable def carried (A left right : ℝ) : ℝ :=
  open Classical in if |A| < 1 / 10 ^ 12 then (left + right) / 2 else if 0 < A then left else right

end Verif.Advection.Spec
