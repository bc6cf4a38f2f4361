import Verif.DgMesh.Model

/-!
# What a solution of the Poisson equation is
-/

namespace Verif.Poisson.Spec

open DgMesh

variable {d : ℕ} {E F G : Type}

/-- Derivative of an expansion along the normal. -/
def normalDeriv (n : ℕ) (t : Trace d) (normal : Fin d → ℝ) (u : ℕ → ℝ) : ℝ :=
  ∑ k, normal k * gradient n t u k

/-- Jump over a point of an inner face. -/
def jump (m : Mesh d E F G) (U : Vec E) (f : F) (q : Fin (m.innerPoints f)) : ℝ :=
  value (m.nb (m.left f)) (m.inner f q).left (U (m.left f)) -
  value (m.nb (m.right f)) (m.inner f q).right (U (m.right f))

/-- Normal derivatives on the sides of an inner face. -/
def slopeLeft (m : Mesh d E F G) (U : Vec E) (f : F) (q : Fin (m.innerPoints f)) : ℝ :=
  normalDeriv (m.nb (m.left f)) (m.inner f q).left (m.inner f q).normal (U (m.left f))

@[inherit_doc slopeLeft]
def slopeRight (m : Mesh d E F G) (U : Vec E) (f : F) (q : Fin (m.innerPoints f)) : ℝ :=
  normalDeriv (m.nb (m.right f)) (m.inner f q).right (m.inner f q).normal (U (m.right f))

/-- Value and normal derivative at the boundary. -/
def trace (m : Mesh d E F G) (U : Vec E) (g : G) (q : Fin (m.boundaryPoints g)) : ℝ :=
  value (m.nb (m.inside g)) (m.boundary g q).toTrace (U (m.inside g))

@[inherit_doc trace]
def slope (m : Mesh d E F G) (U : Vec E) (g : G) (q : Fin (m.boundaryPoints g)) : ℝ :=
  normalDeriv (m.nb (m.inside g)) (m.boundary g q).toTrace (m.boundary g q).normal
    (U (m.inside g))

/-- The boundary with given values: `x = 0` or `x = 1`, up to `10⁻⁹`. -/
def Fixed (x : Fin (d + 1) → ℝ) : Prop := |x 0| < 1 / 10 ^ 9 ∨ |x 0 - 1| < 1 / 10 ^ 9

/-- `∫ |∇u|²` -/
def dirichlet [Fintype E] (m : Mesh d E F G) (U : Vec E) : ℝ :=
  ∑ e, ∑ q, (m.elem e q).weight *
    ∑ k, gradient (m.nb e) (m.elem e q).toTrace (U e) k ^ 2

/-- The squares of the jumps and of the values at the boundary with given values. -/
noncomputable def gaps [Fintype F] [Fintype G] (m : Mesh (d + 1) E F G) (U : Vec E) : ℝ :=
  open Classical in
  (∑ f, ∑ q, (m.inner f q).weight * jump m U f q ^ 2) +
  ∑ g, ∑ q, (m.boundary g q).weight * if Fixed (m.boundary g q).position then
    trace m U g q ^ 2 else 0

/-- Normals have length one, face weights are not negative. -/
def Faces (m : Mesh d E F G) : Prop :=
  (∀ f q, ∑ k, (m.inner f q).normal k ^ 2 = 1 ∧ 0 ≤ (m.inner f q).weight) ∧
  ∀ g q, ∑ k, (m.boundary g q).normal k ^ 2 = 1 ∧ 0 ≤ (m.boundary g q).weight

/-- The trace inequality with constant `C`: the mean normal derivatives at the inner
faces and those at the boundary with given values are bounded by `C ∫ |∇u|²`. -/
def TraceBound [Fintype E] [Fintype F] [Fintype G] (m : Mesh (d + 1) E F G) (C : ℝ) : Prop :=
  open Classical in
  ∀ U : Vec E,
    (∑ f, ∑ q, (m.inner f q).weight * ((slopeLeft m U f q + slopeRight m U f q) / 2) ^ 2) +
    (∑ g, ∑ q, (m.boundary g q).weight *
      if Fixed (m.boundary g q).position then slope m U g q ^ 2 else 0) ≤ C * dirichlet m U

/-- Only zero has no gradient, no jumps and no values at the boundary. -/
def Definite [Fintype E] (m : Mesh (d + 1) E F G) : Prop :=
  ∀ U : Vec E, dirichlet m U = 0 →
    (∀ f q, (m.inner f q).weight * jump m U f q ^ 2 = 0) →
    (∀ g q, Fixed (m.boundary g q).position → (m.boundary g q).weight * trace m U g q ^ 2 = 0) →
    ∀ e j, j < m.nb e → U e j = 0

/-- Green's identity: `lap` are the values of the Laplacian of `U`. -/
def Green [Fintype E] [Fintype F] [Fintype G] [DecidableEq E] (m : Mesh d E F G) (U : Vec E)
    (lap : (e : E) → Fin (m.elemPoints e) → ℝ) : Prop :=
  ∀ V : Vec E,
    ∑ e, ∑ q, (m.elem e q).weight * (value (m.nb e) (m.elem e q).toTrace (V e) * lap e q +
      ∑ k, gradient (m.nb e) (m.elem e q).toTrace (U e) k *
        gradient (m.nb e) (m.elem e q).toTrace (V e) k) =
    (∑ f, ∑ q, (m.inner f q).weight *
      (slopeLeft m U f q * value (m.nb (m.left f)) (m.inner f q).left (V (m.left f)) -
        slopeRight m U f q * value (m.nb (m.right f)) (m.inner f q).right (V (m.right f)))) +
    ∑ g, ∑ q, (m.boundary g q).weight * (slope m U g q * trace m V g q)

end Verif.Poisson.Spec
