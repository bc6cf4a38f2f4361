import Verif.Acoustic.Model

/-!
# What the acoustic solver has to keep
-/

namespace Verif.Acoustic.Spec

variable {d : ℕ} {E F G : Type}

/-- The energy density of a wave, as documented: `u² + c⁻¹ |s|²`. -/
def density (cInv : ℝ) (w : Var d → ℝ) : ℝ := w none ^ 2 + cInv * ∑ k, w (some k) ^ 2

/-- The energy of the discrete solution. -/
def energy [Fintype E] (cInv : ℝ) (m : Mesh d E F G) (U : Vec d E) : ℝ :=
  ∑ e, ∑ q, (m.elem e q).weight * (m.elem e q).jac *
    density cInv fun v => value (m.nb e) (m.elem e q).phi (U e v)

/-- The integral of one variable. -/
def total [Fintype E] (m : Mesh d E F G) (U : Vec d E) (v : Var d) : ℝ :=
  ∑ e, ∑ q, (m.elem e q).weight * (m.elem e q).jac * value (m.nb e) (m.elem e q).phi (U e v)

/-- The flux of `u s` through the inner face `f`, seen from one side. -/
def sideFlux (nb : ℕ) (c : Var d → ℕ → ℝ) (normal : Fin d → ℝ) (phi : ℕ → ℝ) : ℝ :=
  value nb phi (c none) * ∑ k, normal k * value nb phi (c (some k))

/-- The quadrature rules are good enough for integration by parts in every element:
the integral of `u div s + s · grad u` is the flux of `u s` through all faces. -/
def ByParts [Fintype F] [Fintype G] [DecidableEq E] (m : Mesh d E F G) : Prop :=
  ∀ (e : E) (c : Var d → ℕ → ℝ),
    ∑ q, (m.elem e q).weight * (m.elem e q).jac *
      (value (m.nb e) (m.elem e q).phi (c none) * divergence (m.nb e) (m.elem e q).grad c +
        ∑ k, value (m.nb e) (m.elem e q).phi (c (some k)) *
          gradient (m.nb e) (m.elem e q).grad (c none) k) =
    (∑ f, ((if m.left f = e then ∑ q, (m.inner f q).weight *
        sideFlux (m.nb e) c (m.inner f q).normal (m.inner f q).phiLeft else 0) -
      if m.right f = e then ∑ q, (m.inner f q).weight *
        sideFlux (m.nb e) c (m.inner f q).normal (m.inner f q).phiRight else 0)) +
    ∑ g, if m.inside g = e then ∑ q, (m.boundary g q).weight *
      sideFlux (m.nb e) c (m.boundary g q).normal (m.boundary g q).phi else 0

/-- The coefficients of the function one exist in every element. -/
def HasOne (m : Mesh d E F G) (one : E → ℕ → ℝ) : Prop :=
  (∀ e q, value (m.nb e) (m.elem e q).phi (one e) = 1 ∧
    ∀ k, gradient (m.nb e) (m.elem e q).grad (one e) k = 0) ∧
  (∀ f q, value (m.nb (m.left f)) (m.inner f q).phiLeft (one (m.left f)) = 1 ∧
    value (m.nb (m.right f)) (m.inner f q).phiRight (one (m.right f)) = 1) ∧
  ∀ g q, value (m.nb (m.inside g)) (m.boundary g q).phi (one (m.inside g)) = 1

end Verif.Acoustic.Spec
