import Verif.HEuler.Model

/-!
# Fields, energy, mass and weak divergence
-/

namespace Verif.HEuler

open Finset Matrix

variable {E nb : Nat}

/-- A scalar field at a point of element `e`. -/
def fieldAt (c : PIdx E nb → ℝ) (e : Fin E) (phi : Fin nb → ℝ) : ℝ := ∑ j, c (e, j) * phi j

/-- Its derivative in direction `k`. -/
def derivAt (c : PIdx E nb → ℝ) (e : Fin E) (grad : Fin nb → Fin 3 → ℝ) (k : Fin 3) : ℝ :=
  ∑ j, c (e, j) * grad j k

/-- A velocity component at a point. -/
def velAt (u : VIdx E nb → ℝ) (k : Fin 3) (e : Fin E) (phi : Fin nb → ℝ) : ℝ :=
  fieldAt (fun x => u (k, x)) e phi

/-- The integral over the mesh. -/
def integral (m : Mesh E nb) (g : Fin E → EPoint nb → ℝ) : ℝ :=
  ∑ e, ((m.elem e).map fun q => q.w * g e q).sum

/-- The integral over the internal faces. -/
def faceIntegral (m : Mesh E nb) (g : Face E nb → FPoint nb → ℝ) : ℝ :=
  (m.faces.map fun f => (f.pts.map fun q => q.w * g f q).sum).sum

/-- The kinetic energy. -/
noncomputable def kinetic (m : Mesh E nb) (u : VIdx E nb → ℝ) : ℝ :=
  integral m fun e q => (∑ k, velAt u k e q.phi ^ 2) / 2

/-- The energy of a compressible flow. -/
noncomputable def energy (m : Mesh E nb) (u : VIdx E nb → ℝ) (ρ : PIdx E nb → ℝ) : ℝ :=
  kinetic m u + integral m fun e q => fieldAt ρ e q.phi ^ 2 / 2

/-- The mass. -/
def totalMass (m : Mesh E nb) (ρ : PIdx E nb → ℝ) : ℝ := integral m fun e q => fieldAt ρ e q.phi

/-- The weak divergence of `u` tested with `ψ`: `∫ u · ∇ψ` minus the averaged flux through the faces times
the jump of `ψ`. -/
noncomputable def weakDiv (m : Mesh E nb) (u : VIdx E nb → ℝ) (ψ : PIdx E nb → ℝ) : ℝ :=
  (integral m fun e q => ∑ k, velAt u k e q.phi * derivAt ψ e q.grad k) -
    faceIntegral m fun f q => (∑ k, (velAt u k f.left q.phiL + velAt u k f.right q.phiR) / 2 * q.n k) *
      (fieldAt ψ f.left q.phiL - fieldAt ψ f.right q.phiR)

/-- `c` is the constant function 1 in every point that is used. -/
def IsOne (m : Mesh E nb) (c : PIdx E nb → ℝ) : Prop :=
  (∀ e, ∀ q ∈ m.elem e, fieldAt c e q.phi = 1 ∧ ∀ k, derivAt c e q.grad k = 0) ∧
  ∀ f ∈ m.faces, ∀ q ∈ f.pts, fieldAt c f.left q.phiL = 1 ∧ fieldAt c f.right q.phiR = 1

/-- `inv` are the inverses of the mass matrices. -/
def Inverse (m : Mesh E nb) (inv : Fin E → Matrix (Fin nb) (Fin nb) ℝ) : Prop :=
  ∀ e, Matrix.of (mass m e) * inv e = 1

/-- The quadrature sees every function: weights are positive and a function that vanishes in all points
has zero coefficients. -/
def Resolves (m : Mesh E nb) : Prop :=
  (∀ e, ∀ q ∈ m.elem e, 0 < q.w) ∧
  ∀ e, ∀ c : Fin nb → ℝ, (∀ q ∈ m.elem e, ∑ j, c j * q.phi j = 0) → c = 0

end Verif.HEuler
