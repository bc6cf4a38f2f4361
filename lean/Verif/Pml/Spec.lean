import Verif.Pml.Model
import Mathlib.Analysis.Calculus.Deriv.Basic

/-! # Absorbing layers: specification

Maxwell's equations in stretched coordinates. -/
namespace Verif.Pml

/-- The derivative in a coordinate. -/
noncomputable def partialDeriv {n : Nat} (j : Fin n) (f : (Fin n → ℝ) → ℂ) (x : Fin n → ℝ) : ℂ := deriv (fun t => f (Function.update x j t)) (x j)

/-- The curl with the derivatives `1 / s_j ∂_j`, in three dimensions. -/
noncomputable def stretchedCurl (s : (Fin 3 → ℝ) → Fin 3 → ℂ) (F : (Fin 3 → ℝ) → Fin 3 → ℂ) (x : Fin 3 → ℝ) : Fin 3 → ℂ :=
  let D := fun j k => partialDeriv j (fun y => F y k) x / s x j
  ![D 1 2 - D 2 1, D 2 0 - D 0 2, D 0 1 - D 1 0]

/-- The curl. -/
noncomputable def curl (F : (Fin 3 → ℝ) → Fin 3 → ℂ) : (Fin 3 → ℝ) → Fin 3 → ℂ := stretchedCurl (fun _ _ => 1) F

/-- The curl of a field in the plane, and that of a field perpendicular to the plane. -/
noncomputable def stretchedCurlPlane (s : (Fin 2 → ℝ) → Fin 2 → ℂ) (F : (Fin 2 → ℝ) → Fin 2 → ℂ) (x : Fin 2 → ℝ) : ℂ :=
  partialDeriv 0 (fun y => F y 1) x / s x 0 - partialDeriv 1 (fun y => F y 0) x / s x 1

/-- As above. -/
noncomputable def stretchedCurlNormal (s : (Fin 2 → ℝ) → Fin 2 → ℂ) (f : (Fin 2 → ℝ) → ℂ) (x : Fin 2 → ℝ) : Fin 2 → ℂ :=
  ![partialDeriv 1 f x / s x 1, -(partialDeriv 0 f x / s x 0)]

/-- What the program discretizes in three dimensions, for the tensors of an element: `curl μ⁻¹ curl E - ω² ε E`. -/
noncomputable def maxwell {R : Type} (div mu : R → MaxLocal.Tensor) (curl : (R → Fin 3 → ℂ) → R → Fin 3 → ℂ) (omega : ℝ) (E : R → Fin 3 → ℂ) (x : R) : Fin 3 → ℂ :=
  curl (fun y => (mu y).applyCurl (curl E y)) x - ((omega : ℂ) ^ 2) • (div x).applyDiv (E x)

/-- The same in two dimensions; the curl is the first component of a vector. -/
noncomputable def maxwellPlane (div mu : (Fin 2 → ℝ) → MaxLocal.Tensor) (s : (Fin 2 → ℝ) → Fin 2 → ℂ) (omega : ℝ) (E : (Fin 2 → ℝ) → Fin 2 → ℂ) (x : Fin 2 → ℝ) : Fin 2 → ℂ :=
  stretchedCurlNormal s (fun y => (mu y).applyCurl ![stretchedCurlPlane s E y, 0] 0) x - ((omega : ℂ) ^ 2) • (div x).applyDiv (E x)

/-- The isotropic material. -/
def Material.eps (m : Material) {R : Type} : R → MaxLocal.Tensor := fun _ => .scalar m.permittivity

/-- As above. -/
def Material.mu (m : Material) {R : Type} : R → MaxLocal.Tensor := fun _ => .scalar m.permeability

/-- The stretched coordinate in a direction: `t + i/ω ∫ σ`. -/
noncomputable def stretchedCoordinate (omega offset direction scaling t : ℝ) : ℂ :=
  t + Complex.I / omega * scaling * direction * (max 0 ((t - offset) * direction) : ℝ) ^ 3 / 3

end Verif.Pml
