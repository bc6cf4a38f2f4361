import Mathlib.LinearAlgebra.Matrix.NonsingularInverse
import Mathlib.Analysis.Real.Sqrt

/-!
# What the scheme for water waves is
-/

namespace Verif.WaterWave.Spec

open scoped Matrix

variable {n : ℕ} {I : Type} [Fintype I]

/-- The potential inside the domain belongs to the one at the surface. -/
def Harmonic (rs : Matrix I (Fin n) ℝ) (rr : Matrix I I ℝ) (φ : Fin n → ℝ) (ψ : I → ℝ) : Prop :=
  rr.mulVec ψ + rs.mulVec φ = 0

/-- The flow through the surface. -/
def flow (ss : Matrix (Fin n) (Fin n) ℝ) (sr : Matrix (Fin n) I ℝ) (φ : Fin n → ℝ) (ψ : I → ℝ) :
    Fin n → ℝ := ss.mulVec φ + sr.mulVec ψ

/-- A step of the Störmer-Verlet scheme for `φ' = -g η`, `mass η' = flow φ`. -/
def Verlet (mass ss : Matrix (Fin n) (Fin n) ℝ) (sr : Matrix (Fin n) I ℝ)
    (rs : Matrix I (Fin n) ℝ) (rr : Matrix I I ℝ) (g dt : ℝ) (η φ η' φ' : Fin n → ℝ) (ψ : I → ℝ) :
    Prop :=
  Harmonic rs rr (φ - (g * dt / 2) • η) ψ ∧
  mass.mulVec η' = mass.mulVec η + dt • flow ss sr (φ - (g * dt / 2) • η) ψ ∧
  φ' = φ - (g * dt / 2) • η - (g * dt / 2) • η'

end Verif.WaterWave.Spec
