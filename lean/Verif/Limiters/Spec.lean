import Verif.Limiters.Model
import Mathlib.MeasureTheory.Integral.IntervalIntegral.Basic
import Mathlib.Topology.ContinuousMap.Basic

/-!
# Specification: spaces of functions, means
-/
namespace Verif.Limiters

/-- What the limiters assume of the basis functions and the quadrature rule of an element: the
functions are continuous, the quadrature points lie in the element, the integrals of the basis
functions are computed exactly, the mass matrix is not singular, and
all linear functions are combinations of the basis functions. -/
structure Adequate {n : ℕ} (S : Space n) : Prop where
  continuous : ∀ i, Continuous (S.phi i)
  inside : ∀ q ∈ S.rule, -1 ≤ q.2 ∧ q.2 ≤ 1
  exact : ∀ i, (S.rule.map fun q => q.1 * S.phi i q.2).sum = ∫ x in (-1 : ℝ)..1, S.phi i x
  mass : (Matrix.of fun i j => (S.rule.map fun q => q.1 * (S.phi i q.2 * S.phi j q.2)).sum :
    Matrix (Fin n) (Fin n) ℝ).det ≠ 0
  linear : ∀ a b : ℝ, ∃ c : Fin n → ℝ, ∀ x, ∑ i, c i * S.phi i x = a + b * x

/-- The mean of the function with coefficients `c` on the reference line. -/
noncomputable def mean {n : ℕ} (S : Space n) (c : Fin n → ℝ) : ℝ :=
  1 / 2 * ∫ x in (-1 : ℝ)..1, ∑ i, c i * S.phi i x

/-- The points in which the limiters look at the solution: the two nodes and the quadrature points. -/
def Looked {n : ℕ} (S : Space n) (x : ℝ) : Prop := x = -1 ∨ x = 1 ∨ ∃ q ∈ S.rule, q.2 = x

/-- The first two basis functions are the linear functions of the nodes. -/
def Nodal {n : ℕ} (S : Space n) : Prop :=
  ∃ h0 : 0 < n, ∃ h1 : 1 < n, (∀ x, S.phi ⟨0, h0⟩ x = (1 - x) / 2) ∧ ∀ x, S.phi ⟨1, h1⟩ x = (1 + x) / 2

end Verif.Limiters
