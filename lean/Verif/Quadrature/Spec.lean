import Verif.Quadrature.Rules
import Verif.RefGeometry.Spec
import Mathlib.Algebra.MvPolynomial.Degrees
import Mathlib.MeasureTheory.Integral.Bochner.Set
import Mathlib.MeasureTheory.Constructions.Pi
import Mathlib.MeasureTheory.Measure.Lebesgue.Basic

/-! # What a quadrature rule should do -/
namespace Verif.Quadrature
open RefGeometry MeasureTheory

/-- The sum of the absolute values of the coefficients of a polynomial. -/
noncomputable def coeffSum {d : Nat} (p : MvPolynomial (Fin d) ℝ) : ℝ :=
  ∑ m ∈ p.support, |p.coeff m|

/-- The rule integrates every polynomial of total degree at most `n` over the shape, with an error
of at most `ε` times the sum of the absolute values of the coefficients. The integral is the
Lebesgue integral over the points the shape regards as its own. -/
def Integrates {d : Nat} (g : Geom d) (r : Rule d) (n : Nat) (ε : ℝ) : Prop :=
  ∀ p : MvPolynomial (Fin d) ℝ, p.totalDegree ≤ n →
    ∃ v, r.integrate (fun x => MvPolynomial.eval x p) = some v ∧
      |v - ∫ x in body g, MvPolynomial.eval x p| ≤ ε * coeffSum p

/-- All points of the rule lie in the shape. -/
def PointsInside {d : Nat} (g : Geom d) (r : Rule d) : Prop := ∀ q ∈ r.points, q.2 ∈ body g

end Verif.Quadrature
