import Mathlib.Analysis.InnerProductSpace.Basic
import Mathlib.Analysis.InnerProductSpace.Symmetric

/-!
# Specification of the time integration of the Maxwell application

The equation is `M u'' + σ M u' + S u = f`. Nothing here refers to the model.
-/
namespace Verif.MaxTime

section
variable {V : Type*} [AddCommGroup V] [Module ℝ V]

/-- The leap-frog scheme with the trapezoidal rule for the loads `f0` and `f1` at the two ends: position `u` and velocity `v` are followed by `u'` and `v'`. -/
structure LeapFrog (M S : V →ₗ[ℝ] V) (tau sigma : ℝ) (f0 f1 u v u' v' : V) : Prop where
  position : u' = u + (tau / 2) • (v + v')
  velocity : M (v' - v) + (sigma * tau / 2) • M (v + v') + tau • S (u + (tau / 2) • v) = (tau / 2) • (f0 + f1)

/-- The Taylor polynomial of degree four, in the time `t`, of the solution of `u'' = -A u` that starts with position `u` and velocity `v`. -/
noncomputable def taylorPosition (A : V →ₗ[ℝ] V) (t : ℝ) (u v : V) : V :=
  u + t • v - (t ^ 2 / 2) • A u - (t ^ 3 / 6) • A v + (t ^ 4 / 24) • A (A u)

/-- The Taylor polynomial of degree four of its velocity. -/
noncomputable def taylorVelocity (A : V →ₗ[ℝ] V) (t : ℝ) (u v : V) : V :=
  v - t • A u - (t ^ 2 / 2) • A v + (t ^ 3 / 6) • A (A u) + (t ^ 4 / 24) • A (A v)

end

variable {V : Type*} [NormedAddCommGroup V] [InnerProductSpace ℝ V]
open scoped RealInnerProductSpace

/-- The energy the leap-frog scheme keeps. -/
noncomputable def energy (M S : V →ₗ[ℝ] V) (tau : ℝ) (u v : V) : ℝ :=
  ⟪M v, v⟫ + ⟪S u, u⟫ - tau ^ 2 / 4 * ⟪S v, v⟫

/-- The symplectic form of two trajectories. -/
noncomputable def symplectic (M : V →ₗ[ℝ] V) (u v x y : V) : ℝ := ⟪M u, y⟫ - ⟪M x, v⟫

end Verif.MaxTime
