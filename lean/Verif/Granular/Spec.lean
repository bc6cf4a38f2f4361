import Mathlib.Analysis.SpecialFunctions.Trigonometric.Basic

/-!
# Friction laws and segregating flow
-/

namespace Verif.Granular.Spec

/-- The tangent of an angle in degrees. -/
noncomputable def tanDeg (x : ℝ) : ℝ := Real.tan (x * Real.pi / 180)

/-- Flux of the height of the small particles: they move with the mean velocity minus a
segregation term, `η u - (1 - α) η u (1 - η / h)`. -/
noncomputable def smallFlux (alpha h u eta : ℝ) : ℝ :=
  eta * u - (1 - alpha) * eta * u * (1 - eta / h)

end Verif.Granular.Spec
