import Verif.Euler.Model
import Mathlib.Analysis.SpecialFunctions.Trigonometric.Basic
import Mathlib.Algebra.BigOperators.Group.Finset.Piecewise

/-!
# The source term of the Euler application

`Euler::integrandSourceAtElement`, `applications/Euler/Euler_Impl.h` 83-255.  The
loops that multiply or add are written as products and sums.
-/

namespace Verif.Euler

variable {d : ℕ}

/-- Lines 98-106: `function`. -/
noncomputable def wavy (t : ℝ) (x : Fin d → ℝ) : ℝ :=
  0.2 * Real.cos (2.0 * Real.pi * t) * ∏ i, Real.cos (2.0 * Real.pi * x i)

/-- Lines 108-114: `exactState`. -/
noncomputable def exactState (t : ℝ) (x : Fin d → ℝ) : State d :=
  ⟨1.5 + wavy t x, fun _ => wavy t x, 30.0 + wavy t x⟩

/-- Lines 124, 131-133: `sourceValue(0)`. -/
noncomputable def sourceTime (t : ℝ) (x : Fin d → ℝ) : ℝ :=
  -0.2 * (2.0 * Real.pi) * Real.sin (2.0 * Real.pi * t) * ∏ i, Real.cos (2.0 * Real.pi * x i)

/-- Lines 125-128, 134-141: `sourceValue(iD + 1)`. -/
noncomputable def sourceSpace (t : ℝ) (x : Fin d → ℝ) (j : Fin d) : ℝ :=
  -0.2 * (2.0 * Real.pi) * Real.cos (2.0 * Real.pi * t) * Real.sin (2.0 * Real.pi * x j) *
    ∏ i ∈ Finset.univ.filter (fun i => j ≠ i), Real.cos (2.0 * Real.pi * x i)

/-- Lines 155-179: `sourceConvection`. -/
noncomputable def sourceConvection (t : ℝ) (x : Fin d → ℝ) (i j : Fin d) : ℝ :=
  let e := exactState t x
  let inv := 1.0 / e.rho
  if i = j then (2.0 * e.mom i - e.mom i * e.mom i * inv) * sourceSpace t x i * inv
  else (e.mom i + e.mom j - e.mom i * e.mom j * inv) * sourceSpace t x j * inv

/-- Lines 182-197: `sourcePressure`. -/
noncomputable def sourcePressure (g t : ℝ) (x : Fin d → ℝ) (j : Fin d) : ℝ :=
  let e := exactState t x
  let inv := 1.0 / e.rho
  let kinetic := ∑ i, (-e.mom i + 0.5 * e.mom i * e.mom i * inv) * inv
  (g - 1) * (1 + kinetic) * sourceSpace t x j

/-- Lines 200-211: `sourceEnthalpy`; `p` is the argument `pressureTerm`. -/
noncomputable def sourceEnthalpy (g p t : ℝ) (x : Fin d → ℝ) (j : Fin d) : ℝ :=
  let e := exactState t x
  let inv := 1.0 / e.rho
  (e.mom j + e.en - e.mom j * e.en * inv + p - e.mom j * p * inv) * sourceSpace t x j * inv +
    e.mom j * inv * sourcePressure g t x j

/-- Lines 217-235: the values that are multiplied with the test functions. -/
noncomputable def source (g p t : ℝ) (x : Fin d → ℝ) : State d :=
  ⟨sourceTime t x + ∑ j, sourceSpace t x j,
    fun i => sourceTime t x + ((∑ j, sourceConvection t x i j) + sourcePressure g t x i),
    sourceTime t x + ∑ j, sourceEnthalpy g p t x j⟩

end Verif.Euler
