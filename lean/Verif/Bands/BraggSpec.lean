import Mathlib.Analysis.Complex.Trigonometric
import Mathlib.Data.Matrix.Mul
import Mathlib.LinearAlgebra.Matrix.Notation

/-! # Bloch waves in a stack of two layers

Independent of the code. In a layer where the square of the wave number in the direction of the stack is `κ²`, a field
`u` with `u'' = -κ² u` has, after a distance `a`, the value and the flux `s u'` given by the matrix `layer` (with
`κ ≠ 0`). At the interface `u` and `s u'` are continuous, with `s = 1` for TE modes and `s = 1/ε` for TM modes. -/
namespace Verif.Bands.Bragg

/-- How `(u, s u')` changes over a layer. -/
noncomputable def layer (s κ : ℂ) (a : ℝ) : Matrix (Fin 2) (Fin 2) ℂ :=
  !![Complex.cos (κ * a), Complex.sin (κ * a) / (s * κ); -(s * κ * Complex.sin (κ * a)), Complex.cos (κ * a)]

/-- There is a field, not zero, that is multiplied by `exp(i q)` over one period of the stack. -/
def BlochWave (s₁ s₂ κ₁ κ₂ : ℂ) (fraction q : ℝ) : Prop :=
  ∃ w : Fin 2 → ℂ, w ≠ 0 ∧
    (layer s₂ κ₂ (1 - fraction) * layer s₁ κ₁ fraction).mulVec w = fun i => Complex.exp (q * Complex.I) * w i

end Verif.Bands.Bragg
