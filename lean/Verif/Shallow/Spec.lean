import Mathlib.Analysis.Real.Sqrt
import Mathlib.Data.Fin.VecNotation

/-!
# What a numerical flux has to do

Words for the statements in `Props.lean`; nothing here refers to the model.
-/

namespace Verif.Shallow.Spec

/-- The velocity of a layer of height `h` and discharge `q`; a layer that is
not higher than `dry` is at rest. -/
noncomputable def velocity (dry h q : ℝ) : ℝ := if dry < h then q / h else 0

/-- The speeds of the slowest and the fastest wave in the direction of the
normal: the normal velocity `v` minus and plus the square root of `g h`. -/
noncomputable def slow (g v h : ℝ) : ℝ := v - Real.sqrt (g * h)

/-- See `slow`. -/
noncomputable def fast (g v h : ℝ) : ℝ := v + Real.sqrt (g * h)

end Verif.Shallow.Spec
