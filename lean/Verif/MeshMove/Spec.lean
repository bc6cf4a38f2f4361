import Mathlib.Data.Real.Basic

/-!
# A channel with a contraction
-/

namespace Verif.MeshMove.Spec

/-- Width of the channel: one up to `b`, `c` at `m`, one from `e` on, linear between. -/
noncomputable def width (b m e c x : ℝ) : ℝ :=
  if x < b ∨ e < x then 1
  else if x < m then 1 + (c - 1) * ((x - b) / (m - b))
  else c + (1 - c) * ((x - m) / (e - m))

end Verif.MeshMove.Spec
