import Mathlib.Data.Real.Basic

/-!
# Pores on a centred rectangular lattice
-/

namespace Verif.Structure.Spec

/-- The points of the lattice: all corners and all centres of the rectangles of size
`c` by `a`. -/
def Centre (a c : ℝ) (p : ℝ × ℝ) : Prop :=
  ∃ i j : ℤ, p = (i * c, j * a) ∨ p = ((i + 1 / 2) * c, (j + 1 / 2) * a)

/-- Within radius `r` of a point of the lattice. -/
def InPore (a c r : ℝ) (q : ℝ × ℝ) : Prop :=
  ∃ p, Centre a c p ∧ (q.1 - p.1) ^ 2 + (q.2 - p.2) ^ 2 < r ^ 2

/-- The woodpile: pores along the third and along the first direction, with layouts a
quarter of the period apart. -/
def Woodpile (a c r s x y z : ℝ) : Prop :=
  InPore a c r (x, y - s) ∨ InPore a c r (z, y - s + a / 4)

/-- A function of three coordinates with a period. -/
def Period {α : Type} (f : ℝ → ℝ → ℝ → α) (u v w : ℝ) : Prop :=
  ∀ x y z, f (x + u) (y + v) (z + w) = f x y z

end Verif.Structure.Spec
