import Verif.EigenProgram.Model

/-!
# What the options mean
-/

namespace Verif.EigenProgram

/-- The text of a parameter: a letter for the flux and a number. -/
structure Written (stod : List Char → Option ℚ) (t : List Char) (p : Param) : Prop where
  text : ∃ num : List Char, t = (if p.brezzi then 'b' else 'i') :: num ∧ num ≠ [] ∧
    (∀ c ∈ num, c ∈ "0123456789.-e".toList) ∧ stod num = some p.value

/-- The wave vector at a point of the path through the given points, `n` steps per line. -/
noncomputable def wave (dim : Nat) (ps : List (Fin dim → ℝ)) (n i : Nat) : Option (Fin dim → ℝ) :=
  (⟨ps, n⟩ : Verif.KPath.Path (Fin dim → ℝ)).k (K := ℝ) i

/-- The length of a vector. -/
noncomputable def len {dim : Nat} (k : Fin dim → ℝ) : ℝ := Real.sqrt (∑ i, k i ^ 2)

end Verif.EigenProgram
