import Mathlib.Analysis.Real.Sqrt

/-! # What a band structure is

Independent of the code. A wave in a homogeneous medium with wave vector `k - G` has frequency `|k - G| / √ε`; with
periodic boundary conditions `G` is any point of the reciprocal lattice. -/
namespace Verif.Bands

variable {d : Nat}

/-- The length of a vector. -/
noncomputable def length (v : Fin d → ℝ) : ℝ := √(∑ j, v j ^ 2)

/-- The lattice vector `∑ Gᵢ bᵢ`. -/
def latticeVector (b : Fin d → Fin d → ℝ) (G : Fin d → Int) : Fin d → ℝ := fun j => ∑ i, (G i : ℝ) * b i j

/-- The frequency of the band of `G` at the wave vector `k`. -/
noncomputable def band (b : Fin d → Fin d → ℝ) (ε : ℝ) (k : Fin d → ℝ) (G : Fin d → Int) : ℝ :=
  length (fun j => k j - latticeVector b G j) / √ε

/-- The vectors of the basis are closer to orthogonal than three times the sum of the products with the others being
twice the square of the length: all orthogonal bases, and in the plane all angles between 49 and 131 degrees for
vectors of the same length. -/
def NearlyOrthogonal (b : Fin d → Fin d → ℝ) : Prop :=
  ∀ i, 3 * ∑ j ∈ Finset.univ.erase i, |∑ c, b i c * b j c| < 2 * ∑ c, b i c * b i c

/-- The vectors of the basis are orthogonal, and none is zero. -/
def Orthogonal (b : Fin d → Fin d → ℝ) : Prop :=
  (∀ i j, i ≠ j → ∑ c, b i c * b j c = 0) ∧ ∀ i, b i ≠ 0

/-- The polarizations of a plane wave: one in the plane (the code treats 2D as one polarization), two in space; a
constant field has one more. The code takes frequencies below `10⁻¹²` to be zero. -/
noncomputable def polarizations (d : Nat) (ω : ℝ) : Nat :=
  (if d ≤ 2 then 1 else 2) + (if |ω| < 1 / 10 ^ 12 then 1 else 0)

/-- The point at parameter `t` on the segment from `k₁` to `k₂`. -/
def segment (k₁ k₂ : Fin d → ℝ) (t : ℝ) : Fin d → ℝ := fun j => k₁ j + t * (k₂ j - k₁ j)

end Verif.Bands
