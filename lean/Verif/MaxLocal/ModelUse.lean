import Verif.MaxLocal.Model
import Mathlib.Data.Matrix.Block

/-!
# Model of what is done with the local matrices

The rescaling for a Hermitian system, the energy fluxes (applications/DG-Max/Algorithms/DGMaxDiscretization.cpp) and the start of the time integration
(Algorithms/DGMaxTimeIntegration.cpp). Linear solves are exact.
-/
namespace Verif.MaxLocal

open scoped ComplexConjugate Matrix

variable {d nL nR n m : Nat}

/-- DGMaxDiscretization.cpp:290-314: `L⁻¹ S L⁻ᴴ` in place (MiddleSizeMatrix.cpp:779-830 `solveLowerTriangular`, with the factor `L` that `cholesky` leaves in the lower part),
followed by the replacement by the Hermitian part. The loop takes every pair of entries once and writes both; the real part of the diagonal is the same formula. -/
noncomputable def rescaleStiffness (L S : Matrix (Fin n) (Fin n) ℂ) : Matrix (Fin n) (Fin n) ℂ :=
  let X := L⁻¹ * S * (Lᴴ)⁻¹
  Matrix.of fun i j => if i ≤ j then 0.5 * (X i j + conj (X j i)) else conj (0.5 * (X j i + conj (X i j)))

/-- DGMaxDiscretization.cpp:316-324: the projector. -/
noncomputable def rescaleProjector (L : Matrix (Fin n) (Fin n) ℂ) (B : Matrix (Fin m) (Fin n) ℂ) : Matrix (Fin m) (Fin n) ℂ := B * (Lᴴ)⁻¹

/-- DGMaxDiscretization.cpp:438-473 `postProcessFaceMatrices` for an internal face, in blocks. -/
noncomputable def rescaleFace (L : Matrix (Fin nL) (Fin nL) ℂ) (R : Matrix (Fin nR) (Fin nR) ℂ) (F : Matrix (Fin nL ⊕ Fin nR) (Fin nL ⊕ Fin nR) ℂ) :
    Matrix (Fin nL ⊕ Fin nR) (Fin nL ⊕ Fin nR) ℂ :=
  Matrix.fromBlocks (L⁻¹ * F.toBlocks₁₁ * (Lᴴ)⁻¹) (L⁻¹ * F.toBlocks₁₂ * (Rᴴ)⁻¹) (R⁻¹ * F.toBlocks₂₁ * (Lᴴ)⁻¹) (R⁻¹ * F.toBlocks₂₂ * (Rᴴ)⁻¹)

/-- DGMaxDiscretization.cpp:438-473 for a boundary face: there is only the left block. -/
noncomputable def rescaleBoundary (L F : Matrix (Fin nL) (Fin nL) ℂ) : Matrix (Fin nL) (Fin nL) ℂ := L⁻¹ * F * (Lᴴ)⁻¹

/-- DGMaxDiscretization.cpp:596-603: the coefficients for `writeFields`. -/
noncomputable def restore (L : Matrix (Fin n) (Fin n) ℂ) (y : Fin n → ℂ) : Fin n → ℂ := (Lᴴ)⁻¹ *ᵥ y

/-- MiddleSizeMatrix.cpp:832-880 `solveLowerTriangular` for a vector: `none` if the size is not that of the matrix (an assertion; without it LAPACK reports an error). -/
noncomputable def solveHermitian (L : Matrix (Fin n) (Fin n) ℂ) (y : List ℂ) : Option (List ℂ) :=
  if h : y.length = n then some (List.ofFn (restore L fun i => y[i]'(by omega))) else none

/-- DGMaxDiscretization.cpp:637-682: the coefficients for `computeEnergyFluxes` of an internal face. The first solve is done with all coefficients, not with the copy of
the left ones; the offset of the right ones is the number of the right ones. `none`: an assertion or an index out of range. -/
noncomputable def restoreInternal (L : Matrix (Fin nL) (Fin nL) ℂ) (R : Matrix (Fin nR) (Fin nR) ℂ) (coefficients : List ℂ) : Option (List ℂ) := do
  let temp := coefficients.take nL
  let coefficients ← solveHermitian L coefficients
  let coefficients := temp ++ coefficients.drop nL
  if coefficients.length < 2 * nR then none
  else
    let temp ← solveHermitian R ((coefficients.drop nR).take nR)
    return coefficients.take nR ++ temp ++ coefficients.drop (2 * nR)

/-- DGMaxDiscretization.cpp:684-722: the integrand of the energy fluxes, for coefficients that need no rescaling. The background is a field and its curl. -/
noncomputable def fluxIntegrand (internal : Bool) (u : Fin nL ⊕ Fin nR → ℂ) (q : FacePoint d nL nR) (background : Option ((Fin d → ℂ) × (Fin d → ℂ))) : Fin 4 → ℝ :=
  let factor : ℂ := if internal then 1 / 2 else 1
  let normal := cast q.normal
  let avgCurl : Fin d → ℂ := fun k => ∑ i, factor * u i * (q.curl i k : ℂ)
  let avgE : Fin d → ℂ := fun k => ∑ i, factor * u i * cross normal (cast (q.value i)) k
  match background with
  | none => ![(dot avgE avgCurl).im, 0, 0, 0]
  | some (e, c) =>
    let backgroundE := cross normal e
    ![(dot avgE avgCurl).im, (dot backgroundE c).im, (dot backgroundE avgCurl + dot avgE c).im, (dot (avgE + backgroundE) (avgCurl + c)).im]

/-- The side of a face. -/
inductive Side
  | left
  | right
  deriving DecidableEq

/-- DGMaxDiscretization.cpp:629-731 `computeEnergyFluxes`. `permeability` is that of the material on the given side. -/
noncomputable def energyFluxes (internal : Bool) (u : Fin nL ⊕ Fin nR → ℂ) (points : List (FacePoint d nL nR × Option ((Fin d → ℂ) × (Fin d → ℂ)))) (side : Side)
    (wavenumber : ℝ) (permeability : Side → ℝ) : Fin 4 → ℝ :=
  let flux : Fin 4 → ℝ := fun k => (points.map fun q => q.1.weight * fluxIntegrand internal u q.1 q.2 k).sum
  let flux := if side = .right then fun k => flux k * -1 else flux
  fun k => flux k / (wavenumber * permeability side)

/-- DGMaxTimeIntegration.cpp:82-103 and 141-155: the coefficients at the start, from the inner products with the initial field and the inverse of the mass matrix. -/
noncomputable def initialCoefficients (points : List (ElementPoint d n × (Fin d → ℂ))) : Fin n → ℂ :=
  (massMatrix (points.map Prod.fst))⁻¹ *ᵥ elementVector points

end Verif.MaxLocal
