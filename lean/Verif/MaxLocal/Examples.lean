import Verif.MaxLocal.Props
import Verif.MaxLocal.PropsUse
import Mathlib.Tactic.FinCases

/-! # Local integrals: cases that meet the hypotheses

The unit square with one element and the field `(-y, x)`, which has the curl two, as its only basis function; the rules of quadrature have one point, in the middle. -/
namespace Verif.MaxLocal

open scoped Matrix

/-- The middle of the square. -/
noncomputable def squarePoint : ElementPoint 2 1 := ⟨1, fun _ => ![-1 / 2, 1 / 2], fun _ => ![2, 0], .scalar 1, .scalar 1⟩

/-- The middle of a side. -/
noncomputable def sidePoint (normal value : Fin 2 → ℝ) : FacePoint 2 1 0 := ⟨1, normal, fun _ => value, fun _ => ![2, 0], .scalar 1, .scalar 1⟩

/-- The square with the field `(-y, x)`, and the source for the frequency. -/
noncomputable def squareElement (omega : ℝ) : ExactElement 2 1 := ⟨[(squarePoint, squarePoint.field ![1], 0, -((omega : ℂ) ^ 2) • (squarePoint.field ![1]).value)]⟩

/-- A side with a boundary condition. -/
noncomputable def squareSide (bc : BC) (normal value : Fin 2 → ℝ) : ExactFace 2 fun _ => 1 :=
  .boundary 0 bc 1 1 [(sidePoint normal value, (sidePoint normal value).left ![1])]

/-- The sides, with the three types of conditions. -/
noncomputable def squareSides : List (ExactFace 2 fun _ => 1) :=
  [squareSide .dirichlet ![0, -1] ![0, 1 / 2], squareSide .neumann ![1, 0] ![-1 / 2, 1], squareSide .silverMuller ![0, 1] ![-1, 1 / 2],
    squareSide .dirichlet ![-1, 0] ![-1 / 2, 0]]

theorem square_green (omega : ℝ) : Green 1 (fun _ => squareElement omega) squareSides := by
  intro v
  simp only [squareElement, squareSides, squareSide, ExactFace.flux, squarePoint, sidePoint, ElementPoint.field, FacePoint.left, FacePoint.outward, Tensor.applyCurl, cross,
    bil, Fin.sum_univ_succ, List.map_cons, List.map_nil, List.sum_cons, List.sum_nil]
  simp
  ring

/-- The hypotheses of `consistent` and `exact_solves` are met. -/
theorem square_solved (stab omega : ℝ) (v : Nat → Fin 1 → ℂ) :
    ∃ r : List ℂ, squareSides.mapM (ExactFace.residual stab omega (fun _ => ![1]) v) = some r ∧
      ∑ _e : Fin 1, (squareElement omega).residual omega ![1] (v _e) + r.sum = 0 := by
  refine exact_solves stab omega 1 (fun _ => squareElement omega) squareSides (square_green omega) ?_ ?_ (fun _ => ![1]) ?_ ?_ v
  · intro e q hq
    simp only [squareElement, List.mem_singleton] at hq
    subst hq
    funext i
    simp [squarePoint, Tensor.applyDiv]
  · intro f hf
    simp only [squareSides, List.mem_cons, List.not_mem_nil, or_false] at hf
    rcases hf with rfl | rfl | rfl | rfl <;> simp [squareSide, ExactFace.Continuous]
  · intro e _ q hq
    simp only [squareElement, List.mem_singleton] at hq
    subst hq
    rfl
  · intro f hf
    simp only [squareSides, List.mem_cons, List.not_mem_nil, or_false] at hf
    rcases hf with rfl | rfl | rfl | rfl <;>
    · intro q hq
      simp only [List.mem_singleton] at hq
      subst hq
      rfl

/-- The mass matrix of the square, `1 / 2`. -/
theorem square_mass : massMatrix [squarePoint] = Matrix.of ![![(1 / 2 : ℂ)]] := by
  ext i j
  fin_cases i; fin_cases j
  simp [massMatrix, squarePoint, dot, Tensor.applyDiv, cast, Fin.sum_univ_succ]
  norm_num

/-- With the permittivity four instead of one the integration of the field with the coefficient one starts from a quarter of it. -/
example : initialCoefficients [({ squarePoint with div := .scalar 4 }, (squarePoint.field ![1]).value)] 0 = 1 / 4 := by
  have h := initial_scaled [({ squarePoint with div := .scalar 4 }, (squarePoint.field ![1]).value)] ![1] 4 (by norm_num)
    (by simp) (by intro q hq; rw [List.mem_singleton] at hq; subst hq; rfl) (by
      rw [Matrix.det_fin_one]
      simp [massMatrix, squarePoint, dot, Tensor.applyDiv, cast, Fin.sum_univ_succ]
      norm_num) 0
  simpa using h

/-- The Cholesky factor of a mass matrix, as `eigen_equivalent` takes it. -/
example : (Matrix.of ![![(4 : ℂ), 2], ![2, 5]]) = Matrix.of ![![(2 : ℂ), 0], ![1, 2]] * (Matrix.of ![![(2 : ℂ), 0], ![1, 2]])ᴴ ∧
    IsUnit (Matrix.of ![![(2 : ℂ), 0], ![1, 2]]).det := by
  constructor
  · ext i j
    fin_cases i <;> fin_cases j <;> simp [Matrix.mul_apply, Fin.sum_univ_succ, map_ofNat] <;> norm_num
  · rw [Matrix.det_fin_two]
    simp

/-- A point of a face with two functions, one with the value `(1, 0, 0)` and one with the curl `(0, 3, 0)`. -/
noncomputable def wavePoint : FacePoint 3 2 0 :=
  ⟨1, ![0, 0, 1], Sum.elim ![![1, 0, 0], ![0, 0, 0]] Fin.elim0, Sum.elim ![![0, 0, 0], ![0, 3, 0]] Fin.elim0, .scalar 1, .scalar 1⟩

theorem wavePoint_left : (wavePoint.left ![1, Complex.I]).curl = (Complex.I * (3 : ℝ)) • cross wavePoint.outward (wavePoint.left ![1, Complex.I]).value := by
  funext k
  fin_cases k <;> simp [wavePoint, FacePoint.left, FacePoint.outward, cross, Fin.sum_univ_succ]

/-- A wave that leaves through this face with the wavenumber three, as `outgoing_flux` takes it: its flux is `-3`. -/
example : energyFluxes false (Sum.elim ![1, Complex.I] Fin.elim0) [(wavePoint, none)] .left 1 (fun _ => 1) 0 = -3 := by
  have h := outgoing_flux ![1, Complex.I] [wavePoint] 3 1 (fun _ => 1) (by
    intro q hq
    rw [List.mem_singleton] at hq
    subst hq
    exact wavePoint_left)
  refine h.trans ?_
  simp [wavePoint, FacePoint.left, FacePoint.outward, cross, Fin.sum_univ_succ]

end Verif.MaxLocal
