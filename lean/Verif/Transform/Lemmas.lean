import Verif.Transform.Model
import Verif.Transform.Spec
import Mathlib.Analysis.Calculus.FDeriv.Symmetric
import Mathlib.Analysis.Calculus.FDeriv.Analytic
import Mathlib.Analysis.Calculus.FDeriv.Pi
import Mathlib.Analysis.Calculus.FDeriv.Mul
import Mathlib.Analysis.Calculus.ContDiff.Basic
import Mathlib.Analysis.Calculus.InverseFunctionTheorem.FDeriv
import Mathlib.Analysis.Calculus.MeanValue
import Mathlib.Topology.Instances.Matrix
import Mathlib.LinearAlgebra.Matrix.Adjugate
import Mathlib.Tactic.LinearCombination
import Mathlib.Tactic.FieldSimp

set_option linter.all false
namespace Verif.Transform
open Verif.RefGeometry (Pt)
open Verif.PhysMap (solve)
open Matrix Topology

variable {d : Nat}

theorem solve_spec (A : Matrix (Fin d) (Fin d) ℝ) (hA : A.det ≠ 0) (b : Pt d) : A *ᵥ solve A b = b := by
  rw [solve, if_neg hA, mulVec_mulVec, mul_nonsing_inv _ (Ne.isUnit hA), one_mulVec]

theorem solve_unique (A : Matrix (Fin d) (Fin d) ℝ) (hA : A.det ≠ 0) (b y : Pt d) (h : A *ᵥ y = b) : solve A b = y := by
  rw [solve, if_neg hA, ← h, mulVec_mulVec, nonsing_inv_mul _ (Ne.isUnit hA), one_mulVec]

/-- the linear map of a matrix -/
noncomputable abbrev lin (A : Matrix (Fin d) (Fin d) ℝ) : Pt d →L[ℝ] Pt d := A.mulVecLin.toContinuousLinearMap

theorem lin_apply (A : Matrix (Fin d) (Fin d) ℝ) (v : Pt d) : lin A v = A *ᵥ v := rfl

theorem pderiv_eq {E : Type*} [NormedAddCommGroup E] [NormedSpace ℝ E] {f : Pt d → E} {f' : Pt d →L[ℝ] E} {x : Pt d}
    (h : HasFDerivAt f f' x)
    (j : Fin d) : pderiv j f x = f' (Pi.single j 1) := by rw [pderiv, h.fderiv]

/-! ### The derivative of the determinant -/

theorem det_update (A : Matrix (Fin d) (Fin d) ℝ) (i : Fin d) (v : Pt d) :
    (A.updateRow i v).det = ∑ j, v j * A.adjugate j i := by
  rw [← cramer_transpose_apply, cramer_eq_adjugate_mulVec, mulVec, dotProduct]
  refine Finset.sum_congr rfl fun j _ => ?_
  rw [← adjugate_transpose, transpose_apply, mul_comm]

theorem det_diff (J : Pt d → Matrix (Fin d) (Fin d) ℝ) (x : Pt d) (hJ : ∀ i j, DifferentiableAt ℝ (fun y => J y i j) x) :
    DifferentiableAt ℝ (fun y => (J y).det) x := by
  simp only [det_apply]
  fun_prop

theorem adj_diff (J : Pt d → Matrix (Fin d) (Fin d) ℝ) (x : Pt d) (hJ : ∀ i j, DifferentiableAt ℝ (fun y => J y i j) x)
    (i j : Fin d) : DifferentiableAt ℝ (fun y => (J y).adjugate i j) x := by
  simp only [adjugate_apply]
  refine det_diff _ x fun a b => ?_
  by_cases h : a = j
  · subst h; simp
  · simpa [updateRow_ne h] using hJ a b

theorem pderiv_sum {ι : Type*} (s : Finset ι) (f : ι → Pt d → ℝ) (x : Pt d) (h : ∀ i ∈ s, DifferentiableAt ℝ (f i) x)
    (k : Fin d) : pderiv k (fun y => ∑ i ∈ s, f i y) x = ∑ i ∈ s, pderiv k (f i) x := by
  rw [pderiv_eq (HasFDerivAt.fun_sum fun i hi => (h i hi).hasFDerivAt)]
  simp [pderiv]

theorem pderiv_mul (f g : Pt d → ℝ) (x : Pt d) (hf : DifferentiableAt ℝ f x) (hg : DifferentiableAt ℝ g x) (k : Fin d) :
    pderiv k (fun y => f y * g y) x = pderiv k f x * g x + f x * pderiv k g x := by
  have h : HasFDerivAt (fun y => f y * g y) _ x := hf.hasFDerivAt.mul hg.hasFDerivAt
  rw [pderiv_eq h]
  simp [pderiv]; ring

theorem det_pderiv (J : Pt d → Matrix (Fin d) (Fin d) ℝ) (x : Pt d) (hJ : ∀ i j, DifferentiableAt ℝ (fun y => J y i j) x)
    (k : Fin d) : pderiv k (fun y => (J y).det) x
      = ∑ i, ∑ j, pderiv k (fun y => J y i j) x * (J x).adjugate j i := by
  let D : ContinuousMultilinearMap ℝ (fun _ : Fin d => Pt d) ℝ :=
    { toMultilinearMap := (detRowAlternating (n := Fin d) (R := ℝ)).toMultilinearMap
      cont := by
        show Continuous fun v : Fin d → Pt d => Matrix.det v
        exact Continuous.matrix_det continuous_id }
  let K : Pt d → Fin d → Pt d := fun y i j => J y i j
  have h1 : HasFDerivAt D (D.linearDeriv (K x)) (K x) := D.hasFDerivAt (K x)
  have h2 : HasFDerivAt K
      (ContinuousLinearMap.pi fun i => ContinuousLinearMap.pi fun j => fderiv ℝ (fun y => J y i j) x) x :=
    hasFDerivAt_pi.2 fun i => hasFDerivAt_pi.2 fun j => (hJ i j).hasFDerivAt
  have h3 : HasFDerivAt (fun y => D (K y)) _ x := HasFDerivAt.comp x h1 h2
  rw [show (fun y => (J y).det) = fun y => D (K y) from rfl, pderiv_eq h3]
  simp only [ContinuousLinearMap.comp_apply, ContinuousMultilinearMap.linearDeriv_apply]
  refine Finset.sum_congr rfl fun i _ => ?_
  exact det_update (J x) i _

/-! ### The map -/

namespace ElementMap
variable {F : Pt d → Pt d} {J : Pt d → Matrix (Fin d) (Fin d) ℝ} {x : Pt d}

theorem cont (h : ElementMap F J x) : ContinuousAt (fun y => lin (J y)) x := by
  have h1 : ContinuousAt (fun y => (fun i j => J y i j : Fin d → Fin d → ℝ)) x :=
    continuousAt_pi.2 fun i => continuousAt_pi.2 fun j => (h.smooth i j).continuousAt
  let L : Matrix (Fin d) (Fin d) ℝ →ₗ[ℝ] (Pt d →L[ℝ] Pt d) :=
    LinearMap.toContinuousLinearMap.toLinearMap ∘ₗ (Matrix.toLin' (R := ℝ)).toLinearMap
  let L' : (Fin d → Fin d → ℝ) →ₗ[ℝ] (Pt d →L[ℝ] Pt d) := L
  have h2 : Continuous L' := L'.continuous_of_finiteDimensional
  exact h2.continuousAt.comp h1

theorem strict (h : ElementMap F J x) : HasStrictFDerivAt F (lin (J x)) x :=
  hasStrictFDerivAt_of_hasFDerivAt_of_continuousAt h.deriv h.cont

theorem det_ne (h : ElementMap F J x) : ∀ᶠ y in 𝓝 x, (J y).det ≠ 0 :=
  (det_diff J x h.smooth).continuousAt.eventually_ne h.regular

/-- a function on the physical element is differentiable if it is on the reference element -/
theorem diff {E : Type*} [NormedAddCommGroup E] [NormedSpace ℝ E] (h : ElementMap F J x) (v w : Pt d → E)
    (hv : ∀ᶠ y in 𝓝 x, v (F y) = w y) (hw : DifferentiableAt ℝ w x) : DifferentiableAt ℝ v (F x) := by
  let e : Pt d ≃L[ℝ] Pt d := (Matrix.toLinearEquiv' (J x) (Matrix.invertibleOfIsUnitDet _ (Ne.isUnit h.regular))).toContinuousLinearEquiv
  have he : (e : Pt d →L[ℝ] Pt d) = lin (J x) := by ext1 y; rfl
  have hs : HasStrictFDerivAt F (e : Pt d →L[ℝ] Pt d) x := he ▸ h.strict
  have h1 := hs.to_localInverse.hasFDerivAt.differentiableAt
  have h2 : ∀ᶠ z in 𝓝 (F x), F (hs.localInverse F e x z) = z := hs.eventually_right_inverse
  have h3 : hs.localInverse F e x (F x) = x := hs.localInverse_apply_image
  have h4 : Filter.Tendsto (hs.localInverse F e x) (𝓝 (F x)) (𝓝 x) := by
    have := h1.continuousAt
    rw [ContinuousAt, h3] at this; exact this
  have h5 : v =ᶠ[𝓝 (F x)] fun z => w (hs.localInverse F e x z) := by
    filter_upwards [h2, h4.eventually hv] with z hz hz'
    rw [← hz', hz]
  refine DifferentiableAt.congr_of_eventuallyEq ?_ h5
  exact DifferentiableAt.comp (F x) (by rw [h3]; exact hw) h1

/-- the chain rule -/
theorem chain (h : ElementMap F J x) (v : Pt d → ℝ) (hv : DifferentiableAt ℝ v (F x)) (k : Fin d) :
    pderiv k (fun y => v (F y)) x = ∑ l, pderiv l v (F x) * J x l k := by
  have h1 : HasFDerivAt (fun y => v (F y)) ((fderiv ℝ v (F x)).comp (lin (J x))) x :=
    hv.hasFDerivAt.comp x h.deriv.self_of_nhds
  rw [pderiv_eq h1, ContinuousLinearMap.comp_apply, lin_apply, mulVec_single_one]
  have e : (J x).col k = ∑ l, J x l k • (Pi.single l 1 : Pt d) := by
    ext i; simp [Finset.sum_apply, Pi.single_apply]
  rw [e, map_sum]
  refine Finset.sum_congr rfl fun l _ => ?_
  rw [map_smul, smul_eq_mul, mul_comm]; rfl

/-- mixed derivatives can be exchanged -/
theorem symm (h : ElementMap F J x) (i j k : Fin d) :
    pderiv k (fun y => J y i j) x = pderiv j (fun y => J y i k) x := by
  let P : Pt d → (Pt d →L[ℝ] ℝ) := fun y => ∑ j, J y i j • ContinuousLinearMap.proj (R := ℝ) (φ := fun _ : Fin d => ℝ) j
  have h1 : ∀ᶠ y in 𝓝 x, HasFDerivAt (fun y => F y i) (P y) y := by
    filter_upwards [h.deriv] with y hy
    have := hasFDerivAt_pi'.1 hy i
    refine this.congr_fderiv ?_
    ext v
    simp [P, mulVec, dotProduct]
  have h2 : HasFDerivAt P (∑ j, (fderiv ℝ (fun y => J y i j) x).smulRight
      (ContinuousLinearMap.proj (R := ℝ) (φ := fun _ : Fin d => ℝ) j)) x := by
    refine HasFDerivAt.fun_sum fun j _ => ?_
    have := (h.smooth i j).hasFDerivAt
    exact HasFDerivAt.smul_const (𝕜 := ℝ) this (ContinuousLinearMap.proj (R := ℝ) (φ := fun _ : Fin d => ℝ) j)
  have h3 := second_derivative_symmetric_of_eventually_of_real h1 h2 (Pi.single k 1) (Pi.single j 1)
  simpa [ContinuousLinearMap.sum_apply, Pi.single_apply, pderiv] using h3

end ElementMap

end Verif.Transform
