import Verif.Transform.Props

/-!
# C62: a curved element to which the theorems apply
-/
namespace Verif.Transform
open Verif.RefGeometry (Pt)
open Matrix Topology

/-- A map that bends planes. -/
def bend (x : Pt 3) : Pt 3 := ![x 0 + x 1 * x 2, x 1, 2 * x 2]
/-- Its inverse. -/
noncomputable def unbend (z : Pt 3) : Pt 3 := ![z 0 - z 1 * (z 2 / 2), z 1, z 2 / 2]
/-- Its Jacobian. -/
def bendJ (x : Pt 3) : Matrix (Fin 3) (Fin 3) ℝ := !![1, x 2, x 1; 0, 1, 0; 0, 0, 2]

theorem unbend_bend (x : Pt 3) : unbend (bend x) = x := by
  ext i; fin_cases i <;> simp [bend, unbend]

theorem bend_map (x : Pt 3) : ElementMap bend bendJ x where
  deriv := Filter.Eventually.of_forall fun y => by
    have h0 : HasFDerivAt (fun y : Pt 3 => y 0) (ContinuousLinearMap.proj (R := ℝ) (φ := fun _ : Fin 3 => ℝ) 0) y :=
      hasFDerivAt_apply 0 y
    have h1 : HasFDerivAt (fun y : Pt 3 => y 1) (ContinuousLinearMap.proj (R := ℝ) (φ := fun _ : Fin 3 => ℝ) 1) y :=
      hasFDerivAt_apply 1 y
    have h2 : HasFDerivAt (fun y : Pt 3 => y 2) (ContinuousLinearMap.proj (R := ℝ) (φ := fun _ : Fin 3 => ℝ) 2) y :=
      hasFDerivAt_apply 2 y
    refine hasFDerivAt_pi'.2 fun i => ?_
    fin_cases i
    · refine (h0.add (h1.mul h2)).congr_fderiv ?_
      ext v; simp [bendJ, dotProduct, Fin.sum_univ_three]; ring
    · refine h1.congr_fderiv ?_
      ext v; simp [bendJ, dotProduct, Fin.sum_univ_three]
    · refine (h2.const_mul 2).congr_fderiv ?_
      ext v; simp [bendJ, dotProduct, Fin.sum_univ_three]
  smooth i j := by fin_cases i <;> fin_cases j <;> simp [bendJ] <;> fun_prop
  regular := by simp [bendJ, det_fin_three]

/-- Every field on the reference element gives a field on the physical element, whose curl and divergence are those the
transformations give. -/
example (w : Pt 3 → Pt 3) (hw : Differentiable ℝ w) :
    (∃ u : Pt 3 → Pt 3, ∀ x, u (bend x) = hcurlValue (w x) (bendJ x) ∧
      curl u (bend x) = hcurlCurl (curl w x) (bendJ x)) ∧
    (∃ u : Pt 3 → Pt 3, ∀ x, u (bend x) = hdivValue (w x) (bendJ x) ∧
      divergence u (bend x) = hdivDiv (divergence w x) (bendJ x)) := by
  refine ⟨⟨fun z => hcurlValue (w (unbend z)) (bendJ (unbend z)), fun x => ⟨by simp only [unbend_bend], ?_⟩⟩,
    ⟨fun z => hdivValue (w (unbend z)) (bendJ (unbend z)), fun x => ⟨by simp only [unbend_bend], ?_⟩⟩⟩
  · exact (hcurl_curl (bend_map x) _ w (hw x) (Filter.Eventually.of_forall fun y => by simp only [unbend_bend])).2
  · exact (hdiv_divergence (bend_map x) _ w (hw x) (Filter.Eventually.of_forall fun y => by simp only [unbend_bend])).2

/-- Every function on the reference element gives a function on the physical element, whose gradient is that of the
transformation. -/
example (w : Pt 3 → ℝ) (hw : Differentiable ℝ w) : ∃ v : Pt 3 → ℝ, ∀ x, v (bend x) = h1Value (w x) (bendJ x) ∧
    grad v (bend x) = h1Deriv (grad w x) (bendJ x) := by
  refine ⟨fun z => w (unbend z), fun x => ⟨by simp only [unbend_bend, h1Value], ?_⟩⟩
  exact (h1_gradient (bend_map x) _ w (hw x) (Filter.Eventually.of_forall fun y => by simp only [unbend_bend, h1Value])).2

end Verif.Transform
