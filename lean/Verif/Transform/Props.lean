import Verif.Transform.LemmasFields
import Verif.Transform.LemmasElements

/-!
# C62: function values on physical elements
-/
namespace Verif.Transform
open Verif.RefGeometry (Pt appendCol wedge2 wedge3 wedge4)
open Verif.PhysMap (solve)
open Matrix Topology

variable {d : Nat}

section
variable {F : Pt d → Pt d} {J : Pt d → Matrix (Fin d) (Fin d) ℝ} {x : Pt d}

/-- If `v` is the function on the physical element whose values are those the H1 transformation gives for `w`, then the
derivative the transformation gives is the gradient of `v`. -/
theorem h1_gradient (h : ElementMap F J x) (v w : Pt d → ℝ) (hw : DifferentiableAt ℝ w x)
    (hv : ∀ᶠ y in 𝓝 x, v (F y) = h1Value (w y) (J y)) :
    DifferentiableAt ℝ v (F x) ∧ grad v (F x) = h1Deriv (grad w x) (J x) := grad_aux h v w hw hv

/-- The same for the divergence and the HDiv transformation. -/
theorem hdiv_divergence (h : ElementMap F J x) (u w : Pt d → Pt d) (hw : DifferentiableAt ℝ w x)
    (hu : ∀ᶠ y in 𝓝 x, u (F y) = hdivValue (w y) (J y)) :
    DifferentiableAt ℝ u (F x) ∧ divergence u (F x) = hdivDiv (divergence w x) (J x) := con_aux h u w hw hu

end

/-- The same for the curl and the HCurl transformation, in space ... -/
theorem hcurl_curl {F : Pt 3 → Pt 3} {J : Pt 3 → Matrix (Fin 3) (Fin 3) ℝ} {x : Pt 3} (h : ElementMap F J x)
    (u w : Pt 3 → Pt 3) (hw : DifferentiableAt ℝ w x) (hu : ∀ᶠ y in 𝓝 x, u (F y) = hcurlValue (w y) (J y)) :
    DifferentiableAt ℝ u (F x) ∧ curl u (F x) = hcurlCurl (curl w x) (J x) := by
  obtain ⟨hd, hc⟩ := cov_aux h u w hw hu
  refine ⟨hd, ?_⟩
  have h0 := hc 2 1
  have h1 := hc 0 2
  have h2 := hc 1 0
  have hD := h.regular
  ext i
  rw [hcurlCurl, eq_div_iff hD]
  simp only [curl, mulVec, dotProduct, Fin.sum_univ_three, Matrix.cons_val_zero, Matrix.cons_val_one, Matrix.cons_val_two,
    h0, h1, h2, det_fin_three]
  fin_cases i <;> simp <;> ring

/-- ... and in the plane. -/
theorem hcurl_curl2 {F : Pt 2 → Pt 2} {J : Pt 2 → Matrix (Fin 2) (Fin 2) ℝ} {x : Pt 2} (h : ElementMap F J x)
    (u w : Pt 2 → Pt 2) (hw : DifferentiableAt ℝ w x) (hu : ∀ᶠ y in 𝓝 x, u (F y) = hcurlValue (w y) (J y)) :
    DifferentiableAt ℝ u (F x) ∧ curl2 u (F x) = hcurlCurl2 (curl2 w x) (J x) := by
  obtain ⟨hd, hc⟩ := cov_aux h u w hw hu
  refine ⟨hd, ?_⟩
  have h2 := hc 1 0
  have hD := h.regular
  ext i
  rw [hcurlCurl2, eq_div_iff hD]
  simp only [curl2, h2, Fin.sum_univ_two, det_fin_two]
  fin_cases i
  · simp; ring
  · simp

/-- The component of a field in the direction of a curve is that on the reference element: `t` is the tangent there,
`J t` that of the mapped curve. -/
theorem hcurl_tangential (J : Matrix (Fin d) (Fin d) ℝ) (hJ : J.det ≠ 0) (w t : Pt d) :
    hcurlValue w J ⬝ᵥ (J *ᵥ t) = w ⬝ᵥ t := by
  rw [dotProduct_mulVec, ← mulVec_transpose, hcurlValue, solve_spec]
  rwa [det_transpose]

/-- The flux of a field through a face is that on the reference element. The columns of `T` are tangents of the face of
the reference element, `J T` are those of the face of the physical element, and the normal vector `hpGEM` computes from
tangents is their cross product. -/
theorem hdiv_normal :
    (∀ (J : Matrix (Fin 2) (Fin 2) ℝ) (w : Pt 2) (T : Matrix (Fin 2) (Fin 1) ℝ), J.det ≠ 0 →
      hdivValue w J ⬝ᵥ wedge2 (J * T) = w ⬝ᵥ wedge2 T) ∧
    (∀ (J : Matrix (Fin 3) (Fin 3) ℝ) (w : Pt 3) (T : Matrix (Fin 3) (Fin 2) ℝ), J.det ≠ 0 →
      hdivValue w J ⬝ᵥ wedge3 (J * T) = w ⬝ᵥ wedge3 T) ∧
    (∀ (J : Matrix (Fin 4) (Fin 4) ℝ) (w : Pt 4) (T : Matrix (Fin 4) (Fin 3) ℝ), J.det ≠ 0 →
      hdivValue w J ⬝ᵥ wedge4 (J * T) = w ⬝ᵥ wedge4 T) := by
  have sm : ∀ {n : Nat} (J : Matrix (Fin n) (Fin n) ℝ) (w : Pt n), hdivValue w J = (J.det)⁻¹ • (J *ᵥ w) := by
    intro n J w; ext i; simp [hdivValue, div_eq_inv_mul]
  refine ⟨fun J w T hJ => ?_, fun J w T hJ => ?_, fun J w T hJ => ?_⟩
  · rw [sm, smul_dotProduct, dotProduct_comm, RefGeometry.wedge2_dot, det_append, dotProduct_comm, RefGeometry.wedge2_dot,
      smul_eq_mul, inv_mul_cancel_left₀ hJ]
  · rw [sm, smul_dotProduct, dotProduct_comm, RefGeometry.wedge3_dot, det_append, dotProduct_comm, RefGeometry.wedge3_dot,
      smul_eq_mul, inv_mul_cancel_left₀ hJ]
  · rw [sm, smul_dotProduct, dotProduct_comm, RefGeometry.wedge4_dot, det_append, dotProduct_comm, RefGeometry.wedge4_dot,
      smul_eq_mul, inv_mul_cancel_left₀ hJ]

/-- The maps of the elements are such maps, wherever the Jacobian is not singular. -/
theorem element_map (k : PhysMap.Kind) (p : Nat → Pt k.dim) (x : Pt k.dim) (hx : ∀ᶠ y in 𝓝 x, PhysMap.Regular k y)
    (h : (PhysMap.jacobian k p x).det ≠ 0) : ElementMap (PhysMap.transform k p) (PhysMap.jacobian k p) x where
  deriv := hx.mono fun y hy => PhysMap.jacobian_correct k p y hy
  smooth := jacobian_smooth k p x hx
  regular := h

/-- `PhysGradientOfBasisFunction` does the same as the H1 transformation. -/
theorem physGradient_eq (r : Pt d) (J : Matrix (Fin d) (Fin d) ℝ) : physGradient r J = h1Deriv r J := by
  rw [physGradient, h1Deriv, swaps_transpose]

/-- The curls of a field vanish together. -/
theorem hcurl_kernel (J : Matrix (Fin 3) (Fin 3) ℝ) (hJ : J.det ≠ 0) (c : Pt 3) : hcurlCurl c J = 0 ↔ c = 0 := by
  have e : hcurlCurl c J = (J.det)⁻¹ • (J *ᵥ c) := by ext i; simp [hcurlCurl, div_eq_inv_mul]
  rw [e, smul_eq_zero, inv_eq_zero, or_iff_right hJ]
  refine ⟨fun h => ?_, fun h => by rw [h, mulVec_zero]⟩
  have := congrArg (J⁻¹ *ᵥ ·) h
  simpa [mulVec_mulVec, nonsing_inv_mul _ (Ne.isUnit hJ)] using this

end Verif.Transform
