import Verif.RefGeometry.Shapes
import Mathlib.LinearAlgebra.Matrix.Determinant.Basic
import Mathlib.LinearAlgebra.Matrix.ToLinearEquiv
import Mathlib.Tactic.LinearCombination

/-! Helper lemmas for the normal vectors. -/
namespace Verif.RefGeometry
open Matrix

theorem appendCol_castSucc {d : Nat} (A : Matrix (Fin (d + 1)) (Fin d) ℝ) (v : Pt (d + 1)) (i j) :
    appendCol A v i (Fin.castSucc j) = A i j := by
  simp [appendCol]

theorem appendCol_last {d : Nat} (A : Matrix (Fin (d + 1)) (Fin d) ℝ) (v : Pt (d + 1)) (i) :
    appendCol A v i (Fin.last d) = v i := by
  simp [appendCol]

theorem appendCol_mul {d : Nat} (B : Matrix (Fin (d + 1)) (Fin (d + 1)) ℝ)
    (A : Matrix (Fin (d + 1)) (Fin d) ℝ) (v : Pt (d + 1)) :
    appendCol (B * A) (B *ᵥ v) = B * appendCol A v := by
  ext i j
  refine Fin.lastCases ?_ (fun j => ?_) j
  · rw [appendCol_last, mul_apply]
    simp only [appendCol_last]
    rfl
  · rw [appendCol_castSucc, mul_apply, mul_apply]
    simp only [appendCol_castSucc]

theorem det_appendCol_mulVec {d : Nat} (A : Matrix (Fin (d + 1)) (Fin d) ℝ) (v : Pt d) :
    (appendCol A (A *ᵥ v)).det = 0 := by
  rw [← Matrix.exists_mulVec_eq_zero_iff]
  refine ⟨Fin.snoc (α := fun _ => ℝ) v (-1), ?_, ?_⟩
  · intro h
    have := congrFun h (Fin.last d)
    simp at this
  · ext i
    simp only [mulVec, dotProduct, Fin.sum_univ_castSucc, appendCol_castSucc, appendCol_last,
      Fin.snoc_castSucc, Fin.snoc_last]
    simp

theorem normals_aux {d : Nat} (wedge : Matrix (Fin (d + 1)) (Fin d) ℝ → Pt (d + 1))
    (det : Matrix (Fin (d + 1)) (Fin (d + 1)) ℝ → ℝ)
    (hw : ∀ J v, wedge J ⬝ᵥ v = (appendCol J v).det) (hd : ∀ m, det m = m.det)
    (hg : ∀ J, wedge J ⬝ᵥ wedge J = (Jᵀ * J).det)
    (hc : ∀ f : Face d, conormal f = f.map.sign • wedge (f.map.jacobian 0))
    (hs : ∀ S ∈ shapes d, ∀ f ∈ S.faces, f.map.sign * f.map.sign = 1)
    (hj : ∀ S ∈ shapes d, ∀ f ∈ S.faces, ∀ p, f.map.jacobian p = f.map.jacobian 0) :
    NormalsOutward d wedge det := by
  intro S hS f hf j2 hj2 p
  have G := shapes_good d S hS
  have haff := G.affine f hf
  rw [hj S hS f hf p]
  set J := f.map.jacobian 0 with hJ
  set n := normalVector wedge det f.map j2 p with hn
  have hn' : n = ((if j2.det > 0 then (1 : ℝ) else -1) * f.map.sign) • wedge (j2 * J) := by
    rw [hn]
    funext i
    simp only [normalVector, hj S hS f hf p, hd, Pi.smul_apply, smul_eq_mul]
    ring
  have hdot : ∀ v, n ⬝ᵥ (j2 *ᵥ v) = |j2.det| * (conormal f ⬝ᵥ v) := by
    intro v
    rw [hn', smul_dotProduct, hw, appendCol_mul, det_mul, hc f, smul_dotProduct, hw]
    simp only [smul_eq_mul]
    split_ifs with h
    · rw [abs_of_pos h]; ring
    · rw [abs_of_nonpos (not_lt.1 h)]; ring
  have hcol : ∀ v, conormal f ⬝ᵥ (J *ᵥ v) = 0 := by
    intro v
    rw [hc f, smul_dotProduct, hw, det_appendCol_mulVec, smul_zero]
  have hlev : ∀ x, conormal f ⬝ᵥ (x - f.map.transform p) = level f x := by
    intro x
    have h1 : x - f.map.transform p = (x - f.map.transform 0) - J *ᵥ p := by
      rw [haff 0 p]; abel
    rw [h1, dotProduct_sub, hcol, sub_zero]
    rfl
  have hpos : 0 < |j2.det| := abs_pos.2 hj2
  refine ⟨fun x hx => ?_, fun v => ?_, ?_⟩
  · rw [hdot, hlev]
    have hle : level f x ≤ 0 := (G.hrep x).1 hx f hf
    refine ⟨by nlinarith, ?_⟩
    rw [G.image_level f hf x]
    constructor
    · intro h
      rcases mul_eq_zero.1 h with h | h
      · exact absurd h hpos.ne'
      · exact ⟨hx, h⟩
    · rintro ⟨_, h⟩
      rw [h, mul_zero]
  · rw [← mulVec_mulVec, hdot, hcol, mul_zero]
  · rw [hn', smul_dotProduct, dotProduct_smul, hg]
    simp only [smul_eq_mul]
    have := hs S hS f hf
    split_ifs <;> linear_combination ((j2 * J)ᵀ * (j2 * J)).det * this

theorem wedge2_dot (J v) : wedge2 J ⬝ᵥ v = (appendCol J v).det := by
  rw [det_fin_two]
  have h0 : ∀ i : Fin 2, appendCol J v i 0 = J i 0 := fun i => appendCol_castSucc J v i 0
  have h1 : ∀ i : Fin 2, appendCol J v i 1 = v i := fun i => appendCol_last J v i
  simp only [h0, h1, dotProduct, Fin.sum_univ_two, wedge2]
  simp
  ring

theorem wedge3_dot (J v) : wedge3 J ⬝ᵥ v = (appendCol J v).det := by
  rw [det_fin_three]
  have h0 : ∀ i : Fin 3, appendCol J v i 0 = J i 0 := fun i => appendCol_castSucc J v i 0
  have h1 : ∀ i : Fin 3, appendCol J v i 1 = J i 1 := fun i => appendCol_castSucc J v i 1
  have h2 : ∀ i : Fin 3, appendCol J v i 2 = v i := fun i => appendCol_last J v i
  simp only [h0, h1, h2, dotProduct, Fin.sum_univ_three, wedge3]
  simp
  ring

theorem det4_eq (m : Matrix (Fin 4) (Fin 4) ℝ) : det4 m = m.det := by
  rw [det_succ_row_zero, Fin.sum_univ_four]
  simp only [det_fin_three, det4, submatrix_apply]
  simp [Fin.succAbove, Fin.lt_def]
  ring

theorem wedge4_dot (J v) : wedge4 J ⬝ᵥ v = (appendCol J v).det := by
  rw [← det4_eq]
  have h0 : ∀ i : Fin 4, appendCol J v i 0 = J i 0 := fun i => appendCol_castSucc J v i 0
  have h1 : ∀ i : Fin 4, appendCol J v i 1 = J i 1 := fun i => appendCol_castSucc J v i 1
  have h2 : ∀ i : Fin 4, appendCol J v i 2 = J i 2 := fun i => appendCol_castSucc J v i 2
  have h3 : ∀ i : Fin 4, appendCol J v i 3 = v i := fun i => appendCol_last J v i
  simp only [h0, h1, h2, h3, det4, dotProduct, Fin.sum_univ_four, wedge4]
  simp
  ring

theorem wedge2_gram (J) : wedge2 J ⬝ᵥ wedge2 J = (Jᵀ * J).det := by
  simp [wedge2, mul_apply, Fin.sum_univ_two, dotProduct]
  ring

theorem wedge3_gram (J) : wedge3 J ⬝ᵥ wedge3 J = (Jᵀ * J).det := by
  rw [det_fin_two]
  simp [wedge3, mul_apply, Fin.sum_univ_three, dotProduct]
  ring

theorem wedge4_gram (J) : wedge4 J ⬝ᵥ wedge4 J = (Jᵀ * J).det := by
  rw [det_fin_three]
  simp [wedge4, mul_apply, Fin.sum_univ_four, dotProduct]
  ring

end Verif.RefGeometry
