import Verif.MaxLocal.Lemmas
import Mathlib.Tactic.Linarith
import Mathlib.Tactic.Positivity
import Mathlib.LinearAlgebra.Matrix.Hermitian
import Mathlib.Algebra.Order.BigOperators.Group.List

/-! # Matrices of DG-Max: symmetry and sign -/
namespace Verif.MaxLocal

open scoped ComplexConjugate

variable {d nL nR n : Nat}

/-! ## Lemmas -/

theorem bil_comm (a b : Fin d → ℂ) : bil a b = bil b a := Finset.sum_congr rfl fun i _ => mul_comm _ _

theorem bil_applyDiv (T : Tensor) (a b : Fin d → ℂ) : bil (T.applyDiv a) b = bil a (T.applyDiv b) := by
  cases T <;> exact Finset.sum_congr rfl fun i _ => by simp only [Tensor.applyDiv]; ring

theorem bil_applyCurl (T : Tensor) (a b : Fin d → ℂ) : bil (T.applyCurl a) b = bil a (T.applyCurl b) := by
  rcases d with _ | _ | _ | _ | d <;> cases T <;> simp [bil, Tensor.applyCurl, Fin.sum_univ_succ] <;> ring

theorem star_bil (a b : Fin d → ℂ) : conj (bil a b) = bil (fun i => conj (a i)) (fun i => conj (b i)) := by
  simp [bil]

theorem star_applyDiv (T : Tensor) (a : Fin d → ℂ) : (fun i => conj (T.applyDiv a i)) = T.adjoint.applyDiv fun i => conj (a i) := by
  cases T <;> funext i <;> simp [Tensor.applyDiv, Tensor.adjoint]

theorem star_applyCurl (T : Tensor) (a : Fin d → ℂ) : (fun i => conj (T.applyCurl a i)) = T.adjoint.applyCurl fun i => conj (a i) := by
  rcases d with _ | _ | _ | _ | d <;> cases T <;> funext i <;> simp [Tensor.applyCurl, Tensor.adjoint] <;> (try fin_cases i) <;> simp

theorem star_cast (a : Fin d → ℝ) : (fun i => conj (cast a i)) = cast a := by
  funext i; simp [cast]

theorem faceMatrix_cases (internal : Bool) (bc : BC) (stab diameter : ℝ) (face : List (FacePoint d nL nR)) :
    faceMatrix internal bc stab diameter face = 0 ∨ faceMatrix internal bc stab diameter face =
      Matrix.of fun j i => (face.map fun q => (q.weight : ℂ) * q.entry internal (stab / diameter) j i).sum := by
  cases internal <;> cases bc <;> simp [faceMatrix, BC.natural]

theorem impedanceMatrix_cases (internal : Bool) (bc : BC) (z : ℝ) (face : List (FacePoint d nL nR)) :
    impedanceMatrix internal bc z face = 0 ∨ impedanceMatrix internal bc z face = Matrix.of fun j i => (face.map fun q => (q.weight : ℂ) *
      (-(Complex.I * z) * dot (cast (q.normalCross i)) (cast (q.normalCross j)))).sum := by
  cases internal <;> cases bc <;> simp [impedanceMatrix]

/-! ## The properties -/

/-- The material has no losses: its tensor is real. -/
def Tensor.Lossless : Tensor → Prop
  | .scalar z => conj z = z
  | .diag z => ∀ i, conj (z i) = z i

theorem Tensor.Lossless.adjoint {T : Tensor} (h : T.Lossless) : T.adjoint = T := by
  cases T with
  | scalar z => simpa [Tensor.adjoint, Tensor.Lossless] using h
  | diag z => simp only [Tensor.adjoint]; congr 1; funext i; exact h i

/-- **C90.** All matrices are symmetric (without conjugation), for any material, also with losses. -/
theorem matrices_symmetric (points : List (ElementPoint d n)) (internal : Bool) (bc : BC) (stab diameter z : ℝ) (face : List (FacePoint d nL nR)) :
    (massMatrix points).transpose = massMatrix points ∧ (stiffnessMatrix points).transpose = stiffnessMatrix points ∧
    (faceMatrix internal bc stab diameter face).transpose = faceMatrix internal bc stab diameter face ∧
    (impedanceMatrix internal bc z face).transpose = impedanceMatrix internal bc z face := by
  refine ⟨?_, ?_, ?_, ?_⟩
  · ext j i
    simp only [massMatrix, Matrix.transpose_apply, Matrix.of_apply, dot_cast]
    refine congrArg List.sum (List.map_congr_left fun q _ => ?_)
    rw [bil_applyDiv, bil_comm]
  · ext j i
    simp only [stiffnessMatrix, Matrix.transpose_apply, Matrix.of_apply, dot_cast]
    refine congrArg List.sum (List.map_congr_left fun q _ => ?_)
    rw [bil_applyCurl, bil_comm]
  · rcases faceMatrix_cases internal bc stab diameter face with h | h <;> rw [h]
    · exact Matrix.transpose_zero
    · ext j i
      simp only [Matrix.transpose_apply, Matrix.of_apply, entry_eq]
      refine congrArg List.sum (List.map_congr_left fun q _ => ?_)
      rw [bil_comm ((q.mu j).applyCurl _), bil_comm (cast (q.normalCross j)) ((q.mu i).applyCurl _), bil_comm (cast (q.normalCross j)) (cast _)]
      ring
  · rcases impedanceMatrix_cases internal bc z face with h | h <;> rw [h]
    · exact Matrix.transpose_zero
    · ext j i
      simp only [Matrix.transpose_apply, Matrix.of_apply, dot_cast]
      refine congrArg List.sum (List.map_congr_left fun q _ => ?_)
      rw [bil_comm]

/-- **C90.** For materials without losses the mass, stiffness and face matrices are Hermitian. The impedance matrix is `-i` times a Hermitian matrix. -/
theorem matrices_hermitian (points : List (ElementPoint d n)) (internal : Bool) (bc : BC) (stab diameter z : ℝ) (face : List (FacePoint d nL nR))
    (he : ∀ q ∈ points, q.div.Lossless ∧ q.mu.Lossless) (hf : ∀ q ∈ face, q.muL.Lossless ∧ q.muR.Lossless) :
    (massMatrix points).IsHermitian ∧ (stiffnessMatrix points).IsHermitian ∧ (faceMatrix internal bc stab diameter face).IsHermitian ∧
    (Complex.I • impedanceMatrix internal bc z face).IsHermitian := by
  obtain ⟨s1, s2, s3, s4⟩ := matrices_symmetric points internal bc stab diameter z face
  have real : ∀ {m : Type} (A : Matrix m m ℂ), A.transpose = A → (∀ i j, conj (A i j) = A i j) → A.IsHermitian := by
    intro m A h1 h2
    ext i j
    rw [Matrix.conjTranspose_apply]
    refine (h2 j i).trans ?_
    exact congrFun (congrFun h1 i) j
  have rsum : ∀ {α : Type} (l : List α) (f : α → ℂ), (∀ q ∈ l, conj (f q) = f q) → conj (l.map f).sum = (l.map f).sum := by
    intro α l f h
    induction l with
    | nil => simp
    | cons q l ih => simp [h q (by simp), ih fun x hx => h x (by simp [hx])]
  refine ⟨real _ s1 fun j i => ?_, real _ s2 fun j i => ?_, real _ s3 fun j i => ?_, real _ ?_ fun j i => ?_⟩
  · simp only [massMatrix, Matrix.of_apply, dot_cast]
    refine rsum _ _ fun q hq => ?_
    rw [map_mul, Complex.conj_ofReal, star_bil, star_applyDiv, star_cast, star_cast, (he q hq).1.adjoint]
  · simp only [stiffnessMatrix, Matrix.of_apply, dot_cast]
    refine rsum _ _ fun q hq => ?_
    rw [map_mul, Complex.conj_ofReal, star_bil, star_applyCurl, star_cast, star_cast, (he q hq).2.adjoint]
  · rcases faceMatrix_cases internal bc stab diameter face with h | h <;> rw [h]
    · simp
    · · simp only [Matrix.of_apply, entry_eq]
        refine rsum _ _ fun q hq => ?_
        have hmu : ∀ k, (q.mu k).adjoint = q.mu k := by
          intro k; rcases k with k | k
          · exact (hf q hq).1.adjoint
          · exact (hf q hq).2.adjoint
        have hfac : conj (-(if internal = true then 1 / 2 else 1 : ℂ)) = -(if internal = true then 1 / 2 else 1) := by
          split <;> simp [map_ofNat]
        rw [map_mul, map_add, map_mul, map_mul, map_add, Complex.conj_ofReal, Complex.conj_ofReal, star_bil, star_bil, star_bil, star_applyCurl, star_applyCurl, star_cast,
          star_cast, star_cast, star_cast, hmu, hmu, hfac]
  · rw [Matrix.transpose_smul, s4]
  · rcases impedanceMatrix_cases internal bc z face with h | h <;> rw [h]
    · simp
    · simp only [Matrix.smul_apply, Matrix.of_apply, dot_cast, smul_eq_mul, ← List.sum_map_mul_left]
      refine rsum _ _ fun q hq => ?_
      simp only [map_mul, map_neg, Complex.conj_ofReal, star_bil, star_cast, Complex.conj_I]
      ring

/-- A material with positive entries. -/
def Tensor.Positive : Tensor → Prop
  | .scalar z => ∃ r : ℝ, 0 < r ∧ z = r
  | .diag z => ∀ i, ∃ r : ℝ, 0 < r ∧ z i = r

/-- The square of the length of a vector. -/
noncomputable def lengthSq (a : Fin d → ℂ) : ℝ := ∑ i, Complex.normSq (a i)

theorem bil_conj (a : Fin d → ℂ) : bil a (fun i => conj (a i)) = lengthSq a := by
  simp [bil, lengthSq, Complex.mul_conj]

theorem lengthSq_nonneg (a : Fin d → ℂ) : 0 ≤ lengthSq a := Finset.sum_nonneg fun i _ => Complex.normSq_nonneg _

theorem field_conj (q : ElementPoint d n) (u : Fin n → ℂ) : (q.field fun i => conj (u i)) = ⟨fun k => conj ((q.field u).value k), fun k => conj ((q.field u).curl k)⟩ := by
  simp [ElementPoint.field]

theorem left_conj (q : FacePoint d nL nR) (u : Fin nL → ℂ) : (q.left fun i => conj (u i)) = ⟨fun k => conj ((q.left u).value k), fun k => conj ((q.left u).curl k)⟩ := by
  simp [FacePoint.left]

theorem right_conj (q : FacePoint d nL nR) (u : Fin nR → ℂ) : (q.right fun i => conj (u i)) = ⟨fun k => conj ((q.right u).value k), fun k => conj ((q.right u).curl k)⟩ := by
  simp [FacePoint.right]

theorem positive_div {T : Tensor} (h : T.Positive) (a : Fin d → ℂ) :
    ∃ r : ℝ, bil (T.applyDiv a) (fun i => conj (a i)) = r ∧ 0 ≤ r ∧ (r = 0 → a = 0) := by
  have : ∃ c : Fin d → ℝ, (∀ i, 0 < c i) ∧ ∀ i, T.applyDiv a i = a i * c i := by
    cases T with
    | scalar z => obtain ⟨r, h1, rfl⟩ := h; exact ⟨fun _ => r, fun _ => h1, fun i => rfl⟩
    | diag z =>
      choose r h1 h2 using h
      exact ⟨fun i => r (Fin.ofNat 3 i), fun i => h1 _, fun i => by simp only [Tensor.applyDiv, h2]⟩
  obtain ⟨c, h1, h2⟩ := this
  refine ⟨∑ i, c i * Complex.normSq (a i), ?_, Finset.sum_nonneg fun i _ => mul_nonneg (h1 i).le (Complex.normSq_nonneg _), fun h0 => ?_⟩
  · simp only [bil, h2, Complex.ofReal_sum, Complex.ofReal_mul, ← Complex.mul_conj]
    exact Finset.sum_congr rfl fun i _ => by ring
  · rw [Finset.sum_eq_zero_iff_of_nonneg fun i _ => mul_nonneg (h1 i).le (Complex.normSq_nonneg _)] at h0
    funext i
    exact Complex.normSq_eq_zero.1 ((mul_eq_zero.1 (h0 i (Finset.mem_univ i))).resolve_left (h1 i).ne')

/-- **C90.** For positive materials and weights the mass matrix is positive: `uᴴ M u` is real, not negative, and zero only if the field is zero at all points. -/
theorem mass_positive (points : List (ElementPoint d n)) (h : ∀ q ∈ points, 0 < q.weight ∧ q.div.Positive) (u : Fin n → ℂ) :
    ∃ r : ℝ, (fun i => conj (u i)) ⬝ᵥ (massMatrix points).mulVec u = r ∧ 0 ≤ r ∧ (r = 0 → ∀ q ∈ points, (q.field u).value = 0) := by
  have e : (fun i => conj (u i)) ⬝ᵥ (massMatrix points).mulVec u =
      (points.map fun q => (q.weight : ℂ) * bil (q.div.applyDiv (q.field u).value) (fun k => conj ((q.field u).value k))).sum := by
    rw [massMatrix, quad_mulVec]
    refine congrArg List.sum (List.map_congr_left fun q _ => congrArg _ ?_)
    have h2 := map_sum_smul (divMap q.div) u fun i => cast (q.value i)
    have hc : (fun k => conj ((q.field u).value k)) = (q.field fun i => conj (u i)).value := by rw [field_conj]
    simp only [divMap, LinearMap.coe_mk, AddHom.coe_mk] at h2
    rw [hc]
    simp only [ElementPoint.field, sum_cast_value, dot_cast]
    rw [h2, bil_sum]
  rw [e]
  clear e
  induction points with
  | nil => exact ⟨0, by simp, le_rfl, by simp⟩
  | cons q l ih =>
    obtain ⟨r, h1, h2, h3⟩ := ih fun x hx => h x (List.mem_cons_of_mem _ hx)
    obtain ⟨hw, hp⟩ := h q (List.mem_cons_self ..)
    obtain ⟨s, k1, k2, k3⟩ := positive_div hp (q.field u).value
    refine ⟨q.weight * s + r, ?_, add_nonneg (mul_nonneg hw.le k2) h2, fun h0 => ?_⟩
    · rw [List.map_cons, List.sum_cons, h1, k1]; push_cast; rfl
    · have a1 : q.weight * s = 0 := by nlinarith [mul_nonneg hw.le k2]
      have a2 : r = 0 := by nlinarith [mul_nonneg hw.le k2]
      intro x hx
      rcases List.mem_cons.1 hx with rfl | hx
      · exact k3 ((mul_eq_zero.1 a1).resolve_left hw.ne')
      · exact h3 a2 x hx

theorem young (s : ℝ) (hs : 0 < s) (c j : Fin d → ℂ) :
    -(lengthSq c / s) ≤ (-bil c (fun k => conj (j k)) - bil j (fun k => conj (c k)) + s * bil j (fun k => conj (j k))).re := by
  have h0 := lengthSq_nonneg (c - (s : ℂ) • j)
  have e : lengthSq (c - (s : ℂ) • j) = s * (-bil c (fun k => conj (j k)) - bil j (fun k => conj (c k)) + s * bil j (fun k => conj (j k))).re + lengthSq c := by
    have : ((lengthSq (c - (s : ℂ) • j) : ℝ) : ℂ) = s * (-bil c (fun k => conj (j k)) - bil j (fun k => conj (c k)) + s * bil j (fun k => conj (j k))) + lengthSq c := by
      rw [← bil_conj, ← bil_conj]
      simp only [bil, Pi.sub_apply, Pi.smul_apply, smul_eq_mul, map_sub, map_mul, Complex.conj_ofReal, Finset.mul_sum, ← Finset.sum_neg_distrib,
        ← Finset.sum_sub_distrib, ← Finset.sum_add_distrib]
      exact Finset.sum_congr rfl fun i _ => by ring
    have := congrArg Complex.re this
    simpa using this
  rw [e] at h0
  have : -(lengthSq c / s) = -lengthSq c / s := by ring
  rw [this, div_le_iff₀ hs]
  linarith

/-- **C90.** For materials without losses the terms of an internal face in `uᴴ S u` are not below minus the square of the average of `μ⁻¹ curl u` divided by the
parameter of stabilisation. So the stiffness is positive if the parameter is large enough for the curls in the elements to outweigh these. -/
theorem internal_lower (stab diameter : ℝ) (hs : 0 < stab / diameter) (points : List (FacePoint d nL nR)) (h : ∀ q ∈ points, 0 ≤ q.weight ∧ q.muL.Lossless ∧ q.muR.Lossless)
    (u : Fin nL → ℂ) (u' : Fin nR → ℂ) :
    -(points.map fun q => q.weight * (lengthSq (q.average (q.left u) (q.right u')) / (stab / diameter))).sum ≤
    ((fun i => conj (Sum.elim u u' i)) ⬝ᵥ ((faceMatrix true .internal stab diameter points).mulVec (Sum.elim u u'))).re := by
  have hM : faceMatrix true .internal stab diameter points =
      Matrix.of fun j i => (points.map fun q => (q.weight : ℂ) * q.entry true (stab / diameter) j i).sum := by simp [faceMatrix]
  rw [hM, quad_mulVec]
  clear hM
  have term : ∀ q ∈ points, -(lengthSq (q.average (q.left u) (q.right u')) / (stab / diameter)) ≤
      (∑ j, conj (Sum.elim u u' j) * ∑ i, q.entry true (stab / diameter) j i * Sum.elim u u' i).re := by
    intro q hq
    have hc : ∀ j, conj (Sum.elim u u' j) = Sum.elim (fun i => conj (u i)) (fun i => conj (u' i)) j := by intro j; rcases j with j | j <;> rfl
    simp only [hc]
    rw [entry_sum, ← jump_eq, ← jump_eq]
    have ha : q.average (q.left fun i => conj (u i)) (q.right fun i => conj (u' i)) = fun k => conj (q.average (q.left u) (q.right u') k) := by
      rw [left_conj, right_conj]
      funext k
      simp only [FacePoint.average, Pi.smul_apply, Pi.add_apply, smul_eq_mul, map_mul, map_add]
      have h1 := congrFun (star_applyCurl q.muL (q.left u).curl) k
      have h2 := congrFun (star_applyCurl q.muR (q.right u').curl) k
      rw [(h q hq).2.1.adjoint] at h1
      rw [(h q hq).2.2.adjoint] at h2
      rw [h1, h2]; simp [map_ofNat]
    have hj : q.jump (q.left fun i => conj (u i)) (q.right fun i => conj (u' i)) = fun k => conj (q.jump (q.left u) (q.right u') k) := by
      rw [left_conj, right_conj]
      have hcr : ∀ w : Fin d → ℂ, cross q.outward (fun k => conj (w k)) = fun k => conj (cross q.outward w k) := by
        intro w
        rcases d with _ | _ | _ | _ | d <;> funext i <;> simp [cross, FacePoint.outward] <;> (try fin_cases i) <;> simp
      funext k
      simp only [FacePoint.jump, hcr, Pi.sub_apply, map_sub]
    have e1 := average_eq q u u'
    have e2 := average_eq q (fun i => conj (u i)) fun i => conj (u' i)
    rw [ha] at e2
    have y := young (stab / diameter) hs (q.average (q.left u) (q.right u')) (q.jump (q.left u) (q.right u'))
    refine y.trans (le_of_eq (congrArg Complex.re ?_))
    rw [hj, e2, e1, bil_smul_left, bil_smul_right]
    simp only [if_true]
    push_cast
    ring
  have hw : ∀ q ∈ points, 0 ≤ q.weight := fun q hq => (h q hq).1
  clear h
  induction points with
  | nil => simp
  | cons q l ih =>
    have h1 := ih (fun x hx => term x (List.mem_cons_of_mem _ hx)) fun x hx => hw x (List.mem_cons_of_mem _ hx)
    have h2 := mul_le_mul_of_nonneg_left (term q (List.mem_cons_self ..)) (hw q (List.mem_cons_self ..))
    rw [List.map_cons, List.sum_cons, List.map_cons, List.sum_cons, Complex.add_re, Complex.re_ofReal_mul]
    linarith

end Verif.MaxLocal
