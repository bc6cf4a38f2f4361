import Verif.MaxLocal.ModelUse
import Verif.MaxLocal.PropsMatrix
import Mathlib.LinearAlgebra.Matrix.Hermitian
import Mathlib.Tactic.NormNum
import Mathlib.Tactic.FieldSimp

/-! # What is done with the local matrices: the properties -/
namespace Verif.MaxLocal

open scoped ComplexConjugate Matrix

variable {d nL nR n m : Nat}

/-! ## Lemmas -/

/-- The product `vᴴ A u`. -/
noncomputable def herm {ι : Type} [Fintype ι] (A : Matrix ι ι ℂ) (u v : ι → ℂ) : ℂ := star v ⬝ᵥ (A *ᵥ u)

theorem inv_herm (L : Matrix (Fin n) (Fin n) ℂ) (hL : IsUnit L.det) : L * L⁻¹ = 1 ∧ (Lᴴ)⁻¹ * Lᴴ = 1 := by
  refine ⟨Matrix.mul_nonsing_inv L hL, Matrix.nonsing_inv_mul _ ?_⟩
  rw [Matrix.det_conjTranspose]
  exact hL.map (starRingEnd ℂ)

theorem herm_rescale {k l : Nat} (L : Matrix (Fin k) (Fin k) ℂ) (hL : IsUnit L.det) (R : Matrix (Fin l) (Fin l) ℂ) (hR : IsUnit R.det) (S : Matrix (Fin k) (Fin l) ℂ)
    (u : Fin l → ℂ) (v : Fin k → ℂ) : star (Lᴴ *ᵥ v) ⬝ᵥ ((L⁻¹ * S * (Rᴴ)⁻¹) *ᵥ (Rᴴ *ᵥ u)) = star v ⬝ᵥ (S *ᵥ u) := by
  rw [Matrix.star_mulVec, Matrix.conjTranspose_conjTranspose, ← Matrix.dotProduct_mulVec, Matrix.mulVec_mulVec, Matrix.mulVec_mulVec]
  congr 2
  calc L * (L⁻¹ * S * (Rᴴ)⁻¹) * Rᴴ = (L * L⁻¹) * S * ((Rᴴ)⁻¹ * Rᴴ) := by simp only [Matrix.mul_assoc]
    _ = S := by rw [(inv_herm L hL).1, (inv_herm R hR).2, Matrix.one_mul, Matrix.mul_one]

theorem rescaleStiffness_eq (L S : Matrix (Fin n) (Fin n) ℂ) (hS : S.IsHermitian) : rescaleStiffness L S = L⁻¹ * S * (Lᴴ)⁻¹ := by
  have hX : (L⁻¹ * S * (Lᴴ)⁻¹).IsHermitian := by
    unfold Matrix.IsHermitian
    rw [Matrix.conjTranspose_mul, Matrix.conjTranspose_mul, hS, Matrix.conjTranspose_nonsing_inv, Matrix.conjTranspose_nonsing_inv, Matrix.conjTranspose_conjTranspose,
      Matrix.mul_assoc]
  have h : ∀ i j, conj ((L⁻¹ * S * (Lᴴ)⁻¹) i j) = (L⁻¹ * S * (Lᴴ)⁻¹) j i := fun i j => hX.apply j i
  ext i j
  simp only [rescaleStiffness, Matrix.of_apply]
  split
  · rw [h]; ring
  · have c : conj (0.5 : ℂ) = 0.5 := by
      rw [show (0.5 : ℂ) = ((0.5 : ℝ) : ℂ) by push_cast; norm_num, Complex.conj_ofReal]
    rw [map_mul, map_add, Complex.conj_conj, h, c]
    ring

/-! ## The properties -/

/-- **C92.** Rescaled matrices act on rescaled coefficients `Lᴴ u` as the original ones on `u`: elements, internal faces, boundary faces and projector. -/
theorem rescale_forms (L : Matrix (Fin nL) (Fin nL) ℂ) (hL : IsUnit L.det) (R : Matrix (Fin nR) (Fin nR) ℂ) (hR : IsUnit R.det)
    (S : Matrix (Fin nL) (Fin nL) ℂ) (hS : S.IsHermitian) (B : Matrix (Fin m) (Fin nL) ℂ) (F : Matrix (Fin nL ⊕ Fin nR) (Fin nL ⊕ Fin nR) ℂ)
    (G : Matrix (Fin nL) (Fin nL) ℂ) (u v : Fin nL → ℂ) (u' v' : Fin nR → ℂ) :
    herm (rescaleStiffness L S) (Lᴴ *ᵥ u) (Lᴴ *ᵥ v) = herm S u v ∧
    herm (rescaleFace L R F) (Sum.elim (Lᴴ *ᵥ u) (Rᴴ *ᵥ u')) (Sum.elim (Lᴴ *ᵥ v) (Rᴴ *ᵥ v')) = herm F (Sum.elim u u') (Sum.elim v v') ∧
    herm (rescaleBoundary L G) (Lᴴ *ᵥ u) (Lᴴ *ᵥ v) = herm G u v ∧
    rescaleProjector L B *ᵥ (Lᴴ *ᵥ u) = B *ᵥ u := by
  refine ⟨?_, ?_, herm_rescale L hL L hL G u v, ?_⟩
  · rw [rescaleStiffness_eq L S hS]; exact herm_rescale L hL L hL S u v
  · have st : ∀ {a b : Nat} (x : Fin a → ℂ) (y : Fin b → ℂ), star (Sum.elim x y) = Sum.elim (star x) (star y) := by
      intro a b x y; funext i; rcases i with i | i <;> rfl
    have hF : F = Matrix.fromBlocks F.toBlocks₁₁ F.toBlocks₁₂ F.toBlocks₂₁ F.toBlocks₂₂ := (Matrix.fromBlocks_toBlocks F).symm
    unfold herm rescaleFace
    conv_rhs => rw [hF]
    rw [Matrix.fromBlocks_mulVec, Matrix.fromBlocks_mulVec, st, st, sumElim_dotProduct_sumElim, sumElim_dotProduct_sumElim]
    simp only [Sum.elim_comp_inl, Sum.elim_comp_inr, dotProduct_add, herm_rescale _ hL _ hL, herm_rescale _ hL _ hR, herm_rescale _ hR _ hL, herm_rescale _ hR _ hR]
  · rw [rescaleProjector, Matrix.mulVec_mulVec, Matrix.mul_assoc, (inv_herm L hL).2, Matrix.mul_one]

/-- **C92.** The field that is written is that of the original coefficients. -/
theorem restore_rescaled (L : Matrix (Fin n) (Fin n) ℂ) (hL : IsUnit L.det) (u : Fin n → ℂ) : restore L (Lᴴ *ᵥ u) = u := by
  rw [restore, Matrix.mulVec_mulVec, (inv_herm L hL).2, Matrix.one_mulVec]

/-- A face with its matrix: the elements it belongs to. -/
inductive MatrixFace (dofs : Nat → Nat)
  | boundary (l : Nat) (F : Matrix (Fin (dofs l)) (Fin (dofs l)) ℂ)
  | internal (l r : Nat) (F : Matrix (Fin (dofs l) ⊕ Fin (dofs r)) (Fin (dofs l) ⊕ Fin (dofs r)) ℂ)

/-- The terms `vᴴ F u` of a face. -/
noncomputable def MatrixFace.form {dofs : Nat → Nat} (u v : (e : Nat) → Fin (dofs e) → ℂ) : MatrixFace dofs → ℂ
  | .boundary l F => herm F (u l) (v l)
  | .internal l r F => herm F (Sum.elim (u l) (u r)) (Sum.elim (v l) (v r))

/-- The face after `postProcessFaceMatrices`. -/
noncomputable def MatrixFace.rescale {dofs : Nat → Nat} (L : (e : Nat) → Matrix (Fin (dofs e)) (Fin (dofs e)) ℂ) : MatrixFace dofs → MatrixFace dofs
  | .boundary l F => .boundary l (rescaleBoundary (L l) F)
  | .internal l r F => .internal l r (rescaleFace (L l) (L r) F)

/-- **C92.** For the whole mesh: `u` solves `S u = λ M u` exactly if `y = Lᴴ u` solves the problem `S' y = λ y` with the rescaled matrices. All eigenvalues and, with
`restore`, all eigenvectors are the same. -/
theorem eigen_equivalent {dofs : Nat → Nat} (count : Nat) (L M S : (e : Nat) → Matrix (Fin (dofs e)) (Fin (dofs e)) ℂ) (faces : List (MatrixFace dofs))
    (hM : ∀ e, M e = L e * (L e)ᴴ) (hL : ∀ e, IsUnit (L e).det) (hS : ∀ e, (S e).IsHermitian) (lam : ℂ) (u : (e : Nat) → Fin (dofs e) → ℂ) :
    (∀ v, ∑ e : Fin count, herm (S e) (u e) (v e) + (faces.map (MatrixFace.form u v)).sum = lam * ∑ e : Fin count, herm (M e) (u e) (v e)) ↔
    (∀ w, ∑ e : Fin count, herm (rescaleStiffness (L e) (S e)) ((L e)ᴴ *ᵥ u e) (w e) +
      (faces.map fun f => (f.rescale L).form (fun e => (L e)ᴴ *ᵥ u e) w).sum = lam * ∑ e : Fin count, (star (w e) ⬝ᵥ ((L e)ᴴ *ᵥ u e) : ℂ)) := by
  have key : ∀ v : (e : Nat) → Fin (dofs e) → ℂ,
      (∑ e : Fin count, herm (S e) (u e) (v e) + (faces.map (MatrixFace.form u v)).sum = lam * ∑ e : Fin count, herm (M e) (u e) (v e)) ↔
      (∑ e : Fin count, herm (rescaleStiffness (L e) (S e)) ((L e)ᴴ *ᵥ u e) ((L e)ᴴ *ᵥ v e) +
      (faces.map fun f => (f.rescale L).form (fun e => (L e)ᴴ *ᵥ u e) (fun e => (L e)ᴴ *ᵥ v e)).sum =
        lam * ∑ e : Fin count, (star ((L e)ᴴ *ᵥ v e) ⬝ᵥ ((L e)ᴴ *ᵥ u e) : ℂ)) := by
    intro v
    have h1 : ∀ e, herm (rescaleStiffness (L e) (S e)) ((L e)ᴴ *ᵥ u e) ((L e)ᴴ *ᵥ v e) = herm (S e) (u e) (v e) := fun e => by
      rw [rescaleStiffness_eq _ _ (hS e)]; exact herm_rescale _ (hL e) _ (hL e) _ _ _
    have h2 : ∀ f : MatrixFace dofs, (f.rescale L).form (fun e => (L e)ᴴ *ᵥ u e) (fun e => (L e)ᴴ *ᵥ v e) = f.form u v := by
      intro f
      cases f with
      | boundary l F => exact herm_rescale _ (hL l) _ (hL l) _ _ _
      | internal l r F => exact (rescale_forms (L l) (hL l) (L r) (hL r) (S l) (hS l) (0 : Matrix (Fin 0) _ ℂ) F 0 (u l) (v l) (u r) (v r)).2.1
    have h3 : ∀ e, (star ((L e)ᴴ *ᵥ v e) ⬝ᵥ ((L e)ᴴ *ᵥ u e) : ℂ) = herm (M e) (u e) (v e) := by
      intro e
      rw [herm, hM e, Matrix.star_mulVec, Matrix.conjTranspose_conjTranspose, ← Matrix.dotProduct_mulVec, Matrix.mulVec_mulVec]
    simp only [h1, h2, h3]
  constructor
  · intro h w
    have e : ∀ e, (L e)ᴴ *ᵥ (restore (L e) (w e)) = w e := by
      intro e
      have : (L e)ᴴ * ((L e)ᴴ)⁻¹ = 1 := Matrix.mul_nonsing_inv _ (by rw [Matrix.det_conjTranspose]; exact (hL e).map (starRingEnd ℂ))
      rw [restore, Matrix.mulVec_mulVec, this, Matrix.one_mulVec]
    have := (key fun e => restore (L e) (w e)).1 (h fun e => restore (L e) (w e))
    simpa only [e] using this
  · intro h v
    exact (key v).2 (h fun e => (L e)ᴴ *ᵥ v e)

/-- **C92.** The coefficients on an internal face for `computeEnergyFluxes` are not restored: the code stops at an assertion, for all factors and coefficients of a face
with functions on the right. -/
theorem restoreInternal_fails (L : Matrix (Fin nL) (Fin nL) ℂ) (R : Matrix (Fin nR) (Fin nR) ℂ) (y : List ℂ) (h : y.length = nL + nR) (hR : 0 < nR) :
    restoreInternal L R y = none := by
  have : solveHermitian L y = none := by
    unfold solveHermitian
    rw [dif_neg (by omega)]
  simp only [restoreInternal, this, Option.bind_eq_bind, Option.bind_none]

/-! ## Energy fluxes -/

theorem dot_add_add (a b c e : Fin d → ℂ) : dot (a + b) (c + e) = dot a c + dot b e + (dot b c + dot a e) := by
  simp only [dot, Pi.add_apply, map_add, ← Finset.sum_add_distrib]
  exact Finset.sum_congr rfl fun i _ => by ring

/-- **C93.** The flux of the combined field is the sum of the flux of the field, that of the background and that of the cross terms, for every face, field and
background. -/
theorem flux_total (internal : Bool) (u : Fin nL ⊕ Fin nR → ℂ) (points : List (FacePoint d nL nR × Option ((Fin d → ℂ) × (Fin d → ℂ)))) (side : Side) (wavenumber : ℝ)
    (permeability : Side → ℝ) (hb : ∀ q ∈ points, q.2.isSome) :
    let flux := energyFluxes internal u points side wavenumber permeability
    flux 3 = flux 0 + flux 1 + flux 2 := by
  have h : (points.map fun q => q.1.weight * fluxIntegrand internal u q.1 q.2 3).sum =
      (points.map fun q => q.1.weight * fluxIntegrand internal u q.1 q.2 0).sum + (points.map fun q => q.1.weight * fluxIntegrand internal u q.1 q.2 1).sum +
      (points.map fun q => q.1.weight * fluxIntegrand internal u q.1 q.2 2).sum := by
    rw [← List.sum_map_add, ← List.sum_map_add]
    refine congrArg List.sum (List.map_congr_left fun q hq => ?_)
    obtain ⟨q, b⟩ := q
    rcases b with _ | ⟨e, c⟩
    · exact absurd (hb _ hq) (by simp)
    · rw [← mul_add, ← mul_add]
      congr 1
      simp only [fluxIntegrand]
      show (dot (_ + _) (_ + _)).im = (dot _ _).im + (dot _ _).im + (dot _ _ + dot _ _).im
      rw [dot_add_add]
      simp only [Complex.add_im]
  intro flux
  simp only [flux, energyFluxes]
  cases side <;> simp [h] <;> ring

/-- **C93.** The fluxes from the two sides of a face differ in sign and by the ratio of the permeabilities of the two sides. -/
theorem flux_sides (internal : Bool) (u : Fin nL ⊕ Fin nR → ℂ) (points : List (FacePoint d nL nR × Option ((Fin d → ℂ) × (Fin d → ℂ)))) (wavenumber : ℝ)
    (permeability : Side → ℝ) (hl : permeability .left ≠ 0) (hr : permeability .right ≠ 0) (k : Fin 4) :
    permeability .right * energyFluxes internal u points .right wavenumber permeability k =
    -(permeability .left * energyFluxes internal u points .left wavenumber permeability k) := by
  simp only [energyFluxes, if_true, reduceCtorEq, if_false]
  rcases eq_or_ne wavenumber 0 with rfl | hw
  · simp
  · field_simp

/-- **C93.** So they cancel if the permeabilities are equal. -/
theorem flux_cancels (internal : Bool) (u : Fin nL ⊕ Fin nR → ℂ) (points : List (FacePoint d nL nR × Option ((Fin d → ℂ) × (Fin d → ℂ)))) (wavenumber : ℝ)
    (permeability : Side → ℝ) (h0 : permeability .left ≠ 0) (he : permeability .left = permeability .right) (k : Fin 4) :
    energyFluxes internal u points .left wavenumber permeability k + energyFluxes internal u points .right wavenumber permeability k = 0 := by
  have h := flux_sides internal u points wavenumber permeability h0 (he ▸ h0) k
  rw [← he] at h
  have := mul_left_cancel₀ h0 (h.trans (by ring : _ = permeability .left * -energyFluxes internal u points .left wavenumber permeability k))
  rw [this]; ring

/-- The permeability is not taken out of the two sides: with different ones the fluxes of a face do not cancel unless both are zero. -/
theorem flux_does_not_cancel (internal : Bool) (u : Fin nL ⊕ Fin nR → ℂ) (points : List (FacePoint d nL nR × Option ((Fin d → ℂ) × (Fin d → ℂ)))) (wavenumber : ℝ)
    (permeability : Side → ℝ) (hl : permeability .left ≠ 0) (hr : permeability .right ≠ 0) (hne : permeability .left ≠ permeability .right) (k : Fin 4)
    (h0 : energyFluxes internal u points .left wavenumber permeability k ≠ 0) :
    energyFluxes internal u points .left wavenumber permeability k + energyFluxes internal u points .right wavenumber permeability k ≠ 0 := by
  intro h
  have h1 := flux_sides internal u points wavenumber permeability hl hr k
  have h2 : energyFluxes internal u points .right wavenumber permeability k = -energyFluxes internal u points .left wavenumber permeability k := by linarith
  rw [h2] at h1
  have : (permeability .left - permeability .right) * energyFluxes internal u points .left wavenumber permeability k = 0 := by linarith
  rcases mul_eq_zero.1 this with h | h
  · exact hne (sub_eq_zero.1 h)
  · exact h0 h

theorem cross_sum {ι : Type} [Fintype ι] (a : Fin d → ℂ) (u : ι → ℂ) (x : ι → Fin d → ℂ) : (fun k => ∑ i, u i * cross a (x i) k) = cross a (∑ i, u i • x i) := by
  have h := map_sum_smul (⟨⟨cross a, cross_add a⟩, cross_smul a⟩ : (Fin d → ℂ) →ₗ[ℂ] (Fin d → ℂ)) u x
  refine Eq.trans ?_ h.symm
  funext k
  simp

/-- **C93.** A wave that leaves the domain, with the curl `iκ n × E` at the points of a face on the boundary, has a flux that is not positive, although fluxes are documented
as those in the direction of the outward normal. -/
theorem outgoing_flux (u : Fin nL → ℂ) (points : List (FacePoint d nL 0)) (kappa wavenumber : ℝ) (permeability : Side → ℝ)
    (hw : ∀ q ∈ points, (q.left u).curl = (Complex.I * kappa) • cross q.outward (q.left u).value) :
    energyFluxes false (Sum.elim u Fin.elim0) (points.map fun q => (q, none)) .left wavenumber permeability 0 =
    -(kappa * (points.map fun q => q.weight * ∑ k, Complex.normSq (cross q.outward (q.left u).value k)).sum) / (wavenumber * permeability .left) := by
  simp only [energyFluxes, reduceCtorEq, if_false, List.map_map, Function.comp_def]
  congr 1
  rw [← List.sum_map_mul_left, List.sum_neg, List.map_map]
  refine congrArg List.sum (List.map_congr_left fun q hq => ?_)
  have h1 : (fun k => ∑ i : Fin nL ⊕ Fin 0, (1 : ℂ) * (Sum.elim u Fin.elim0 : Fin nL ⊕ Fin 0 → ℂ) i * (q.curl i k : ℂ)) = (q.left u).curl := by
    funext k; simp [FacePoint.left]
  have h2 : (fun k => ∑ i : Fin nL ⊕ Fin 0, (1 : ℂ) * (Sum.elim u Fin.elim0 : Fin nL ⊕ Fin 0 → ℂ) i * cross (cast q.normal) (cast (q.value i)) k) =
      cross q.outward (q.left u).value := by
    have : (q.left u).value = ∑ i, u i • cast (q.value (.inl i)) := sum_cast_value u fun i => q.value (.inl i)
    rw [this, ← cross_sum]
    funext k
    simp only [Fintype.sum_sum_type, Sum.elim_inl, one_mul, Finset.univ_eq_empty, Finset.sum_empty, add_zero]
    rfl
  simp only [fluxIntegrand, Bool.false_eq_true, if_false, Matrix.cons_val_zero, Function.comp_apply]
  rw [h1, h2, hw q hq]
  simp only [dot, Pi.smul_apply, smul_eq_mul, map_mul, Complex.conj_I, Complex.conj_ofReal, Complex.im_sum]
  have : ∀ z : ℂ, (z * (-Complex.I * (kappa : ℂ) * conj z)).im = -(kappa * Complex.normSq z) := by
    intro z
    simp [Complex.normSq_apply]
    ring
  simp only [this, Finset.sum_neg_distrib, ← Finset.mul_sum]
  ring

/-- **C93.** It is the wave that leaves: for the wavenumber `ω √(εμ)` of the material it satisfies the condition of Silver and Müller without incoming field. -/
theorem outgoing_silverMuller (q : FacePoint 3 nL nR) (eps mu omega : ℝ) (heps : 0 < eps) (hmu : 0 < mu) (hq : q.muL = .scalar mu) (E : Fin 3 → ℂ) :
    exactBoundary .silverMuller omega (impedance eps mu) q E ((Complex.I * (omega * Real.sqrt (eps * mu) : ℝ)) • cross q.outward E) = some 0 := by
  have hs : Real.sqrt (eps * mu) = mu * Real.sqrt (eps / mu) := by
    rw [show eps * mu = mu ^ 2 * (eps / mu) by field_simp, Real.sqrt_mul (by positivity), Real.sqrt_sq hmu.le]
  have hc : (mu : ℂ) ≠ 0 := by exact_mod_cast hmu.ne'
  have ha : cross E (cast q.normal) = -cross q.outward E := cross_anticomm _ _
  simp only [exactBoundary, hq]
  congr 1
  funext i
  rw [applyCurl_smul, ha, hs]
  simp only [Pi.smul_apply, smul_eq_mul, Pi.neg_apply, Tensor.applyCurl, impedance, Pi.zero_apply]
  push_cast
  field_simp
  ring

/-! ## The start of the time integration -/

/-- **C94.** If the initial field is discrete with the coefficients `c`, and the permittivity is a constant `eps` in the element, the integration starts with the
coefficients `c / eps`. -/
theorem initial_scaled (points : List (ElementPoint d n × (Fin d → ℂ))) (c : Fin n → ℂ) (eps : ℂ) (he : eps ≠ 0) (hdiv : ∀ q ∈ points, q.1.div = .scalar eps)
    (hc : ∀ q ∈ points, q.2 = (q.1.field c).value) (hM : IsUnit (massMatrix (points.map Prod.fst)).det) (i : Fin n) :
    initialCoefficients points i = c i / eps := by
  have hb : elementVector points = eps⁻¹ • (massMatrix (points.map Prod.fst) *ᵥ c) := by
    funext j
    simp only [elementVector, Pi.smul_apply, smul_eq_mul, massMatrix, Matrix.mulVec, dotProduct, Matrix.of_apply, List.map_map, Function.comp_def]
    clear hM
    induction points with
    | nil => simp
    | cons q l ih =>
      simp only [List.map_cons, List.sum_cons, add_mul, Finset.sum_add_distrib, mul_add]
      rw [ih (fun x hx => hdiv x (List.mem_cons_of_mem _ hx)) fun x hx => hc x (List.mem_cons_of_mem _ hx)]
      congr 1
      rw [hdiv q (List.mem_cons_self ..), hc q (List.mem_cons_self ..)]
      simp only [ElementPoint.field, sum_cast_value, dot_cast, bil_sum_left, Finset.mul_sum]
      refine Finset.sum_congr rfl fun k _ => ?_
      have : (Tensor.scalar eps).applyDiv (cast (q.1.value k)) = eps • cast (q.1.value k) := by funext x; simp [Tensor.applyDiv, mul_comm]
      rw [this, bil_smul_left]
      field_simp
  rw [initialCoefficients, hb, Matrix.mulVec_smul, Matrix.mulVec_mulVec, Matrix.nonsing_inv_mul _ hM, Matrix.one_mulVec]
  simp [div_eq_inv_mul]

/-- **C94.** With permittivity one the integration starts from the given field. -/
theorem initial_exact (points : List (ElementPoint d n × (Fin d → ℂ))) (c : Fin n → ℂ) (hdiv : ∀ q ∈ points, q.1.div = .scalar 1)
    (hc : ∀ q ∈ points, q.2 = (q.1.field c).value) (hM : IsUnit (massMatrix (points.map Prod.fst)).det) : initialCoefficients points = c := by
  funext i
  rw [initial_scaled points c 1 one_ne_zero hdiv hc hM i, div_one]

end Verif.MaxLocal
