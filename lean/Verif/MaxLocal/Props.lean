import Verif.MaxLocal.Lemmas

/-! # Local integrals of DG-Max: the properties -/
namespace Verif.MaxLocal

variable {d nL nR n : Nat}

/-- **C91.** The matrix of an internal face is the interior penalty form. -/
theorem internal_form (stab diameter : ℝ) (points : List (FacePoint d nL nR)) (u v : Fin nL → ℂ) (u' v' : Fin nR → ℂ) :
    Sum.elim v v' ⬝ᵥ ((faceMatrix true .internal stab diameter points).mulVec (Sum.elim u u')) =
    (points.map fun q => (q.weight : ℂ) * q.interior (stab / diameter) (q.left u) (q.right u') (q.left v) (q.right v')).sum := by
  have h : faceMatrix true .internal stab diameter points =
      Matrix.of fun j i => (points.map fun q => (q.weight : ℂ) * q.entry true (stab / diameter) j i).sum := by simp [faceMatrix]
  rw [h, quad_mulVec]
  refine congrArg List.sum (List.map_congr_left fun q _ => congrArg _ ?_)
  rw [entry_sum, FacePoint.interior, jump_eq, jump_eq, average_eq, average_eq, bil_smul_left, bil_smul_right]
  simp only [if_true]
  ring

/-- **C91.** The matrices of a boundary face, for every type of boundary condition, are the forms of that condition. -/
theorem boundary_form (bc : BC) (hbc : bc ≠ .internal) (stab diameter omega z : ℝ) (points : List (FacePoint d nL 0)) (u v : Fin nL → ℂ) :
    Sum.elim v Fin.elim0 ⬝ᵥ ((faceMatrix false bc stab diameter points + (omega : ℂ) • impedanceMatrix false bc z points).mulVec (Sum.elim u Fin.elim0)) =
    (points.map fun q => (q.weight : ℂ) * q.boundary bc (stab / diameter) omega z (q.left u) (q.left v)).sum := by
  cases bc
  · have h : faceMatrix false .dirichlet stab diameter points =
        Matrix.of fun j i => (points.map fun q => (q.weight : ℂ) * q.entry false (stab / diameter) j i).sum := by simp [faceMatrix, BC.natural]
    have h' : impedanceMatrix false .dirichlet z points = 0 := by simp [impedanceMatrix]
    rw [h, h', smul_zero, add_zero, quad_mulVec]
    refine congrArg List.sum (List.map_congr_left fun q _ => congrArg _ ?_)
    rw [entry_sum]
    simp only [FacePoint.boundary]
    rw [tangent_eq, tangent_eq, curlLeft_eq, curlLeft_eq]
    simp only [Bool.false_eq_true, if_false]
    ring
  · have h : faceMatrix false .neumann stab diameter points = 0 := by simp [faceMatrix, BC.natural]
    have h' : impedanceMatrix false .neumann z points = 0 := by simp [impedanceMatrix]
    rw [h, h', smul_zero, add_zero, Matrix.zero_mulVec, dotProduct_zero]
    simp [FacePoint.boundary]
  · have h : faceMatrix false .silverMuller stab diameter points = 0 := by simp [faceMatrix, BC.natural]
    have h' : impedanceMatrix false .silverMuller z points = Matrix.of fun j i => (points.map fun q => (q.weight : ℂ) *
        (-(Complex.I * z) * dot (cast (q.normalCross i)) (cast (q.normalCross j)))).sum := by simp [impedanceMatrix]
    rw [h, h', zero_add, Matrix.smul_mulVec, dotProduct_smul, quad_mulVec, smul_eq_mul, ← List.sum_map_mul_left]
    refine congrArg List.sum (List.map_congr_left fun q _ => ?_)
    simp only [FacePoint.boundary, dot_cast]
    rw [tangent_eq, tangent_eq, bil_sum]
    simp only [Finset.mul_sum]
    exact Finset.sum_congr rfl fun j _ => Finset.sum_congr rfl fun i _ => by ring
  · exact absurd rfl hbc

/-- **C91.** The matrices of an element are the forms of Maxwell's equation. -/
theorem element_form (omega : ℝ) (points : List (ElementPoint d n)) (u v : Fin n → ℂ) :
    v ⬝ᵥ ((stiffnessMatrix points - ((omega : ℂ) ^ 2) • massMatrix points).mulVec u) =
    (points.map fun q => (q.weight : ℂ) * q.form omega (q.field u) (q.field v)).sum := by
  rw [Matrix.sub_mulVec, Matrix.smul_mulVec, dotProduct_sub, dotProduct_smul, stiffnessMatrix, massMatrix, quad_mulVec, quad_mulVec, smul_eq_mul,
    ← List.sum_map_mul_left, sum_map_sub]
  refine congrArg List.sum (List.map_congr_left fun q _ => ?_)
  simp only [ElementPoint.form, ElementPoint.field, sum_cast_value, dot_cast]
  have h1 := map_sum_smul (curlMap q.mu) u fun i => cast (q.curl i)
  have h2 := map_sum_smul (divMap q.div) u fun i => cast (q.value i)
  simp only [curlMap, divMap, LinearMap.coe_mk, AddHom.coe_mk] at h1 h2
  rw [h1, h2, bil_sum, bil_sum]
  ring

/-- **C91.** On an internal face, an exact field `E` with continuous tangential parts: the code's terms are those of the error `u - E`, minus the integrals of
`μ⁻¹ curl E · (n × v)` from both sides. -/
theorem internal_residual {dofs : Nat → Nat} (stab omega diameter : ℝ) (l r : Nat) (points : List (FacePoint d (dofs l) (dofs r) × Field d × Field d))
    (u v : (e : Nat) → Fin (dofs e) → ℂ) (h : (ExactFace.internal l r diameter points).Continuous) :
    (ExactFace.internal l r diameter points).residual stab omega u v = some
      ((points.map fun q => (q.1.weight : ℂ) * q.1.interior (stab / diameter) ((q.1.left (u l)).sub q.2.1) ((q.1.right (u r)).sub q.2.2) (q.1.left (v l)) (q.1.right (v r))).sum -
      (ExactFace.internal l r diameter points).flux v) := by
  have himp : impedanceMatrix true .internal 0 (points.map Prod.fst) = 0 := by simp [impedanceMatrix]
  simp only [ExactFace.residual, faceVector, if_true, Option.bind_eq_bind, Option.bind_some, himp, smul_zero, add_zero, dotProduct_zero, sub_zero, internal_form,
    List.map_map, ExactFace.flux, Option.pure_def]
  rw [sum_map_sub]
  refine congrArg some (congrArg List.sum (List.map_congr_left fun q hq => ?_))
  obtain ⟨h1, h2⟩ := h q hq
  simp only [Function.comp]
  rw [← mul_sub, interior_sub]
  congr 1
  have hj : q.1.jump q.2.1 q.2.2 = 0 := by rw [FacePoint.jump, h1, sub_self]
  have : q.1.interior (stab / diameter) q.2.1 q.2.2 (q.1.left (v l)) (q.1.right (v r)) =
      -(bil (q.1.muL.applyCurl q.2.1.curl) (cross q.1.outward (q.1.left (v l)).value) -
        bil (q.1.muR.applyCurl q.2.2.curl) (cross q.1.outward (q.1.right (v r)).value)) := by
    rw [FacePoint.interior, hj, bil_zero_left, bil_zero_left, FacePoint.average, bil_smul_left, FacePoint.jump, bil_add_left, bil_sub_right, bil_sub_right, h2, h2]
    ring
  rw [this]; ring

/-- **C91.** On a boundary face of any type with the boundary values that belong to an exact field `E`: the code's terms are those of the error, minus the integral of
`μ⁻¹ curl E · (n × v)`. -/
theorem boundary_residual {dofs : Nat → Nat} (stab omega diameter z : ℝ) (l : Nat) (bc : BC) (points : List (FacePoint d (dofs l) 0 × Field d))
    (u v : (e : Nat) → Fin (dofs e) → ℂ) (h : bc ≠ .internal) :
    (ExactFace.boundary l bc diameter z points).residual stab omega u v = some
      ((points.map fun q => (q.1.weight : ℂ) * q.1.boundary bc (stab / diameter) omega z ((q.1.left (u l)).sub q.2) (q.1.left (v l))).sum -
      (ExactFace.boundary l bc diameter z points).flux v) := by
  have key : ∃ g : FacePoint d (dofs l) 0 × Field d → Fin d → ℂ, ∃ f : (FacePoint d (dofs l) 0 × (Fin d → ℂ)) → Fin (dofs l) ⊕ Fin 0 → ℂ,
      (∀ q, exactBoundary bc omega z q.1 q.2.value q.2.curl = some (g q)) ∧
      (∀ pts, faceVector false bc stab diameter pts = some fun j => (pts.map fun q => (q.1.weight : ℂ) * f q j).sum) ∧
      ∀ q, ∑ j, (Sum.elim (v l) Fin.elim0 : Fin (dofs l) ⊕ Fin 0 → ℂ) j * f (q.1, g q) j = q.1.boundary bc (stab / diameter) omega z q.2 (q.1.left (v l)) +
        bil (q.1.muL.applyCurl q.2.curl) (cross q.1.outward (q.1.left (v l)).value) := by
    cases bc
    · refine ⟨_, _, fun q => rfl, fun pts => rfl, fun q => ?_⟩
      simp only [FacePoint.boundary, dot_cast, dot_adjoint_curl]
      rw [tangent_eq, curlLeft_eq]
      simp only [bil_sum_right, mu_boundary, mul_add, mul_neg, Finset.sum_add_distrib, Finset.sum_neg_distrib, Finset.mul_sum]
      rw [Finset.sum_congr rfl fun j _ => mul_left_comm _ _ _]
      rw [show cast q.1.normal = q.1.outward from rfl]
      ring
    · refine ⟨_, _, fun q => rfl, fun pts => rfl, fun q => ?_⟩
      simp only [FacePoint.boundary, tangent_eq, bil_sum_right, dot_cast, zero_add]
    · refine ⟨_, _, fun q => rfl, fun pts => rfl, fun q => ?_⟩
      simp only [FacePoint.boundary, dot_cast]
      rw [tangent_eq]
      have e : (fun i => q.1.muL.applyCurl q.2.curl i + Complex.I * (omega * z) * cross q.2.value (cast q.1.normal) i) =
          q.1.muL.applyCurl q.2.curl + (-(Complex.I * (omega * z))) • cross q.1.outward q.2.value := by
        funext i
        rw [cross_anticomm q.2.value, show cast q.1.normal = q.1.outward from rfl]
        simp
      simp only [e, bil_add_left, bil_smul_left, mul_add, Finset.sum_add_distrib, bil_sum_right, Finset.mul_sum]
      rw [add_comm]
      congr 1
      exact Finset.sum_congr rfl fun j _ => by ring
    · exact absurd rfl h
  obtain ⟨g, f, h1, h2, h3⟩ := key
  have hm : points.mapM (fun q => (exactBoundary bc omega z q.1 q.2.value q.2.curl).map fun g => (q.1, g)) = some (points.map fun q => (q.1, g q)) := by
    clear h2 h3
    induction points with
    | nil => rfl
    | cons q l ih => rw [List.mapM_cons, ih, h1]; rfl
  simp only [ExactFace.residual, hm, Option.bind_eq_bind, Option.bind_some, h2, boundary_form bc h, quad_dot, List.map_map, ExactFace.flux, Option.pure_def]
  rw [sum_map_sub, sum_map_sub]
  refine congrArg some (congrArg List.sum (List.map_congr_left fun q hq => ?_))
  simp only [Function.comp, h3, boundary_sub]
  ring

/-- **C91.** In an element: the code's terms are those of the error plus those of the exact field. -/
theorem element_residual (omega : ℝ) (u v : Fin n → ℂ) (K : ExactElement d n) (hs : K.Solves omega) :
    K.residual omega u v = (K.points.map fun q => (q.1.weight : ℂ) * q.1.form omega ((q.1.field u).sub q.2.1) (q.1.field v)).sum +
      ((K.points.map fun q => (q.1.weight : ℂ) * bil (q.1.mu.applyCurl q.2.1.curl) (q.1.field v).curl).sum -
      (K.points.map fun q => (q.1.weight : ℂ) * bil q.2.2.1 (q.1.field v).value).sum) := by
  unfold ExactElement.residual elementVector
  rw [element_form, quad_dot, List.map_map, List.map_map, sum_map_sub, sum_map_sub, ← List.sum_map_add]
  refine congrArg List.sum (List.map_congr_left fun q hq => ?_)
  simp only [Function.comp]
  have h1 := (curlMap q.1.mu).map_sub (q.1.field u).curl q.2.1.curl
  have h2 := (divMap q.1.div).map_sub (q.1.field u).value q.2.1.value
  simp only [curlMap, divMap, LinearMap.coe_mk, AddHom.coe_mk] at h1 h2
  have h3 : ∑ j, v j * dot q.2.2.2 (cast (q.1.value j)) = bil q.2.2.2 (q.1.field v).value := by
    simp only [ElementPoint.field, sum_cast_value, bil_sum_right, dot_cast]
  rw [h3, ← hs q hq]
  simp only [ElementPoint.form, Field.sub, h1, h2, bil_sub_left, bil_smul_left]
  ring

/-- **C91.** Consistency of the whole system. Take any mesh, materials, boundary conditions and an exact solution with its boundary values. Then `vᵀ (A u - b)` for the system
of the code is that of the error `u - E`, for all discrete `u` and `v`. -/
theorem consistent {dofs : Nat → Nat} (stab omega : ℝ) (count : Nat) (elements : (e : Nat) → ExactElement d (dofs e)) (faces : List (ExactFace d dofs))
    (hG : Green count elements faces) (hs : ∀ e, (elements e).Solves omega) (hc : ∀ f ∈ faces, f.Continuous) (u v : (e : Nat) → Fin (dofs e) → ℂ) :
    ∃ r : List ℂ, faces.mapM (ExactFace.residual stab omega u v) = some r ∧
      ∑ e : Fin count, (elements e).residual omega (u e) (v e) + r.sum =
      ∑ e : Fin count, ((elements e).points.map fun q => (q.1.weight : ℂ) * q.1.form omega ((q.1.field (u e)).sub q.2.1) (q.1.field (v e))).sum +
      (faces.map (ExactFace.error stab omega u v)).sum := by
  have hf : ∀ faces : List (ExactFace d dofs), (∀ f ∈ faces, f.Continuous) → ∃ r : List ℂ, faces.mapM (ExactFace.residual stab omega u v) = some r ∧
      r.sum = (faces.map (ExactFace.error stab omega u v)).sum - (faces.map (ExactFace.flux v)).sum := by
    intro faces
    induction faces with
    | nil => intro _; exact ⟨[], rfl, by simp⟩
    | cons f rest ih =>
      intro h
      obtain ⟨r, h1, h2⟩ := ih fun g hg => h g (List.mem_cons_of_mem _ hg)
      have h0 : f.residual stab omega u v = some (f.error stab omega u v - f.flux v) := by
        have hf := h f (List.mem_cons_self ..)
        cases f with
        | boundary l bc diameter z points => exact boundary_residual stab omega diameter z l bc points u v hf
        | internal l r diameter points => exact internal_residual stab omega diameter l r points u v hf
      refine ⟨(f.error stab omega u v - f.flux v) :: r, by rw [List.mapM_cons, h0, h1]; rfl, ?_⟩
      simp only [List.sum_cons, List.map_cons, h2]
      ring
  obtain ⟨r, h1, h2⟩ := hf faces hc
  refine ⟨r, h1, ?_⟩
  rw [h2, Finset.sum_congr rfl fun (e : Fin count) _ => element_residual omega (u e) (v e) (elements e) (hs e), Finset.sum_add_distrib, Finset.sum_sub_distrib, hG v]
  ring

/-- **C91.** An exact solution that is itself discrete is a solution of the system of the code. -/
theorem exact_solves {dofs : Nat → Nat} (stab omega : ℝ) (count : Nat) (elements : (e : Nat) → ExactElement d (dofs e)) (faces : List (ExactFace d dofs))
    (hG : Green count elements faces) (hs : ∀ e, (elements e).Solves omega) (hc : ∀ f ∈ faces, f.Continuous) (u : (e : Nat) → Fin (dofs e) → ℂ)
    (he : ∀ e < count, (elements e).Matches (u e)) (hf : ∀ f ∈ faces, f.Matches u) (v : (e : Nat) → Fin (dofs e) → ℂ) :
    ∃ r : List ℂ, faces.mapM (ExactFace.residual stab omega u v) = some r ∧ ∑ e : Fin count, (elements e).residual omega (u e) (v e) + r.sum = 0 := by
  obtain ⟨r, h1, h2⟩ := consistent stab omega count elements faces hG hs hc u v
  refine ⟨r, h1, h2.trans ?_⟩
  have zero : ∀ a : Field d, a.sub a = ⟨0, 0⟩ := fun a => by simp [Field.sub]
  have c0 : ∀ T : Tensor, T.applyCurl (0 : Fin d → ℂ) = 0 := fun T => (curlMap T).map_zero
  have d0 : ∀ T : Tensor, T.applyDiv (0 : Fin d → ℂ) = 0 := fun T => (divMap T).map_zero
  have n0 : ∀ n : Fin d → ℂ, cross n (0 : Fin d → ℂ) = 0 := fun n => (crossMap n).map_zero
  have z1 : ∑ e : Fin count, ((elements e).points.map fun q => (q.1.weight : ℂ) * q.1.form omega ((q.1.field (u e)).sub q.2.1) (q.1.field (v e))).sum = 0 := by
    refine Finset.sum_eq_zero fun e _ => List.sum_eq_zero fun x hx => ?_
    obtain ⟨q, hq, rfl⟩ := List.mem_map.1 hx
    rw [he e e.2 q hq, zero]
    simp [ElementPoint.form, c0, d0, bil_zero_left]
  have z2 : (faces.map (ExactFace.error stab omega u v)).sum = 0 := by
    refine List.sum_eq_zero fun x hx => ?_
    obtain ⟨f, hfm, rfl⟩ := List.mem_map.1 hx
    have := hf f hfm
    cases f with
    | boundary l bc diameter z points =>
      refine List.sum_eq_zero fun x hx => ?_
      obtain ⟨q, hq, rfl⟩ := List.mem_map.1 hx
      rw [this q hq, zero]
      cases bc <;> simp [FacePoint.boundary, c0, n0, bil_zero_left]
    | internal l r diameter points =>
      refine List.sum_eq_zero fun x hx => ?_
      obtain ⟨q, hq, rfl⟩ := List.mem_map.1 hx
      rw [(this q hq).1, (this q hq).2, zero, zero]
      simp [FacePoint.interior, FacePoint.jump, FacePoint.average, c0, n0, bil_zero_left]
  rw [z1, z2, add_zero]

end Verif.MaxLocal
