import Verif.Pml.Lemmas

/-! # Absorbing layers: the properties -/
namespace Verif.Pml

variable {n dim : Nat}

/-! ## Stretched coordinates -/

/-- **C95.** Three dimensions: what the program solves in a layer, for the field `d E`, is `d₁ d₂ d₃ / dᵢ` times Maxwell's equation in stretched coordinates for `E` with the material
outside. -/
theorem layer_maxwell (l : Layer 3) (omega : ℝ) (hmu : l.material.permeability ≠ 0) (E : (Fin 3 → ℝ) → Fin 3 → ℂ) (x : Fin 3 → ℝ) (i : Fin 3) :
    let d := l.stretching omega
    maxwell (l.div omega) (l.curl omega) curl omega (fun y k => d y k * E y k) x i =
      d x 0 * d x 1 * d x 2 / d x i * maxwell l.material.eps l.material.mu (stretchedCurl d) omega E x i := by
  intro d
  have hd : Separate d := fun j k x t h => stretching_separate l omega j k x t (by simpa [Fin.ext_iff] using h)
  have hn : ∀ x k, d x k ≠ 0 := stretching_ne l omega
  have hmu' : (l.material.permeability : ℂ) ≠ 0 := by exact_mod_cast hmu
  have inner : (fun y => (l.curl omega y).applyCurl (curl (fun y k => d y k * E y k) y)) =
      fun y k => d y k * (l.material.mu y).applyCurl (stretchedCurl d E y) k := by
    funext y k
    have h0 := hn y 0
    have h1 := hn y 1
    have h2 := hn y 2
    have hk := hn y k
    simp only [Layer.curl, MaxLocal.Tensor.applyCurl, Material.mu, curl_scaled d E hd hn, diagonalTensor_eq]
    show _ / (d y 0 * d y 1 * d y 2 / d y k ^ 2 * _) = _
    field_simp
  simp only [maxwell, inner, Pi.sub_apply, curl_scaled d _ hd hn, Pi.smul_apply, smul_eq_mul, mul_sub]
  congr 1
  have hk := hn x i
  have e : i.1 % 3 = i.1 := Nat.mod_eq_of_lt i.2
  have : (Fin.ofNat 3 i.1) = i := Fin.ext e
  simp only [Layer.div, MaxLocal.Tensor.applyDiv, Material.eps, this, diagonalTensor_eq]
  show _ * (_ * (d x 0 * d x 1 * d x 2 / d x i ^ 2 * _)) = _
  field_simp

/-- **C95.** So a field solves the equation of the program everywhere in a set exactly if it is `d E` for a solution `E` in stretched coordinates. -/
theorem layer_solution (l : Layer 3) (omega : ℝ) (hmu : l.material.permeability ≠ 0) (E : (Fin 3 → ℝ) → Fin 3 → ℂ) (x : Fin 3 → ℝ) :
    maxwell (l.div omega) (l.curl omega) curl omega (fun y k => l.stretching omega y k * E y k) x = 0 ↔
    maxwell l.material.eps l.material.mu (stretchedCurl (l.stretching omega)) omega E x = 0 := by
  have hn := stretching_ne l omega x
  constructor
  · intro h
    funext i
    have := congrFun h i
    rw [layer_maxwell l omega hmu E x i] at this
    exact (mul_eq_zero.1 this).resolve_left (div_ne_zero (mul_ne_zero (mul_ne_zero (hn 0) (hn 1)) (hn 2)) (hn i))
  · intro h
    funext i
    rw [layer_maxwell l omega hmu E x i, h]
    simp

/-- **C95.** The same in two dimensions. -/
theorem layer_maxwell_plane (l : Layer 2) (omega : ℝ) (hmu : l.material.permeability ≠ 0) (E : (Fin 2 → ℝ) → Fin 2 → ℂ) (x : Fin 2 → ℝ) (i : Fin 2) :
    let d := fun y (k : Fin 2) => l.stretching omega y (Fin.castSucc k)
    maxwellPlane (l.div omega) (l.curl omega) (fun _ _ => 1) omega (fun y k => d y k * E y k) x i =
      d x 0 * d x 1 / d x i * maxwellPlane l.material.eps l.material.mu d omega E x i := by
  intro d
  have hd : Separate d := fun j k x t h => stretching_separate l omega j (Fin.castSucc k) x t (by simpa [Fin.ext_iff] using h)
  have hn : ∀ x k, d x k ≠ 0 := fun x k => stretching_ne l omega x _
  have hmu' : (l.material.permeability : ℂ) ≠ 0 := by exact_mod_cast hmu
  have h2 : ∀ y, l.stretching omega y 2 = 1 := fun y => by simp [Layer.stretching]
  have e0 : ∀ y, l.stretching omega y 0 = d y 0 := fun _ => rfl
  have e1 : ∀ y, l.stretching omega y 1 = d y 1 := fun _ => rfl
  have inner : (fun y => (l.curl omega y).applyCurl ![stretchedCurlPlane (fun _ _ => 1) (fun y k => d y k * E y k) y, 0] 0) =
      fun y => (l.material.mu y).applyCurl ![stretchedCurlPlane d E y, 0] 0 := by
    funext y
    have h0 := hn y 0
    have h1 := hn y 1
    simp only [Layer.curl, MaxLocal.Tensor.applyCurl, Material.mu, curlPlane_scaled d E hd hn, diagonalTensor_eq, h2, e0, e1, Matrix.cons_val_zero]
    field_simp
  simp only [maxwellPlane, inner, Pi.sub_apply, Pi.smul_apply, smul_eq_mul, mul_sub]
  have h0 := hn x 0
  have h1 := hn x 1
  congr 1
  · fin_cases i <;> simp [stretchedCurlNormal] <;> field_simp
  · have f : ∀ i : Fin 2, Fin.ofNat 3 i.1 = i.castSucc := by decide
    have e : l.stretching omega x i.castSucc = d x i := rfl
    have hi := hn x i
    simp only [Layer.div, MaxLocal.Tensor.applyDiv, Material.eps, diagonalTensor_eq, f, h2, e0, e1, e]
    field_simp

/-- **C95.** The rescalings for output give back the field and the curl in stretched coordinates. -/
theorem layer_rescaling (l : Layer 3) (omega : ℝ) (E : (Fin 3 → ℝ) → Fin 3 → ℂ) (x : Fin 3 → ℝ) :
    (l.fieldRescaling omega x).applyDiv (fun k => l.stretching omega x k * E x k) = E x ∧
    (l.curlRescaling omega x).applyCurl (curl (fun y k => l.stretching omega y k * E y k) x) = stretchedCurl (l.stretching omega) E x := by
  have hd : Separate (l.stretching omega) := fun j k x t h => stretching_separate l omega j k x t (by simpa [Fin.ext_iff] using h)
  have hn : ∀ x k, l.stretching omega x k ≠ 0 := stretching_ne l omega
  have h0 := hn x 0
  have h1 := hn x 1
  have h2 := hn x 2
  constructor
  · funext i
    have hi := hn x i
    have : (Fin.ofNat 3 i.1) = i := Fin.ext (Nat.mod_eq_of_lt i.2)
    simp only [Layer.fieldRescaling, MaxLocal.Tensor.applyDiv, this]
    field_simp
  · funext i
    simp only [Layer.curlRescaling, MaxLocal.Tensor.applyCurl, curl_scaled _ E hd hn]
    fin_cases i <;> simp [List.finRange_succ] <;> field_simp

/-- **C95.** In front of the layer, that is where no coordinate is behind the offset in its direction, the tensors are those of the material and the rescalings do nothing. -/
theorem layer_outside (l : Layer dim) (omega : ℝ) (x : Fin dim → ℝ) (h : ∀ i, (x i - l.offset i) * l.directions i ≤ 0) :
    l.stretching omega x = (fun _ => 1) ∧ l.div omega x = .diag (fun _ => l.material.permittivity) ∧ l.curl omega x = .diag (fun _ => l.material.permeability) ∧
    l.fieldRescaling omega x = .diag (fun _ => 1) ∧ l.curlRescaling omega x = .diag (fun _ => 1) := by
  have h1 : l.stretching omega x = fun _ => 1 := by
    funext i
    simp only [Layer.stretching]
    split
    · rw [if_neg (not_lt.2 (h _))]
    · rfl
  have h2 : ∀ i, l.diagonalTensor omega x i = 1 := by
    intro i
    rw [diagonalTensor_eq, h1]
    simp
  refine ⟨h1, ?_, ?_, ?_, ?_⟩
  · simp [Layer.div, h2]
  · simp [Layer.curl, h2]
  · simp [Layer.fieldRescaling, h1]
  · simp [Layer.curlRescaling, h1]

/-! ## Absorption -/

/-- The stretching is the derivative of the stretched coordinate, for any direction. -/
theorem stretched_deriv (omega offset direction scaling t : ℝ) (hdir : direction = 1 ∨ direction = -1) :
    HasDerivAt (stretchedCoordinate omega offset direction scaling)
      (if (t - offset) * direction > 0 then 1 + Complex.I / omega * scaling * ((t - offset) * direction : ℝ) * ((t - offset) * direction : ℝ) else 1) t := by
  have hm : HasDerivAt (fun t : ℝ => (max 0 ((t - offset) * direction)) ^ 3) (if (t - offset) * direction > 0 then 3 * ((t - offset) * direction) ^ 2 * direction else 0) t := by
    have lin : HasDerivAt (fun t : ℝ => ((t - offset) * direction) ^ 3) (3 * ((t - offset) * direction) ^ 2 * direction) t := by
      refine ((((hasDerivAt_id t).sub_const offset).mul_const direction).pow 3).congr_deriv ?_
      simp
    rcases lt_trichotomy ((t - offset) * direction) 0 with h | h | h
    · rw [if_neg (by linarith)]
      refine (hasDerivAt_const t (0 : ℝ)).congr_of_eventuallyEq ?_
      have : ∀ᶠ s in nhds t, (s - offset) * direction < 0 :=
        (((continuous_id.sub continuous_const).mul continuous_const).tendsto t).eventually (gt_mem_nhds h)
      filter_upwards [this] with s hs
      rw [max_eq_left hs.le]; simp
    · rw [if_neg (by linarith)]
      have hto : t = offset := by rcases hdir with rfl | rfl <;> linarith
      subst hto
      rw [hasDerivAt_iff_isLittleO]
      simp only [sub_self, zero_mul, max_self, smul_zero, sub_zero]
      refine Asymptotics.IsLittleO.of_norm_left ?_
      have : (fun s : ℝ => ‖max 0 ((s - t) * direction) ^ 3 - 0 ^ 3‖) =O[nhds t] fun s => (s - t) ^ 3 := by
        refine Asymptotics.IsBigO.of_bound 1 (Filter.Eventually.of_forall fun s => ?_)
        have : |max 0 ((s - t) * direction)| ≤ |s - t| := by
          rw [abs_of_nonneg (le_max_left _ _)]
          rcases hdir with rfl | rfl
          · exact max_le (abs_nonneg _) (by simpa using le_abs_self (s - t))
          · exact max_le (abs_nonneg _) (by simpa using neg_abs_le (s - t) |> neg_le.1)
        rw [norm_norm, one_mul, Real.norm_eq_abs, Real.norm_eq_abs,
          show (max 0 ((s - t) * direction)) ^ 3 - (0 : ℝ) ^ 3 = (max 0 ((s - t) * direction)) ^ 3 by ring, abs_pow, abs_pow]
        exact pow_le_pow_left₀ (abs_nonneg _) this 3
      refine this.trans_isLittleO ?_
      have h1 : (fun s : ℝ => s ^ 3) =o[nhds 0] fun s => s := Asymptotics.isLittleO_pow_id (by norm_num)
      have := h1.comp_tendsto (show Filter.Tendsto (fun s : ℝ => s - t) (nhds t) (nhds 0) by
        have : Continuous fun s : ℝ => s - t := continuous_id.sub continuous_const
        have := this.tendsto t
        rwa [sub_self] at this)
      exact this
    · rw [if_pos h]
      refine lin.congr_of_eventuallyEq ?_
      have : ∀ᶠ s in nhds t, 0 < (s - offset) * direction :=
        (((continuous_id.sub continuous_const).mul continuous_const).tendsto t).eventually (lt_mem_nhds h)
      filter_upwards [this] with s hs
      rw [max_eq_right hs.le]
  have h1 : HasDerivAt (fun t : ℝ => (t : ℂ)) 1 t := Complex.ofRealCLM.hasDerivAt
  have h2 := hm.ofReal_comp
  refine (h1.add ((h2.const_mul (Complex.I / omega * scaling * direction / 3)))).congr_deriv ?_ |>.congr_of_eventuallyEq ?_
  · have sq : (direction : ℂ) * direction = 1 := by rcases hdir with rfl | rfl <;> norm_num
    split
    · push_cast
      linear_combination (Complex.I / omega * scaling * ((t - offset) * direction) ^ 2) * sq
    · simp
  · refine Filter.Eventually.of_forall fun s => ?_
    show _ = (s : ℂ) + Complex.I / omega * scaling * direction / 3 * _
    simp only [stretchedCoordinate]
    push_cast
    ring

/-- A plane wave along the axis `j`, in stretched coordinates: forward in the direction of the axis for `sign = 1` and backward for `-1`. -/
noncomputable def wave (l : Layer dim) (omega : ℝ) (j : Fin dim) (sign t : ℝ) : ℂ :=
  Complex.exp (Complex.I * (sign * (omega * l.material.refractiveIndex) : ℝ) * stretchedCoordinate omega (l.offset j) (l.directions j) (l.scaling j) t)

theorem wave_deriv (l : Layer 3) (omega : ℝ) (j : Fin 3) (hdir : l.directions j = 1 ∨ l.directions j = -1) (sign : ℝ) (x : Fin 3 → ℝ) (c : ℂ) (m : Fin 3) :
    partialDeriv m (fun y => wave l omega j sign (y j) * c) x =
    if m = j then Complex.I * (sign * (omega * l.material.refractiveIndex) : ℝ) * l.stretching omega x j * wave l omega j sign (x j) * c else 0 := by
  split
  · next h =>
    subst h
    simp only [partialDeriv, Function.update_self]
    refine HasDerivAt.deriv ?_
    have h1 := stretched_deriv omega (l.offset m) (l.directions m) (l.scaling m) (x m) hdir
    have h2 := ((h1.const_mul (Complex.I * (sign * (omega * l.material.refractiveIndex) : ℝ))).cexp).mul_const c
    refine h2.congr_deriv ?_
    have hs : l.stretching omega x m = if (x m - l.offset m) * l.directions m > 0 then
        1 + Complex.I / omega * l.scaling m * ((x m - l.offset m) * l.directions m : ℝ) * ((x m - l.offset m) * l.directions m : ℝ) else 1 := by
      simp only [Layer.stretching]
      rw [dif_pos m.2]
    rw [hs, wave]
    ring
  · next h =>
    simp only [partialDeriv, Function.update_of_ne (Ne.symm h)]
    simp

/-- **C96.** A plane wave along an axis with a layer, with any polarization perpendicular to it, is a solution in stretched coordinates; with `layer_solution` it is one of the equation
of the program. This includes the interface and corners where other axes have layers. -/
theorem wave_solution (l : Layer 3) (omega : ℝ) (heps : 0 < l.material.permittivity) (hmu : 0 < l.material.permeability) (j : Fin 3)
    (hdir : l.directions j = 1 ∨ l.directions j = -1) (sign : ℝ) (hsign : sign = 1 ∨ sign = -1) (a : Fin 3 → ℂ) (ha : a j = 0) (x : Fin 3 → ℝ) :
    maxwell l.material.eps l.material.mu (stretchedCurl (l.stretching omega)) omega (fun y k => wave l omega j sign (y j) * a k) x = 0 := by
  set q : ℂ := Complex.I * (sign * (omega * l.material.refractiveIndex) : ℝ) with hq
  have hn := stretching_ne l omega
  have hmu' : (l.material.permeability : ℂ) ≠ 0 := by exact_mod_cast hmu.ne'
  have hq2 : q * q = -((omega : ℂ) ^ 2 * (l.material.permittivity * l.material.permeability)) := by
    have h1 : (l.material.refractiveIndex : ℂ) * l.material.refractiveIndex = l.material.permittivity * l.material.permeability := by
      rw [← Complex.ofReal_mul, Material.refractiveIndex, Real.mul_self_sqrt (by positivity)]
      push_cast
      ring
    have h2 : (sign : ℂ) * sign = 1 := by rcases hsign with rfl | rfl <;> norm_num
    rw [hq]
    push_cast
    linear_combination (sign ^ 2 * omega ^ 2 * l.material.refractiveIndex ^ 2 : ℂ) * Complex.I_mul_I - (omega ^ 2 * l.material.refractiveIndex ^ 2 : ℂ) * h2 - (omega ^ 2 : ℂ) * h1
  have D : ∀ (c : ℂ) (y : Fin 3 → ℝ) m, partialDeriv m (fun y => wave l omega j sign (y j) * c) y / l.stretching omega y m =
      if m = j then q * wave l omega j sign (y j) * c else 0 := by
    intro c y m
    rw [wave_deriv l omega j hdir]
    split
    · next h =>
      subst h
      have := hn y m
      rw [← hq]
      field_simp
    · simp
  have C : ∀ (b : Fin 3 → ℂ) (y : Fin 3 → ℝ), stretchedCurl (l.stretching omega) (fun y k => wave l omega j sign (y j) * b k) y =
      fun k => wave l omega j sign (y j) * (q * MaxLocal.cross (Pi.single j 1) b k) := by
    intro b y
    funext k
    simp only [stretchedCurl, D]
    fin_cases j <;> fin_cases k <;> simp [MaxLocal.cross] <;> ring
  have inner : (fun y => (l.material.mu y).applyCurl (stretchedCurl (l.stretching omega) (fun y k => wave l omega j sign (y j) * a k) y)) =
      fun y k => wave l omega j sign (y j) * (q * MaxLocal.cross (Pi.single j 1) a k / l.material.permeability) := by
    funext y k
    rw [C]
    simp only [Material.mu, MaxLocal.Tensor.applyCurl]
    ring
  unfold maxwell
  rw [inner, C]
  funext k
  simp only [Pi.sub_apply, Pi.smul_apply, smul_eq_mul, Material.eps, MaxLocal.Tensor.applyDiv, Pi.zero_apply]
  have key : q * MaxLocal.cross (Pi.single j 1) (fun k => q * MaxLocal.cross (Pi.single j 1) a k / l.material.permeability) k = -(q * q) * a k / l.material.permeability := by
    fin_cases j <;> fin_cases k <;> simp [MaxLocal.cross] at ha ⊢ <;> first | (rw [ha]; ring) | ring
  rw [key, hq2]
  field_simp
  ring

/-- **C96.** The layer that is made for a zone has the asked absorption: a wave that goes from the front through the layer to the far end and back has lost exactly the factor
`attenuation`. -/
theorem create_attenuates (material : Material) (direction attenuation low high : Fin dim → ℝ) (omega : ℝ) (homega : omega ≠ 0) (hn : 0 < material.permittivity * material.permeability)
    (j : Fin dim) (hdir : direction j = 1 ∨ direction j = -1) (hbox : low j < high j) (hatt : 0 < attenuation j) :
    let l := create material direction attenuation low high
    let front := if direction j = 1 then low j else high j
    let back := if direction j = 1 then high j else low j
    ‖wave l omega j (direction j) back‖ / ‖wave l omega j (direction j) front‖ * (‖wave l omega j (-direction j) front‖ / ‖wave l omega j (-direction j) back‖) = attenuation j := by
  intro l front back
  have hr : 0 < material.refractiveIndex := Real.sqrt_pos.2 hn
  have norm : ∀ sign t, ‖wave l omega j sign t‖ = Real.exp (-(sign * material.refractiveIndex * l.scaling j * l.directions j * max 0 ((t - l.offset j) * l.directions j) ^ 3 / 3)) := by
    intro sign t
    rw [wave, Complex.norm_exp]
    congr 1
    have : Complex.I * ((sign * (omega * l.material.refractiveIndex) : ℝ) : ℂ) * stretchedCoordinate omega (l.offset j) (l.directions j) (l.scaling j) t =
        ((sign * (omega * material.refractiveIndex) * t : ℝ) : ℂ) * Complex.I +
        ((-(sign * material.refractiveIndex * l.scaling j * l.directions j * max 0 ((t - l.offset j) * l.directions j) ^ 3 / 3) : ℝ) : ℂ) := by
      have hm : l.material = material := rfl
      have ho : (omega : ℂ) ≠ 0 := by exact_mod_cast homega
      simp only [stretchedCoordinate, hm]
      push_cast
      field_simp
      linear_combination ((sign * material.refractiveIndex * l.scaling j * l.directions j : ℂ) * (max 0 ((t - l.offset j) * l.directions j) : ℝ) ^ 3) * Complex.I_sq
    rw [this, Complex.add_re, Complex.mul_I_re, Complex.ofReal_im, Complex.ofReal_re, neg_zero, zero_add]
  have hd : l.directions j = direction j := rfl
  have hsc : l.scaling j = -Real.log (attenuation j) / 2 / material.refractiveIndex * 3 / ((high j - low j) * (high j - low j) * (high j - low j)) := by
    show computeScaling material direction attenuation j / _ = _
    rw [computeScaling, if_neg (by rcases hdir with h | h <;> rw [h] <;> norm_num)]
  have hf : max 0 ((front - l.offset j) * l.directions j) = 0 := by
    have : front = l.offset j := by
      show front = if direction j < 0 then high j else if direction j > 0 then low j else 0
      rcases hdir with h | h <;> simp [front, h] <;> norm_num
    rw [this]; simp
  have hb : max 0 ((back - l.offset j) * l.directions j) = high j - low j := by
    have : (back - l.offset j) * l.directions j = high j - low j := by
      show (back - if direction j < 0 then high j else if direction j > 0 then low j else 0) * direction j = _
      rcases hdir with h | h <;> simp [back, h] <;> norm_num
    rw [this, max_eq_right (by linarith)]
  simp only [norm, hf, hb]
  simp only [hsc, hd]
  have hpos : high j - low j ≠ 0 := by linarith
  rw [← Real.exp_sub, ← Real.exp_sub, ← Real.exp_add]
  conv_rhs => rw [← Real.exp_log hatt]
  congr 1
  have hr' := hr.ne'
  generalize high j - low j = D at hpos
  generalize material.refractiveIndex = r at hr'
  rcases hdir with h | h <;> rw [h] <;> field_simp <;> norm_num <;> ring

/-- **C96.** A layer never amplifies: with an attenuation of at most one and a positive wave number the imaginary part of the stretching is not negative, in all of space. -/
theorem create_absorbs (material : Material) (direction attenuation low high : Fin dim → ℝ) (omega : ℝ) (homega : 0 < omega) (hbox : ∀ i, low i ≤ high i)
    (hatt : ∀ i, direction i ≠ 0 → 0 < attenuation i ∧ attenuation i ≤ 1) (x : Fin dim → ℝ) (k : Fin 3) :
    0 ≤ ((create material direction attenuation low high).stretching omega x k).im := by
  have hs : ∀ i, 0 ≤ (create material direction attenuation low high).scaling i := by
    intro i
    show 0 ≤ computeScaling material direction attenuation i / _
    have h0 := hbox i
    refine div_nonneg ?_ (by have : 0 ≤ high i - low i := by linarith
                             positivity)
    rw [computeScaling]
    split
    · exact le_refl _
    · next h =>
      have := Real.log_nonpos (hatt i h).1.le (hatt i h).2
      have hr : 0 ≤ material.refractiveIndex := Real.sqrt_nonneg _
      have : 0 ≤ -Real.log (attenuation i) := by linarith
      positivity
  simp only [Layer.stretching]
  split
  · next h =>
    split
    · set l := create material direction attenuation low high
      set xi := (x ⟨k, h⟩ - l.offset ⟨k, h⟩) * l.directions ⟨k, h⟩
      have : (Complex.I / omega * l.scaling ⟨k, h⟩ * xi * xi : ℂ) = ((l.scaling ⟨k, h⟩ * (xi * xi) / omega : ℝ) : ℂ) * Complex.I := by push_cast; ring
      rw [show (1 + Complex.I / omega * l.scaling ⟨k, h⟩ * (((x ⟨k, h⟩ - l.offset ⟨k, h⟩) * l.directions ⟨k, h⟩ : ℝ) : ℂ) * (((x ⟨k, h⟩ - l.offset ⟨k, h⟩) * l.directions ⟨k, h⟩ : ℝ) : ℂ) : ℂ) =
        1 + ((l.scaling ⟨k, h⟩ * (xi * xi) / omega : ℝ) : ℂ) * Complex.I from by rw [← this]]
      simp only [Complex.add_im, Complex.one_im, Complex.mul_I_im, Complex.ofReal_re, zero_add]
      have := hs ⟨k, h⟩
      have := mul_self_nonneg xi
      positivity
    · simp
  · simp

/-! ## A concrete case -/

/-- A layer for the zone `[2, 4] × [0, 1] × [0, 1]` that absorbs in the direction of the first axis. -/
noncomputable def exampleLayer : Layer 3 := create ⟨4, 1⟩ ![1, 0, 0] ![1 / 4, 1, 1] ![2, 0, 0] ![4, 1, 1]

/-- It meets the hypotheses of `create_attenuates`: waves lose three quarters. -/
example (omega : ℝ) (h : omega ≠ 0) : ‖wave exampleLayer omega 0 1 4‖ / ‖wave exampleLayer omega 0 1 2‖ *
    (‖wave exampleLayer omega 0 (-1) 2‖ / ‖wave exampleLayer omega 0 (-1) 4‖) = 1 / 4 := by
  have := create_attenuates ⟨4, 1⟩ ![1, 0, 0] ![1 / 4, 1, 1] ![2, 0, 0] ![4, 1, 1] omega h (by norm_num) (0 : Fin 3) (Or.inl rfl) (by simp; norm_num) (by simp)
  simpa [exampleLayer] using this

/-- At the far end it stretches by `1 + i a / ω` with a positive `a`. -/
example (omega : ℝ) : exampleLayer.stretching omega ![4, 0, 0] 0 = 1 + Complex.I / omega * (Real.log 4 / 2 / Real.sqrt 4 * 3 / 8 : ℝ) * 2 * 2 := by
  simp [Layer.stretching, exampleLayer, create, Layer.make, computeScaling, Material.refractiveIndex]
  norm_num

end Verif.Pml
