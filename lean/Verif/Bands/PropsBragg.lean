import Verif.Bands.BraggModel
import Verif.Bands.BraggSpec
import Mathlib.LinearAlgebra.Matrix.ToLinearEquiv
import Mathlib.LinearAlgebra.Matrix.Determinant.Basic
import Mathlib.Tactic.FieldSimp
import Mathlib.Tactic.LinearCombination
import Mathlib.Tactic.FinCases
import Mathlib.Analysis.SpecialFunctions.Trigonometric.Complex
import Mathlib.Analysis.SpecialFunctions.Trigonometric.DerivHyp

set_option linter.all false

/-! # The frequencies of a Bragg stack (C122) -/
namespace Verif.Bands.Bragg

/-! ## Helpers -/

theorem csqrt_sq (r : ℝ) : csqrt r ^ 2 = (r : ℂ) := by
  rw [csqrt]
  split
  · rename_i h
    rw [← Complex.ofReal_pow, Real.sq_sqrt h]
  · rename_i h
    rw [mul_pow, ← Complex.ofReal_pow, Real.sq_sqrt (by linarith), Complex.I_sq]
    push_cast
    ring

theorem csqrt_ne_zero {r : ℝ} : csqrt r ≠ 0 ↔ r ≠ 0 := by
  constructor
  · rintro h rfl
    exact h (by simp [csqrt])
  · intro h h0
    have := csqrt_sq r
    rw [h0] at this
    apply h
    have h1 : (r : ℂ) = 0 := by rw [← this]; ring
    exact_mod_cast h1

/-- Everything even in the wave number is real. -/
theorem real_parts (r a : ℝ) : ∃ C P Q : ℝ, Complex.cos (csqrt r * a) = C ∧ csqrt r * Complex.sin (csqrt r * a) = P ∧
    Complex.sin (csqrt r * a) / csqrt r = Q := by
  by_cases h : 0 ≤ r
  · have e : csqrt r = (√r : ℝ) := if_pos h
    refine ⟨Real.cos (√r * a), √r * Real.sin (√r * a), Real.sin (√r * a) / √r, ?_, ?_, ?_⟩ <;> rw [e] <;> push_cast <;> rfl
  · have e : csqrt r = (√(-r) : ℝ) * Complex.I := if_neg h
    have hs : csqrt r * a = ((√(-r) * a : ℝ) : ℂ) * Complex.I := by rw [e]; push_cast; ring
    have hne : ((√(-r) : ℝ) : ℂ) ≠ 0 := by
      have : 0 < √(-r) := Real.sqrt_pos.2 (by linarith)
      exact_mod_cast this.ne'
    refine ⟨Real.cosh (√(-r) * a), -(√(-r) * Real.sinh (√(-r) * a)), Real.sinh (√(-r) * a) / √(-r), ?_, ?_, ?_⟩
    · rw [hs, Complex.cos_mul_I]; push_cast; rfl
    · rw [hs, Complex.sin_mul_I, e]; push_cast
      linear_combination (√(-r) : ℂ) * Complex.sinh (√(-r) * a) * Complex.I_mul_I
    · rw [hs, Complex.sin_mul_I, e]; push_cast
      rw [mul_div_mul_right _ _ Complex.I_ne_zero]

theorem half_trace (s₁ s₂ κ₁ κ₂ : ℂ) (fr : ℝ) (h₁ : s₁ * κ₁ ≠ 0) (h₂ : s₂ * κ₂ ≠ 0) :
    (layer s₂ κ₂ (1 - fr) * layer s₁ κ₁ fr).trace =
      2 * (Complex.cos (κ₁ * fr) * Complex.cos (κ₂ * (1 - fr : ℝ)) -
        1 / 2 * ((s₁ * κ₁) / (s₂ * κ₂) + (s₂ * κ₂) / (s₁ * κ₁)) * Complex.sin (κ₁ * fr) *
          Complex.sin (κ₂ * (1 - fr : ℝ))) := by
  rw [Matrix.trace_fin_two, layer, layer]
  simp only [Matrix.mul_apply, Fin.sum_univ_two, Matrix.of_apply, Matrix.cons_val', Matrix.cons_val_zero,
    Matrix.cons_val_one, Matrix.cons_val_fin_one]
  generalize Complex.cos (κ₁ * fr) = c₁
  generalize Complex.sin (κ₁ * fr) = t₁
  generalize Complex.cos (κ₂ * (1 - fr : ℝ)) = c₂
  generalize Complex.sin (κ₂ * (1 - fr : ℝ)) = t₂
  generalize s₁ * κ₁ = a at *
  generalize s₂ * κ₂ = b at *
  field_simp
  ring

theorem layer_det (s κ : ℂ) (a : ℝ) (h : s * κ ≠ 0) : (layer s κ a).det = 1 := by
  rw [layer, Matrix.det_fin_two_of]
  have := Complex.sin_sq_add_cos_sq (κ * a)
  generalize s * κ = b at *
  field_simp
  linear_combination this

/-- The condition for a Bloch wave. -/
theorem bloch_iff (s₁ s₂ κ₁ κ₂ : ℂ) (fr q : ℝ) (h₁ : s₁ * κ₁ ≠ 0) (h₂ : s₂ * κ₂ ≠ 0) :
    BlochWave s₁ s₂ κ₁ κ₂ fr q ↔ (layer s₂ κ₂ (1 - fr) * layer s₁ κ₁ fr).trace = 2 * Complex.cos q := by
  set M := layer s₂ κ₂ (1 - fr) * layer s₁ κ₁ fr with hM
  set lam := Complex.exp (q * Complex.I) with hlam
  have hdet : M.det = 1 := by rw [hM, Matrix.det_mul, layer_det _ _ _ h₁, layer_det _ _ _ h₂, one_mul]
  have h0 : lam ≠ 0 := Complex.exp_ne_zero _
  have hcos : 2 * Complex.cos q = lam + lam⁻¹ := by
    rw [Complex.two_cos, hlam, ← Complex.exp_neg]
    ring_nf
  have e1 : BlochWave s₁ s₂ κ₁ κ₂ fr q ↔ ∃ w : Fin 2 → ℂ, w ≠ 0 ∧ (M - lam • (1 : Matrix (Fin 2) (Fin 2) ℂ)).mulVec w = 0 := by
    constructor
    · rintro ⟨w, hw, h⟩
      refine ⟨w, hw, ?_⟩
      rw [Matrix.sub_mulVec, Matrix.smul_mulVec, Matrix.one_mulVec, hM, h]
      funext i; simp [hlam]
    · rintro ⟨w, hw, h⟩
      refine ⟨w, hw, ?_⟩
      rw [Matrix.sub_mulVec, Matrix.smul_mulVec, Matrix.one_mulVec, sub_eq_zero] at h
      rw [← hM, h]
      funext i; simp [hlam]
  rw [e1, Matrix.exists_mulVec_eq_zero_iff, Matrix.det_fin_two, hcos, Matrix.trace_fin_two]
  rw [Matrix.det_fin_two] at hdet
  simp only [Matrix.sub_apply, Matrix.smul_apply, Matrix.one_apply_eq, smul_eq_mul, mul_one]
  rw [Matrix.one_apply_ne (by decide), Matrix.one_apply_ne (by decide)]
  constructor
  · intro h
    field_simp
    linear_combination -h + hdet
  · intro h
    have h' : lam * (M 0 0 + M 1 1) = lam * lam + 1 := by rw [h]; field_simp
    linear_combination -h' + hdet

/-- What is computed is real, and zero exactly for a Bloch wave. -/
theorem value_bloch (k : Fin 3 → ℝ) (fr r₁ r₂ s₁ s₂ : ℝ) (hr₁ : r₁ ≠ 0) (hr₂ : r₂ ≠ 0) (hs₁ : s₁ ≠ 0) (hs₂ : s₂ ≠ 0)
    (kk : ℂ) (hkk : kk = (s₁ * csqrt r₁) / (s₂ * csqrt r₂) + (s₂ * csqrt r₂) / (s₁ * csqrt r₁)) :
    value k fr (csqrt r₁) (csqrt r₂) kk = 0 ↔ BlochWave s₁ s₂ (csqrt r₁) (csqrt r₂) fr (k 0) := by
  have n₁ := csqrt_ne_zero.2 hr₁
  have n₂ := csqrt_ne_zero.2 hr₂
  have hs₁' : (s₁ : ℂ) ≠ 0 := by exact_mod_cast hs₁
  have hs₂' : (s₂ : ℂ) ≠ 0 := by exact_mod_cast hs₂
  rw [bloch_iff _ _ _ _ _ _ (mul_ne_zero hs₁' n₁) (mul_ne_zero hs₂' n₂),
    half_trace _ _ _ _ _ (mul_ne_zero hs₁' n₁) (mul_ne_zero hs₂' n₂), ← hkk, value]
  set A := Complex.cos (csqrt r₁ * fr) * Complex.cos (csqrt r₂ * (1 - fr : ℝ)) -
      1 / 2 * kk * Complex.sin (csqrt r₁ * fr) * Complex.sin (csqrt r₂ * (1 - fr : ℝ)) with hA
  have him : A = (A.re : ℂ) := by
    obtain ⟨C₁, P₁, Q₁, c1, p1, q1⟩ := real_parts r₁ fr
    obtain ⟨C₂, P₂, Q₂, c2, p2, q2⟩ := real_parts r₂ (1 - fr)
    have : A = ((C₁ * C₂ - 1 / 2 * (s₁ / s₂ * (P₁ * Q₂) + s₂ / s₁ * (Q₁ * P₂)) : ℝ) : ℂ) := by
      rw [hA, c1, c2, hkk]
      push_cast
      rw [← p1, ← q1, ← p2, ← q2]
      push_cast
      generalize Complex.sin (csqrt r₁ * fr) = t₁
      generalize Complex.sin (csqrt r₂ * (1 - (fr : ℂ))) = t₂
      field_simp
    rw [this, Complex.ofReal_re]
  rw [him, Complex.ofReal_re]
  constructor
  · intro h
    have : A.re = Real.cos (k 0) := by linarith
    rw [this]
    push_cast
    ring
  · intro h
    have h1 : (A.re : ℂ) = ((Real.cos (k 0) : ℝ) : ℂ) := by
      push_cast
      linear_combination (1 / 2 : ℂ) * h
    have h2 : A.re = Real.cos (k 0) := by exact_mod_cast h1
    rw [h2]; ring

theorem layer_neg (s κ : ℂ) (a : ℝ) : layer s (-κ) a = layer s κ a := by
  rw [layer, layer, neg_mul, Complex.cos_neg, Complex.sin_neg, mul_neg, neg_div_neg_eq]
  ring_nf

theorem layer_csqrt (s κ : ℂ) (a r : ℝ) (h : κ ^ 2 = r) : layer s κ a = layer s (csqrt r) a := by
  have : κ ^ 2 = csqrt r ^ 2 := by rw [h, csqrt_sq]
  rcases sq_eq_sq_iff_eq_or_eq_neg.1 this with h | h
  · rw [h]
  · rw [h, layer_neg]

/-! ## C122 -/

/-- **C122**. For all permittivities, fractions, frequencies and wave vectors (but tiny ones, where the code puts in a
limit): if the function for TE modes has a value, it is zero exactly if there is a Bloch wave for `u` and `u'`
continuous. Here `κ₁`, `κ₂` are roots of the squares of the wave numbers across the layers. -/
theorem te_bloch (eps1 eps2 fraction omega : ℝ) (k : Fin 3 → ℝ) (v : ℝ)
    (hbig : 1 / 10 ^ 6 ≤ omega ∨ 1 / 10 ^ 6 ≤ k 1 * k 1 + k 2 * k 2)
    (hv : valueTE eps1 eps2 fraction omega k = some v) (κ₁ κ₂ : ℂ)
    (h₁ : κ₁ ^ 2 = ((eps1 * omega ^ 2 - (k 1 ^ 2 + k 2 ^ 2) : ℝ) : ℂ))
    (h₂ : κ₂ ^ 2 = ((eps2 * omega ^ 2 - (k 1 ^ 2 + k 2 ^ 2) : ℝ) : ℂ)) :
    v = 0 ↔ BlochWave 1 1 κ₁ κ₂ fraction (k 0) := by
  rw [valueTE] at hv
  rw [if_neg (by rintro ⟨a, b⟩; rcases hbig with h | h <;> linarith)] at hv
  split at hv
  · simp at hv
  · rename_i hne
    push Not at hne
    simp only [Option.some.injEq] at hv
    rw [← hv, normal, normal]
    rw [normal, normal] at hne
    have e₁ : eps1 * omega ^ 2 - (k 1 ^ 2 + k 2 ^ 2) = eps1 * omega * omega - k 1 * k 1 - k 2 * k 2 := by ring
    have e₂ : eps2 * omega ^ 2 - (k 1 ^ 2 + k 2 ^ 2) = eps2 * omega * omega - k 1 * k 1 - k 2 * k 2 := by ring
    rw [e₁] at h₁
    rw [e₂] at h₂
    rw [value_bloch k fraction _ _ 1 1 (csqrt_ne_zero.1 hne.1) (csqrt_ne_zero.1 hne.2) one_ne_zero one_ne_zero _ (by
      push_cast; ring)]
    rw [BlochWave, BlochWave, layer_csqrt _ _ _ _ h₁, layer_csqrt _ _ _ _ h₂]
    push_cast
    rfl

/-- **C122**. The same for TM modes, with `u` and `u' / ε` continuous. -/
theorem tm_bloch (eps1 eps2 fraction omega : ℝ) (k : Fin 3 → ℝ) (v : ℝ) (he1 : eps1 ≠ 0) (he2 : eps2 ≠ 0)
    (hbig : 1 / 10 ^ 6 ≤ omega ∨ 1 / 10 ^ 6 ≤ k 1 * k 1 + k 2 * k 2)
    (hv : valueTM eps1 eps2 fraction omega k = some v) (κ₁ κ₂ : ℂ)
    (h₁ : κ₁ ^ 2 = ((eps1 * omega ^ 2 - (k 1 ^ 2 + k 2 ^ 2) : ℝ) : ℂ))
    (h₂ : κ₂ ^ 2 = ((eps2 * omega ^ 2 - (k 1 ^ 2 + k 2 ^ 2) : ℝ) : ℂ)) :
    v = 0 ↔ BlochWave (1 / eps1) (1 / eps2) κ₁ κ₂ fraction (k 0) := by
  rw [valueTM] at hv
  rw [if_neg (by rintro ⟨a, b⟩; rcases hbig with h | h <;> linarith)] at hv
  split at hv
  · simp at hv
  · rename_i hne
    push Not at hne
    simp only [Option.some.injEq] at hv
    rw [← hv]
    simp only [normal] at hne ⊢
    have e₁ : eps1 * omega ^ 2 - (k 1 ^ 2 + k 2 ^ 2) = eps1 * omega * omega - k 1 * k 1 - k 2 * k 2 := by ring
    have e₂ : eps2 * omega ^ 2 - (k 1 ^ 2 + k 2 ^ 2) = eps2 * omega * omega - k 1 * k 1 - k 2 * k 2 := by ring
    rw [e₁] at h₁
    rw [e₂] at h₂
    have he1' : (eps1 : ℂ) ≠ 0 := by exact_mod_cast he1
    have he2' : (eps2 : ℂ) ≠ 0 := by exact_mod_cast he2
    have n₁ := hne.1
    have n₂ := hne.2
    rw [value_bloch k fraction _ _ (1 / eps1) (1 / eps2) (csqrt_ne_zero.1 hne.1) (csqrt_ne_zero.1 hne.2)
      (one_div_ne_zero he1) (one_div_ne_zero he2) _ (by push_cast; field_simp)]
    rw [BlochWave, BlochWave, layer_csqrt _ _ _ _ h₁, layer_csqrt _ _ _ _ h₂]
    push_cast
    rfl

theorem value_homogeneous (k : Fin 3 → ℝ) (fr r : ℝ) :
    value k fr (csqrt r) (csqrt r) 2 = 0 ↔ ∃ n : ℤ, r = (k 0 + 2 * Real.pi * n) ^ 2 := by
  have e : value k fr (csqrt r) (csqrt r) 2 = Real.cos (k 0) - (Complex.cos (csqrt r)).re := by
    rw [value]
    congr 2
    have : csqrt r = csqrt r * fr + csqrt r * (1 - fr : ℝ) := by push_cast; ring
    conv_rhs => rw [this, Complex.cos_add]
    ring
  rw [e]
  by_cases h : 0 ≤ r
  · have e1 : csqrt r = (√r : ℝ) := if_pos h
    rw [e1, ← Complex.ofReal_cos, Complex.ofReal_re, sub_eq_zero, Real.cos_eq_cos_iff]
    constructor
    · rintro ⟨n, hn | hn⟩
      · refine ⟨n, ?_⟩
        rw [← Real.sq_sqrt h, hn]; ring
      · refine ⟨-n, ?_⟩
        rw [← Real.sq_sqrt h, hn]; push_cast; ring
    · rintro ⟨n, hn⟩
      rw [hn, Real.sqrt_sq_eq_abs]
      rcases abs_choice (k 0 + 2 * Real.pi * n) with h' | h'
      · exact ⟨n, Or.inl (by rw [h']; ring)⟩
      · exact ⟨-n, Or.inr (by rw [h']; push_cast; ring)⟩
  · have e1 : csqrt r = (√(-r) : ℝ) * Complex.I := if_neg h
    rw [e1, Complex.cos_mul_I, ← Complex.ofReal_cosh, Complex.ofReal_re]
    constructor
    · intro h0
      have h1 : 1 < Real.cosh √(-r) := Real.one_lt_cosh.2 (Real.sqrt_pos.2 (by linarith)).ne'
      have h2 := Real.cos_le_one (k 0)
      linarith
    · rintro ⟨n, hn⟩
      exact absurd (hn ▸ sq_nonneg _) h

/-- **C122**. Two layers of the same material: wherever they have values, both functions are zero exactly at the
frequencies of plane waves whose wave vector is `k` up to multiples of `2π` along the stack. -/
theorem same_material (eps fraction omega : ℝ) (he : 0 < eps) (k : Fin 3 → ℝ) (v : ℝ)
    (hv : valueTE eps eps fraction omega k = some v ∨ valueTM eps eps fraction omega k = some v) :
    v = 0 ↔ ∃ n : ℤ, eps * omega ^ 2 = (k 0 + 2 * Real.pi * n) ^ 2 + k 1 ^ 2 + k 2 ^ 2 := by
  have key : v = value k fraction (normal eps omega k) (normal eps omega k) 2 := by
    have h1 : ((√(eps / eps) + √(eps / eps) : ℝ) : ℂ) = 2 := by
      rw [div_self he.ne', Real.sqrt_one]; push_cast; norm_num
    have hec : (eps : ℂ) ≠ 0 := by exact_mod_cast he.ne'
    rcases hv with hv | hv
    · rw [valueTE] at hv
      split at hv
      · rw [h1] at hv; exact (Option.some.inj hv).symm
      · split at hv
        · simp at hv
        · rename_i hne
          push Not at hne
          rw [← Option.some.inj hv, div_self hne.1]
          norm_num
    · rw [valueTM] at hv
      split at hv
      · rw [h1] at hv; exact (Option.some.inj hv).symm
      · split at hv
        · simp at hv
        · rename_i hne
          push Not at hne
          rw [← Option.some.inj hv, div_self (mul_ne_zero hec hne.1)]
          norm_num
  rw [key, normal, value_homogeneous]
  constructor
  · rintro ⟨n, hn⟩
    exact ⟨n, by linarith⟩
  · rintro ⟨n, hn⟩
    exact ⟨n, by linarith⟩

/-- **C122**. Straight through the stack TE and TM modes have the same frequencies. -/
theorem normal_incidence (eps1 eps2 fraction omega : ℝ) (he1 : 0 < eps1) (he2 : 0 < eps2) (k : Fin 3 → ℝ)
    (h1 : k 1 = 0) (h2 : k 2 = 0) : valueTE eps1 eps2 fraction omega k = valueTM eps1 eps2 fraction omega k := by
  rw [valueTE, valueTM]
  split
  · rfl
  · split
    · rfl
    · rename_i hne
      push Not at hne
      congr 2
      have e : ∀ eps : ℝ, 0 < eps → normal eps omega k = ((√eps * |omega| : ℝ) : ℂ) := by
        intro eps he
        have hnn : 0 ≤ eps * omega * omega := by
          have := mul_nonneg he.le (mul_self_nonneg omega); linarith
        rw [normal, h1, h2]
        simp only [mul_zero, sub_zero]
        rw [csqrt, if_pos hnn, mul_assoc, Real.sqrt_mul he.le, Real.sqrt_mul_self_eq_abs]
      have ho : omega ≠ 0 := by
        rintro rfl
        apply hne.1
        rw [e eps1 he1]; simp
      rw [e eps1 he1, e eps2 he2]
      have s1 : (√eps1 : ℂ) ≠ 0 := by exact_mod_cast (Real.sqrt_pos.2 he1).ne'
      have s2 : (√eps2 : ℂ) ≠ 0 := by exact_mod_cast (Real.sqrt_pos.2 he2).ne'
      have so : ((|omega| : ℝ) : ℂ) ≠ 0 := by exact_mod_cast (abs_pos.2 ho).ne'
      have q1 : (eps1 : ℂ) = (√eps1 : ℂ) * √eps1 := by
        rw [← Complex.ofReal_mul, Real.mul_self_sqrt he1.le]
      have q2 : (eps2 : ℂ) = (√eps2 : ℂ) * √eps2 := by
        rw [← Complex.ofReal_mul, Real.mul_self_sqrt he2.le]
      rw [q1, q2]
      push_cast
      generalize ((√eps1 : ℝ) : ℂ) = a at *
      generalize ((√eps2 : ℝ) : ℂ) = b at *
      generalize ((|omega| : ℝ) : ℂ) = c at *
      field_simp
      ring

/-- **C122**. It does not matter which layer comes first. -/
theorem layers_swap (eps1 eps2 fraction omega : ℝ) (k : Fin 3 → ℝ) :
    valueTE eps1 eps2 fraction omega k = valueTE eps2 eps1 (1 - fraction) omega k ∧
    valueTM eps1 eps2 fraction omega k = valueTM eps2 eps1 (1 - fraction) omega k := by
  have hval : ∀ (a b kk : ℂ), value k fraction a b kk = value k (1 - fraction) b a kk := by
    intro a b kk
    rw [value, value]
    have : (1 - (1 - fraction) : ℝ) = fraction := by ring
    rw [this]
    congr 2
    ring
  constructor
  · rw [valueTE, valueTE]
    rw [add_comm (√(eps1 / eps2)), hval, hval, add_comm (normal eps1 omega k / normal eps2 omega k)]
    simp only [or_comm (a := normal eps1 omega k = 0)]
  · rw [valueTM, valueTM]
    rw [add_comm (√(eps1 / eps2)), hval, hval, add_comm (eps2 * normal eps1 omega k / (eps1 * normal eps2 omega k))]
    simp only [or_comm (a := normal eps1 omega k = 0)]

/-- **C122**. There is no value where the wave just grazes one of the layers. -/
theorem grazing_nan (eps1 eps2 fraction omega : ℝ) (k : Fin 3 → ℝ) (ho : 1 / 10 ^ 6 ≤ omega)
    (h : eps1 * omega ^ 2 = k 1 ^ 2 + k 2 ^ 2) :
    valueTE eps1 eps2 fraction omega k = none ∧ valueTM eps1 eps2 fraction omega k = none := by
  have h0 : normal eps1 omega k = 0 := by
    rw [normal, show eps1 * omega * omega - k 1 * k 1 - k 2 * k 2 = 0 by linarith]
    simp [csqrt]
  have hn : ¬ (omega < 1 / 10 ^ 6 ∧ k 1 * k 1 + k 2 * k 2 < 1 / 10 ^ 6) := fun hh => absurd hh.1 (not_lt.2 ho)
  constructor
  · rw [valueTE]
    rw [if_neg hn, if_pos (Or.inl h0)]
  · rw [valueTM]
    rw [if_neg hn, if_pos (Or.inl h0)]

/-- A case: two different layers, at an angle, where both functions have values. -/
example : (∃ v, valueTE 1 4 (1 / 2) 1 ![1, 1 / 2, 0] = some v) ∧ (∃ v, valueTM 1 4 (1 / 2) 1 ![1, 1 / 2, 0] = some v) := by
  have n1 : normal 1 1 ![1, 1 / 2, 0] ≠ 0 := csqrt_ne_zero.2 (by simp; norm_num)
  have n2 : normal 4 1 ![1, 1 / 2, 0] ≠ 0 := csqrt_ne_zero.2 (by simp; norm_num)
  constructor
  · rw [valueTE, if_neg (by norm_num), if_neg (by push Not; exact ⟨n1, n2⟩)]
    exact ⟨_, rfl⟩
  · rw [valueTM, if_neg (by norm_num), if_neg (by push Not; exact ⟨n1, n2⟩)]
    exact ⟨_, rfl⟩

/-- A case of grazing: `k = (0, 1, 0)` and frequency one in a layer with permittivity one. -/
example : (1 : ℝ) * 1 ^ 2 = (![0, 1, 0] : Fin 3 → ℝ) 1 ^ 2 + (![0, 1, 0] : Fin 3 → ℝ) 2 ^ 2 := by simp

end Verif.Bands.Bragg
