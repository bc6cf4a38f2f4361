import Verif.Legendre.LemmasLobatto

/-! # Properties of the Legendre and Lobatto polynomials (C23, C24) -/
namespace Verif.Legendre
open Polynomial

/-- C23. `LegendrePolynomial(n, x)` is the Legendre polynomial of Rodrigues' formula, for every
degree and argument; it has degree `n`. -/
theorem legendre_is_legendre (n : Nat) :
    (∀ x, legendre n x = (rodrigues n).eval x) ∧ (rodrigues n).natDegree = n :=
  ⟨legendre_eq n, (natDegree_rodrigues n).1⟩

example : (rodrigues 3).eval 2 = 17 := by rw [← legendre_eq, legendre_3]; norm_num

/-- C23. `LegendrePolynomialDerivative(n, x)` is its derivative. -/
theorem legendreDeriv_is_derivative (n : Nat) (x : ℝ) :
    HasDerivAt (fun y => legendre n y) (legendreDeriv n x) x :=
  hasDerivAt_legendre n x

example : legendreDeriv 3 2 = 57 / 2 := by rw [d_3]; norm_num

/-- C23. The value at one, the parity and the derivative at one. -/
theorem legendre_one_and_parity (n : Nat) :
    legendre n 1 = 1 ∧ (∀ x, legendre n (-x) = (-1) ^ n * legendre n x) ∧
      legendreDeriv n 1 = n * (n + 1) / 2 :=
  ⟨legendre_one n, legendre_neg n, by have := legendreDeriv_one n; linarith⟩

/-- C23. The Legendre polynomials are orthogonal on `[-1, 1]` with squared norm `2/(2n+1)`. -/
theorem legendre_orthogonal (m n : Nat) :
    ∫ x in (-1 : ℝ)..1, legendre m x * legendre n x = if m = n then 2 / (2 * (n : ℝ) + 1) else 0 := by
  have e : (fun x => legendre m x * legendre n x) = fun x => (rodrigues m * rodrigues n).eval x := by
    funext x; rw [legendre_eq, legendre_eq, eval_mul]
  rw [e]
  split_ifs with h
  · subst h; exact norm_eq m
  · exact orthogonal h

example : ∫ x in (-1 : ℝ)..1, legendre 2 x * legendre 2 x = 2 / 5 := by
  rw [legendre_orthogonal]; norm_num

/-- C24, degrees 0 to 9 without 5. `LobattoPolynomial(d, x)` is the scaled derivative of the
Legendre polynomial of degree `d + 1`. The claim for every degree fails: see
`lobatto_five_wrong` and `lobatto_high_wrong`. -/
theorem lobatto_is_scaled_derivative_partial (d : Nat) (hd : d < 10) (h5 : d ≠ 5) (x : ℝ) :
    lobatto d x = -4 / (((d : ℝ) + 2) * (d + 1)) * √((2 * d + 3) / 2) *
      (derivative (rodrigues (d + 1))).eval x := by
  rw [← legendreDeriv_eq]
  have h : d = 0 ∨ d = 1 ∨ d = 2 ∨ d = 3 ∨ d = 4 ∨ d = 6 ∨ d = 7 ∨ d = 8 ∨ d = 9 := by omega
  rcases h with rfl | rfl | rfl | rfl | rfl | rfl | rfl | rfl | rfl
  · norm_num [lobatto, legendreDeriv]; ring
  · norm_num [lobatto, d_2]; ring
  · norm_num [lobatto, d_3]; ring
  · norm_num [lobatto, d_4]; ring
  · norm_num [lobatto, d_5]; ring
  · norm_num [lobatto, d_7]; ring
  · norm_num [lobatto, d_8]; ring
  · norm_num [lobatto, d_9]; ring
  · norm_num [lobatto, d_10]; ring

/-- C24. What users rely on, for the same degrees: the shape function `(1 - x²)/4 * Lobatto(d, x)`
has the normalised Legendre polynomial as its derivative, hence these derivatives are orthonormal. -/
theorem lobatto_shape_derivative_partial (d : Nat) (hd : d < 10) (h5 : d ≠ 5) (x : ℝ) :
    HasDerivAt (fun x => (1 - x ^ 2) / 4 * lobatto d x)
      (√((2 * d + 3) / 2) * legendre (d + 1) x) x := by
  have e : (fun x => (1 - x ^ 2) / 4 * lobatto d x) = fun x => (1 - x ^ 2) / 4 *
      (-4 / (((d : ℝ) + 2) * (d + 1)) * √((2 * d + 3) / 2) * legendreDeriv (d + 1) x) := by
    funext y
    rw [lobatto_is_scaled_derivative_partial d hd h5, ← legendreDeriv_eq]
  rw [e]
  exact shape_deriv d _ x

/-- C24. Orthonormality of those derivatives. -/
theorem lobatto_shapes_orthonormal (d e : Nat) :
    ∫ x in (-1 : ℝ)..1, (√((2 * d + 3) / 2) * legendre (d + 1) x) *
      (√((2 * e + 3) / 2) * legendre (e + 1) x) = if d = e then 1 else 0 := by
  have h : (fun x => (√((2 * (d : ℝ) + 3) / 2) * legendre (d + 1) x) *
      (√((2 * (e : ℝ) + 3) / 2) * legendre (e + 1) x)) =
      fun x => (√((2 * (d : ℝ) + 3) / 2) * √((2 * (e : ℝ) + 3) / 2)) *
        (legendre (d + 1) x * legendre (e + 1) x) := by
    funext x; ring
  rw [h, intervalIntegral.integral_const_mul, legendre_orthogonal]
  by_cases hde : d = e
  · subst hde
    rw [if_pos rfl, if_pos rfl, Real.mul_self_sqrt (by positivity)]
    have : (2 * (d : ℝ) + 3) ≠ 0 := by positivity
    have h2 : (2 * ((d + 1 : Nat) : ℝ) + 1) = 2 * d + 3 := by push_cast; ring
    rw [h2]; field_simp
  · rw [if_neg (by omega), if_neg hde, mul_zero]

example : HasDerivAt (fun x => (1 - x ^ 2) / 4 * lobatto 3 x) (√(9 / 2) * legendre 4 2) 2 := by
  have := lobatto_shape_derivative_partial 3 (by norm_num) (by norm_num) 2
  norm_num at this ⊢
  exact this

/-- C24 fails for degree 5: the closed form agrees with the scaled Legendre derivative only at
`-1`, `0` and `1` (a misplaced parenthesis, helperFunctions.cpp:64). -/
theorem lobatto_five_wrong (x : ℝ) :
    lobatto 5 x = -4 / (((5 : ℕ) + 2 : ℝ) * ((5 : ℕ) + 1)) * √((2 * (5 : ℕ) + 3) / 2) *
      (derivative (rodrigues 6)).eval x ↔ x = 0 ∨ x = 1 ∨ x = -1 := by
  rw [← legendreDeriv_eq, d_6]
  have hs : (√(13 / 2) : ℝ) ≠ 0 := by positivity
  have hl : lobatto 5 x = √(13 / 2) * ((3 * x ^ 2 + 5) * x / -4) := by
    simp only [lobatto]; ring
  have e : (-4 / (((5 : ℕ) + 2 : ℝ) * ((5 : ℕ) + 1)) * √((2 * (5 : ℕ) + 3) / 2) *
      ((693 * x ^ 5 - 630 * x ^ 3 + 105 * x) / 8)) =
      √(13 / 2) * ((33 * x ^ 4 - 30 * x ^ 2 + 5) * x / -4) := by
    norm_num; ring
  rw [hl, e, mul_right_inj' hs]
  constructor
  · intro h
    have h' : x ^ 3 * ((x - 1) * (x + 1)) = 0 := by linarith [h, show (33 * x ^ 4 - 30 * x ^ 2 + 5) * x - (3 * x ^ 2 + 5) * x = 33 * (x ^ 3 * ((x - 1) * (x + 1))) by ring]
    rcases mul_eq_zero.mp h' with h0 | h0
    · left; exact pow_eq_zero_iff (by norm_num) |>.mp h0
    · rcases mul_eq_zero.mp h0 with h1 | h1
      · right; left; linarith
      · right; right; linarith
  · rintro (rfl | rfl | rfl) <;> norm_num

/-- C24 fails for every degree from 10 on: the scaling is missing there. -/
theorem lobatto_high_wrong (d : Nat) (hd : 10 ≤ d) :
    lobatto d 1 ≠ -4 / (((d : ℝ) + 2) * (d + 1)) * √((2 * d + 3) / 2) *
      (derivative (rodrigues (d + 1))).eval 1 := by
  obtain ⟨n, rfl⟩ : ∃ n, d = n + 10 := ⟨d - 10, by omega⟩
  rw [← legendreDeriv_eq]
  have h1 := legendreDeriv_one (n + 10 + 1)
  have hpos : 0 < legendreDeriv (n + 10 + 1) 1 := by
    have : (0 : ℝ) < ((n + 10 + 1 : Nat) : ℝ) * (((n + 10 + 1 : Nat) : ℝ) + 1) := by positivity
    linarith
  have hlob : lobatto (n + 10) 1 = legendreDeriv (n + 10 + 1) 1 := rfl
  rw [hlob]
  have hneg : -4 / ((((n + 10 : Nat) : ℝ) + 2) * (((n + 10 : Nat) : ℝ) + 1)) *
      √((2 * ((n + 10 : Nat) : ℝ) + 3) / 2) ≤ 0 := by
    apply mul_nonpos_of_nonpos_of_nonneg
    · apply div_nonpos_of_nonpos_of_nonneg (by norm_num) (by positivity)
    · exact Real.sqrt_nonneg _
  have := mul_nonpos_of_nonpos_of_nonneg hneg hpos.le
  linarith

/-- C24. `LobattoPolynomialDerivative` is the derivative of `LobattoPolynomial` for every degree it
supports, and it rejects every other degree. -/
theorem lobattoDeriv_is_derivative (d : Nat) (x : ℝ) :
    (d < 4 → ∃ v, lobattoDeriv d x = some v ∧ HasDerivAt (fun y => lobatto d y) v x) ∧
    (4 ≤ d → lobattoDeriv d x = none) := by
  constructor
  · intro hd
    have poly : ∀ (p : ℝ[X]) (f : ℝ → ℝ) (v : ℝ), (∀ y, f y = p.eval y) → v = (derivative p).eval x →
        HasDerivAt f v x := by
      intro p f v hf hv
      rw [show f = fun y => p.eval y from funext hf, hv]
      exact p.hasDerivAt x
    have h : d = 0 ∨ d = 1 ∨ d = 2 ∨ d = 3 := by omega
    rcases h with rfl | rfl | rfl | rfl
    · refine ⟨_, rfl, poly (C (√(3 / 2) * -2)) _ _ (fun y => by simp [lobatto]) (by simp)⟩
    · refine ⟨_, rfl, poly (C (√(5 / 2) * -2) * X) _ _ (fun y => by simp [lobatto]; ring)
        (by simp; ring)⟩
    · refine ⟨_, rfl, poly (C (√(7 / 2) / -2) * (C 5 * X ^ 2 - 1)) _ _
        (fun y => by simp [lobatto]; ring) (by simp; ring)⟩
    · refine ⟨_, rfl, poly (C (√(9 / 2) / -2) * (C 7 * X ^ 3 - C 3 * X)) _ _
        (fun y => by simp [lobatto]; ring) (by simp; ring)⟩
  · intro hd
    obtain ⟨n, rfl⟩ : ∃ n, d = n + 4 := ⟨d - 4, by omega⟩
    rfl

example : lobattoDeriv 2 3 = some (-2 * √(7 / 2) * (2.5 * 3)) := rfl

end Verif.Legendre
