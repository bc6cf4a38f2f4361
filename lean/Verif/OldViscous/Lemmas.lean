import Verif.OldViscous.Spec
import Mathlib.Tactic.Ring
import Mathlib.Tactic.FieldSimp
import Mathlib.Tactic.NormNum
import Mathlib.Tactic.LinearCombination
import Mathlib.Analysis.Calculus.Deriv.Mul

set_option linter.all false

namespace Verif.OldViscous

open scoped BigOperators

variable {d : ℕ}

theorem d10 : (1.0 : ℝ) = 1 := by norm_num
theorem d20 : (2.0 : ℝ) = 2 := by norm_num
theorem d30 : (3.0 : ℝ) = 3 := by norm_num
theorem d40 : (4.0 : ℝ) = 4 := by norm_num

theorem partial_mul {f g : (Fin d → ℝ) → ℝ} {c e : ℝ} {x : Fin d → ℝ} {b : Fin d} (hf : Partial f c x b)
    (hg : Partial g e x b) : Partial (fun y => f y * g y) (c * g x + f x * e) x b := by
  have := HasDerivAt.mul (𝔸 := ℝ) hf hg
  simp only [zero_smul, add_zero] at this
  exact this

theorem partial_unique {f : (Fin d → ℝ) → ℝ} {c e : ℝ} {x : Fin d → ℝ} {b : Fin d} (h : Partial f c x b)
    (h' : Partial f e x b) : c = e := HasDerivAt.unique h h'

/-- Off the diagonal both orders have the same formula. -/
theorem block_ne (theta : ℝ) (p : Prim d) (mu : ℝ) {a b : Fin d} (h : a ≠ b) :
    block theta p mu a b = upper p mu a b := by
  unfold block
  rw [if_neg h]
  split
  · rfl
  · funext v w
    have h' : b ≠ a := Ne.symm h
    cases v <;> cases w <;> simp only [lower, upper]
    · rename_i k
      by_cases h1 : k = a <;> by_cases h2 : k = b <;> simp_all
    · rename_i k l
      by_cases h1 : k = a <;> by_cases h2 : k = b <;> simp_all
    · exact mul_right_comm _ _ _
    · rename_i k
      by_cases h1 : k = a <;> by_cases h2 : k = b <;> simp_all

theorem sum_split (f : Fin d → ℝ) (a : Fin d) : ∑ b, f b = f a + ∑ b ∈ Finset.univ.erase a, f b :=
  (Finset.add_sum_erase _ _ (Finset.mem_univ a)).symm

theorem fast_naive {g : Gas} {p : Prim d} {mu : ℝ} {t} (ht : tensor g p mu = some t) (m : Var d → Fin d → ℝ) :
    fast t m = naive t m := by
  unfold tensor at ht
  split at ht
  · simp at ht
  simp only [Option.some.injEq] at ht
  funext v a
  cases v with
  | rho =>
    simp only [fast, naive, sumVar]
    symm
    apply Finset.sum_eq_zero
    intro b _
    have : ∀ w, t a b .rho w = 0 := by
      intro w
      rw [← ht]
      by_cases h : a = b
      · subst h
        cases w <;> simp [block, diagonal]
      · simp only [block_ne _ _ _ h]
        cases w <;> simp [upper]
    simp [this]
  | en => 
    simp only [fast, naive]
    rw [sum_split _ a]
  | mom k =>
    simp only [fast, naive]
    rw [sum_split _ a]
    congr 1
    · have h0 : t a a (.mom k) .en = 0 := by rw [← ht]; simp [block, diagonal]
      have h1 : ∀ l, l ≠ k → t a a (.mom k) (.mom l) = 0 := by
        intro l hl; rw [← ht]; simp [block, diagonal, Ne.symm hl]
      simp only [sumVar, h0, zero_mul, add_zero]
      rw [Finset.sum_eq_single k]
      · intro l _ hl; rw [h1 l hl, zero_mul]
      · simp
    · apply Finset.sum_congr rfl
      intro b hb
      have hb' : b ≠ a := Finset.ne_of_mem_erase hb
      have hab : a ≠ b := Ne.symm hb'
      have h0 : t a b (.mom k) .en = 0 := by rw [← ht]; simp [block_ne _ _ _ hab, upper]
      by_cases hka : k = a
      · subst hka
        have h1 : ∀ l, l ≠ b → t k b (.mom k) (.mom l) = 0 := by
          intro l hl; rw [← ht]; simp [block_ne _ _ _ hab, upper, hl, hab]
        simp only [sumVar, h0, zero_mul, add_zero, if_true, if_neg hab]
        rw [Finset.sum_eq_single b]
        · intro l _ hl; rw [h1 l hl, zero_mul]
        · simp
      · by_cases hkb : k = b
        · subst hkb
          have h1 : ∀ l, l ≠ a → t a k (.mom k) (.mom l) = 0 := by
            intro l hl; rw [← ht]; simp [block_ne _ _ _ hab, upper, hl, hka]
          simp only [sumVar, h0, zero_mul, add_zero, if_true, if_neg hka, zero_add]
          rw [Finset.sum_eq_single a]
          · intro l _ hl; rw [h1 l hl, zero_mul]
          · simp
        · have h1 : ∀ w, t a b (.mom k) w = 0 := by
            intro w; rw [← ht]; cases w <;> simp [block_ne _ _ _ hab, upper, hka, hkb]
          simp [sumVar, h1, hka, hkb]

/-- The gradient of the conserved variables, by the product rule. -/
def grad (p : Prim d) (dr : Fin d → ℝ) (du : Fin d → Fin d → ℝ) (de : Fin d → ℝ) : Var d → Fin d → ℝ
  | .rho, b => dr b
  | .mom k, b => dr b * p.u k + p.rho * du k b
  | .en, b => dr b * p.en + p.rho * de b

theorem grad_of_flow {f : Flow d} {x : Fin d → ℝ} {dr : Fin d → ℝ} {du : Fin d → Fin d → ℝ} {de : Fin d → ℝ}
    {m : Var d → Fin d → ℝ} (hr : ∀ b, Partial f.rho (dr b) x b) (hu : ∀ k b, Partial (f.u k) (du k b) x b)
    (he : ∀ b, Partial f.en (de b) x b) (hm : ∀ v b, Partial (f.conserved v) (m v b) x b) :
    m = grad (f.at x) dr du de := by
  funext v b
  cases v with
  | rho => exact partial_unique (hm _ _) (hr b)
  | mom k => exact partial_unique (hm _ _) (partial_mul (hr b) (hu k b))
  | en => exact partial_unique (hm _ _) (partial_mul (hr b) (he b))

theorem mom_eq {g : Gas} {p : Prim d} {mu : ℝ} {t} (ht : tensor g p mu = some t) (dr : Fin d → ℝ)
    (du : Fin d → Fin d → ℝ) (de : Fin d → ℝ) (k a : Fin d) :
    fast t (grad p dr du de) (.mom k) a = g.reynolds * stress mu du k a := by
  unfold tensor at ht
  split at ht
  · simp at ht
  rename_i hne
  push Not at hne
  obtain ⟨hrho, -⟩ := hne
  simp only [Option.some.injEq] at ht
  simp only [fast, stress]
  by_cases hka : k = a
  · subst hka
    have h1 : ∀ b ∈ Finset.univ.erase k,
        ((if k = k then t k b (.mom k) .rho * grad p dr du de .rho b
            + t k b (.mom k) (.mom b) * grad p dr du de (.mom b) b else 0)
          + (if k = b then t k b (.mom b) .rho * grad p dr du de .rho b
            + t k b (.mom b) (.mom k) * grad p dr du de (.mom k) b else 0))
        = g.reynolds * (-(2 / 3) * mu) * du b b := by
      intro b hb
      have hb' : b ≠ k := Finset.ne_of_mem_erase hb
      have hab : k ≠ b := Ne.symm hb'
      rw [if_pos rfl, if_neg hab, ← ht]
      simp only [block_ne _ _ _ hab, upper, d10, d20, d30, d40, grad, if_true, and_self]
      field_simp
      ring
    rw [Finset.sum_congr rfl h1, ← Finset.mul_sum, if_pos rfl, sum_split (fun b => du b b) k, ← ht]
    simp only [block, diagonal, dominant, d10, d20, d30, d40, grad, if_true]
    field_simp
    ring
  · have hak : a ≠ k := Ne.symm hka
    have h1 : ∀ b ∈ Finset.univ.erase a,
        ((if k = a then t a b (.mom a) .rho * grad p dr du de .rho b
            + t a b (.mom a) (.mom b) * grad p dr du de (.mom b) b else 0)
          + (if k = b then t a b (.mom b) .rho * grad p dr du de .rho b
            + t a b (.mom b) (.mom a) * grad p dr du de (.mom a) b else 0))
        = if k = b then g.reynolds * (mu * du a k) else 0 := by
      intro b hb
      rw [if_neg hka, zero_add]
      by_cases h : k = b
      · subst h
        rw [if_pos rfl, if_pos rfl, ← ht]
        simp only [block_ne _ _ _ hak, upper, d10, d20, d30, d40, grad, if_true, and_self, hka, if_false, false_and]
        field_simp
        ring
      · simp [h]
    rw [Finset.sum_congr rfl h1, Finset.sum_ite_eq, if_pos (by simp [hka]), if_neg hka, ← ht]
    simp only [block, diagonal, dominant, d10, d20, d30, d40, grad, if_true, hka, if_false]
    field_simp
    ring

theorem en_eq {g : Gas} {p : Prim d} {mu : ℝ} {t} (ht : tensor g p mu = some t) (dr : Fin d → ℝ)
    (du : Fin d → Fin d → ℝ) (de : Fin d → ℝ) (a : Fin d) :
    fast t (grad p dr du de) .en a = g.reynolds * ((∑ k, stress mu du k a * p.u k)
      + g.gamma / g.prandtl * (de a - ∑ k, p.u k * du k a)
      + (mu - 1) / 3 * (p.u a) ^ 2 * dr a / p.rho) := by
  unfold tensor at ht
  split at ht
  · simp at ht
  rename_i hne
  push Not at hne
  obtain ⟨hrho, -⟩ := hne
  simp only [Option.some.injEq] at ht
  generalize g.gamma / g.prandtl = th at *
  simp only [fast]
  have h1 : ∀ b ∈ Finset.univ.erase a, sumVar (fun w => t a b .en w * grad p dr du de w b)
      = g.reynolds * (-(2 / 3) * mu * p.u a * du b b + mu * p.u b * du a b) := by
    intro b hb
    have hb' : b ≠ a := Finset.ne_of_mem_erase hb
    have hab : a ≠ b := Ne.symm hb'
    have h2 : ∀ i, t a b .en (.mom i) * grad p dr du de (.mom i) b
        = (if i = b then g.reynolds * (-(2/3) * mu * p.u a / p.rho) * (dr b * p.u b + p.rho * du b b) else 0)
          + (if i = a then g.reynolds * (mu * p.u b / p.rho) * (dr b * p.u a + p.rho * du a b) else 0) := by
      intro i
      rw [← ht]
      simp only [block_ne _ _ _ hab, upper, d10, d20, d30, d40, grad]
      by_cases hib : i = b
      · subst hib
        simp only [if_true, hb', if_false, add_zero]
        field_simp
      · by_cases hia : i = a
        · subst hia
          simp only [if_true, hab, if_false, zero_add]
          field_simp
        · simp [hib, hia]
    simp only [sumVar, h2, Finset.sum_add_distrib, Finset.sum_ite_eq', Finset.mem_univ, if_true]
    rw [← ht]
    simp only [block_ne _ _ _ hab, upper, d10, d20, d30, d40, grad]
    field_simp
    ring
  rw [Finset.sum_congr rfl h1]
  have h3 : sumVar (fun w => t a a .en w * grad p dr du de w a)
      = g.reynolds * ((mu * ∑ k, p.u k * du k a) + mu / 3 * p.u a * du a a
        + th * (de a - ∑ k, p.u k * du k a) + (mu - 1) / 3 * (p.u a) ^ 2 * dr a / p.rho) := by
    have h4 : ∀ i, t a a .en (.mom i) * grad p dr du de (.mom i) a
        = g.reynolds * ((mu - th) * dr a / p.rho) * (p.u i * p.u i)
          + g.reynolds * (mu - th) * (p.u i * du i a)
          + (if i = a then g.reynolds * (mu / 3 * p.u a / p.rho) * (dr a * p.u a + p.rho * du a a) else 0) := by
      intro i
      rw [← ht]
      simp only [block, diagonal, dominant, d10, d20, d30, d40, grad, if_true]
      by_cases hia : i = a
      · subst hia
        simp only [if_true]
        field_simp
        ring
      · simp only [hia, if_false]
        field_simp
        ring
    simp only [sumVar, h4, Finset.sum_add_distrib, Finset.sum_ite_eq', Finset.mem_univ, if_true,
      ← Finset.mul_sum]
    rw [← ht]
    simp only [block, diagonal, d10, d20, d30, d40, grad, if_true, speed2]
    field_simp
    ring
  rw [h3]
  have h5 : ∑ k, stress mu du k a * p.u k
      = (mu * ∑ k, p.u k * du k a) + (mu * ∑ k, p.u k * du a k) - 2 / 3 * mu * (∑ b, du b b) * p.u a := by
    have : ∀ k, stress mu du k a * p.u k = mu * (p.u k * du k a) + mu * (p.u k * du a k)
        - (if k = a then 2 / 3 * mu * (∑ b, du b b) * p.u a else 0) := by
      intro k
      unfold stress
      by_cases hka : k = a
      · subst hka; simp only [if_true]; ring
      · simp only [hka, if_false]; ring
    simp only [this, Finset.sum_sub_distrib, Finset.sum_add_distrib, Finset.sum_ite_eq', Finset.mem_univ, if_true,
      ← Finset.mul_sum]
  rw [h5, sum_split (fun k => p.u k * du a k) a, sum_split (fun b => du b b) a, ← Finset.mul_sum,
    Finset.sum_add_distrib, ← Finset.mul_sum]
  simp only [mul_assoc, ← Finset.mul_sum]
  ring

end Verif.OldViscous
