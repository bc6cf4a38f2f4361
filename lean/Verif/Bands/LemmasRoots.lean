import Verif.Bands.BraggModel
import Mathlib.Topology.Order.IntermediateValue
import Mathlib.Topology.Instances.Real.Lemmas
import Mathlib.Tactic.LinearCombination

set_option linter.all false

/-! # Helpers about the search for roots -/
namespace Verif.Bands.Bragg

open Set

theorem bisectLoop_some (f : ℝ → ℝ) (tol : ℝ) : ∀ (n : Nat) (l r fl fr : ℝ), l ≤ r → r - l ≤ tol * 2 ^ n →
    ∃ x, bisectLoop f tol l r fl fr = some x ∧ x ∈ Icc l r
  | 0, l, r, fl, fr, hlr, h => by
    refine ⟨(l + r) / 2, ?_, by constructor <;> linarith⟩
    rw [bisectLoop, if_neg]
    rw [abs_of_nonneg (by linarith)]
    simp at h
    linarith
  | n + 1, l, r, fl, fr, hlr, h => by
    rw [pow_succ] at h
    rw [bisectLoop]
    split
    · split
      · obtain ⟨x, e, hx⟩ := bisectLoop_some f tol n l ((l + r) / 2) fl (f ((l + r) / 2)) (by linarith) (by linarith)
        exact ⟨x, e, hx.1, by have := hx.2; linarith⟩
      · split
        · obtain ⟨x, e, hx⟩ := bisectLoop_some f tol n ((l + r) / 2) r (f ((l + r) / 2)) fr (by linarith) (by linarith)
          exact ⟨x, e, by have := hx.1; linarith, hx.2⟩
        · exact ⟨_, rfl, by constructor <;> linarith⟩
    · exact ⟨_, rfl, by constructor <;> linarith⟩

theorem exists_pow (tol x : ℝ) (ht : 0 < tol) : ∃ n : Nat, x ≤ tol * 2 ^ n := by
  obtain ⟨n, hn⟩ := pow_unbounded_of_one_lt (x / tol) (one_lt_two)
  refine ⟨n, ?_⟩
  rw [div_lt_iff₀ ht] at hn
  linarith

theorem bisect_some (f : ℝ → ℝ) (l r tol : ℝ) (ht : 0 < tol) (hlr : l ≤ r) :
    ∃ x, bisect f l r tol = some x ∧ x ∈ Icc l r := by
  obtain ⟨n, hn⟩ := exists_pow tol (r - l) ht
  exact bisectLoop_some f tol n l r _ _ hlr hn

theorem crossing (f : ℝ → ℝ) (l r : ℝ) (hlr : l ≤ r) (hf : ContinuousOn f (Icc l r)) (h : f l * f r < 0) :
    ∃ x ∈ Icc l r, f x = 0 := by
  rcases mul_neg_iff.1 h with ⟨a, b⟩ | ⟨a, b⟩
  · exact intermediate_value_Icc' hlr hf ⟨b.le, a.le⟩
  · exact intermediate_value_Icc hlr hf ⟨a.le, b.le⟩

theorem bisectLoop_root (f : ℝ → ℝ) (tol : ℝ) : ∀ (n : Nat) (l r : ℝ), l ≤ r → r - l ≤ tol * 2 ^ n →
    ContinuousOn f (Icc l r) → f l * f r < 0 → ∀ y, bisectLoop f tol l r (f l) (f r) = some y → 0 ≤ tol →
    ∃ x ∈ Icc l r, f x = 0 ∧ |y - x| ≤ tol / 2 := by
  intro n
  induction n with
  | zero =>
    intro l r hlr h hc hs y hy ht
    rw [bisectLoop, if_neg (by rw [abs_of_nonneg (by linarith)]; simp at h; linarith)] at hy
    obtain ⟨x, hx, h0⟩ := crossing f l r hlr hc hs
    refine ⟨x, hx, h0, ?_⟩
    rw [← Option.some.inj hy, abs_le]
    have := hx.1
    have := hx.2
    simp at h
    constructor <;> linarith
  | succ n ih =>
    intro l r hlr h hc hs y hy ht
    rw [pow_succ] at h
    rw [bisectLoop] at hy
    split at hy
    · split at hy
      · rename_i hlt
        obtain ⟨x, hx, h0, hd⟩ := ih l ((l + r) / 2) (by linarith) (by linarith)
          (hc.mono (Icc_subset_Icc le_rfl (by linarith))) (by linarith) y hy ht
        exact ⟨x, ⟨hx.1, by have := hx.2; linarith⟩, h0, hd⟩
      · split at hy
        · rename_i hlt
          obtain ⟨x, hx, h0, hd⟩ := ih ((l + r) / 2) r (by linarith) (by linarith)
            (hc.mono (Icc_subset_Icc (by linarith) le_rfl)) (by linarith) y hy ht
          exact ⟨x, ⟨by have := hx.1; linarith, hx.2⟩, h0, hd⟩
        · rename_i h1 h2
          refine ⟨(l + r) / 2, ⟨by linarith, by linarith⟩, ?_, ?_⟩
          · push Not at h1 h2
            by_contra h0
            have h3 : 0 < f ((l + r) / 2) ^ 2 := by positivity
            have h4 : 0 ≤ (f ((l + r) / 2) * f l) * (f ((l + r) / 2) * f r) := mul_nonneg h1 h2
            have h5 : (f ((l + r) / 2) * f l) * (f ((l + r) / 2) * f r) = f ((l + r) / 2) ^ 2 * (f l * f r) := by ring
            have h6 := mul_neg_of_pos_of_neg h3 hs
            linarith
          · rw [← Option.some.inj hy]
            simp
            linarith
    · rename_i hn
      obtain ⟨x, hx, h0⟩ := crossing f l r hlr hc hs
      refine ⟨x, hx, h0, ?_⟩
      rw [← Option.some.inj hy, abs_le]
      have := hx.1
      have := hx.2
      rw [abs_of_nonneg (by linarith)] at hn
      constructor <;> linarith

/-- The inverse of the golden ratio. -/
noncomputable def g : ℝ := (√5 - 1) / 2

theorem div_phi (x : ℝ) : x / phi = x * g := by
  have h5 : √5 * √5 = 5 := Real.mul_self_sqrt (by norm_num)
  have hp : 0 < phi := by rw [phi]; positivity
  rw [div_eq_iff hp.ne', g, phi]
  linear_combination -x / 4 * h5

theorem g_sq : g * g = 1 - g := by
  have h5 : √5 * √5 = 5 := Real.mul_self_sqrt (by norm_num)
  rw [g]
  linear_combination 1 / 4 * h5

theorem g_gt : 6180 / 10000 < g := by
  have : 2.236 < √5 := Real.lt_sqrt_of_sq_lt (by norm_num)
  rw [g]; linarith

theorem g_lt : g < 6181 / 10000 := by
  have : √5 < 2.2362 := (Real.sqrt_lt' (by norm_num)).2 (by norm_num)
  rw [g]; linarith

/-- The search ends, all it adds lies in the interval, and unless there was a negative value what it adds is close to a
point of the interval with a small value. -/
theorem goldenLoop_some (f : ℝ → ℝ) (n : Nat) : ∀ (a b c d fb fc fd : ℝ), a ≤ b → b - a ≤ 1 / 10 ^ 8 * (1 / g) ^ n →
    c = b - (b - a) * g → d = a + (b - a) * g → fc = f c → fd = f d →
    ∃ l, goldenLoop f a b c d (f a) fb fc fd = some l ∧ (∀ x ∈ l, x ∈ Icc a b) ∧
      ((∀ x ∈ Icc a b, 0 ≤ f x) → ∀ x ∈ l, ∃ y ∈ Icc a b, |f y| < 1 / 10 ^ 8 ∧ |x - y| ≤ 3 / 10 ^ 8) := by
  have g1 := g_gt
  have g2 := g_lt
  have g0 : 0 < g := by linarith
  have last : ∀ (a b c d fb fc fd : ℝ), a ≤ b → c = b - (b - a) * g → d = a + (b - a) * g → ¬ |c - d| > 1 / 10 ^ 8 →
      ∃ l, goldenLoop f a b c d (f a) fb fc fd = some l ∧ (∀ x ∈ l, x ∈ Icc a b) ∧
        ((∀ x ∈ Icc a b, 0 ≤ f x) → ∀ x ∈ l, ∃ y ∈ Icc a b, |f y| < 1 / 10 ^ 8 ∧ |x - y| ≤ 3 / 10 ^ 8) := by
    intro a b c d fb fc fd hab hc hd hn
    rw [goldenLoop, if_neg hn]
    split
    · rename_i hfa
      refine ⟨_, rfl, ?_, ?_⟩
      · intro x hx
        simp only [List.mem_cons, List.not_mem_nil, or_false, or_self] at hx
        rw [hx]
        constructor <;> linarith
      · intro _ x hx
        simp only [List.mem_cons, List.not_mem_nil, or_false, or_self] at hx
        refine ⟨a, ⟨le_rfl, hab⟩, hfa, ?_⟩
        have e : c - d = -((b - a) * (2 * g - 1)) := by rw [hc, hd]; ring
        have hbd : (b - a) * (2 * g - 1) ≤ 1 / 10 ^ 8 := by
          rw [e, abs_neg, abs_of_nonneg (mul_nonneg (by linarith) (by linarith))] at hn
          linarith
        have : (b - a) * (236 / 1000) ≤ (b - a) * (2 * g - 1) := mul_le_mul_of_nonneg_left (by linarith) (by linarith)
        rw [hx, abs_of_nonneg (by linarith)]
        linarith
    · exact ⟨_, rfl, by simp, by simp⟩
  induction n with
  | zero =>
    intro a b c d fb fc fd hab hlen hc hd hfc hfd
    refine last a b c d fb fc fd hab hc hd ?_
    have e : c - d = -((b - a) * (2 * g - 1)) := by rw [hc, hd]; ring
    rw [e, abs_neg, abs_of_nonneg (mul_nonneg (by linarith) (by linarith))]
    have : (b - a) * (2 * g - 1) ≤ (b - a) * 1 := mul_le_mul_of_nonneg_left (by linarith) (by linarith)
    rw [pow_zero] at hlen
    linarith
  | succ n ih =>
    intro a b c d fb fc fd hab hlen hc hd hfc hfd
    by_cases hcd : |c - d| > 1 / 10 ^ 8
    · have hba : 0 ≤ b - a := by linarith
      have hca : a ≤ c := by rw [hc]; nlinarith
      have hcb : c ≤ b := by rw [hc]; nlinarith
      have hda : a ≤ d := by rw [hd]; nlinarith
      have hdb : d ≤ b := by rw [hd]; nlinarith
      have hlen' : (b - a) * g ≤ 1 / 10 ^ 8 * (1 / g) ^ n := by
        have := mul_le_mul_of_nonneg_right hlen g0.le
        refine this.trans (le_of_eq ?_)
        rw [pow_succ (1 / g) n, mul_assoc, mul_assoc, one_div_mul_cancel g0.ne', mul_one]
      rw [goldenLoop, if_pos hcd]
      split
      · rw [div_phi]
        have hm1 : a ≤ d - (d - a) * g := by nlinarith
        have hm2 : d - (d - a) * g ≤ d := by nlinarith
        split
        · rename_i hneg
          obtain ⟨x, ex, hx⟩ := bisect_some f a (d - (d - a) * g) (1 / 10 ^ 8) (by norm_num) hm1
          obtain ⟨y, ey, hy⟩ := bisect_some f (d - (d - a) * g) d (1 / 10 ^ 8) (by norm_num) hm2
          refine ⟨[x, y], ?_, ?_, ?_⟩
          · rw [ex, Option.bind_some, ey, Option.bind_some]
          · intro z hz
            simp only [List.mem_cons, List.not_mem_nil, or_false] at hz
            rcases hz with rfl | rfl
            · exact ⟨hx.1, by linarith [hx.2]⟩
            · exact ⟨by linarith [hy.1], by linarith [hy.2]⟩
          · intro hpos
            exact absurd (hpos _ ⟨hm1, by linarith⟩) (not_le.2 hneg)
        · obtain ⟨l, el, hl1, hl2⟩ := ih a d (d - (d - a) * g) c fd (f (d - (d - a) * g)) fc hda (by
            rw [hd]; linarith) rfl (by rw [hc, hd]; linear_combination (a - b) * g_sq) rfl hfc
          refine ⟨l, el, fun x hx => ⟨(hl1 x hx).1, by linarith [(hl1 x hx).2]⟩, ?_⟩
          intro hpos x hx
          obtain ⟨y, hy, h⟩ := hl2 (fun z hz => hpos z ⟨hz.1, by linarith [hz.2]⟩) x hx
          exact ⟨y, ⟨hy.1, by linarith [hy.2]⟩, h⟩
      · rw [div_phi]
        have hm1 : c ≤ c + (b - c) * g := by nlinarith
        have hm2 : c + (b - c) * g ≤ b := by nlinarith
        split
        · rename_i hneg
          obtain ⟨x, ex, hx⟩ := bisect_some f c (c + (b - c) * g) (1 / 10 ^ 8) (by norm_num) hm1
          obtain ⟨y, ey, hy⟩ := bisect_some f (c + (b - c) * g) b (1 / 10 ^ 8) (by norm_num) hm2
          refine ⟨[x, y], ?_, ?_, ?_⟩
          · rw [ex, Option.bind_some, ey, Option.bind_some]
          · intro z hz
            simp only [List.mem_cons, List.not_mem_nil, or_false] at hz
            rcases hz with rfl | rfl
            · exact ⟨by linarith [hx.1], by linarith [hx.2]⟩
            · exact ⟨by linarith [hy.1], by linarith [hy.2]⟩
          · intro hpos
            exact absurd (hpos _ ⟨by linarith, hm2⟩) (not_le.2 hneg)
        · rw [hfc]
          obtain ⟨l, el, hl1, hl2⟩ := ih c b d (c + (b - c) * g) fb fd (f (c + (b - c) * g)) hcb (by
            rw [hc]; linarith) (by rw [hc, hd]; linear_combination (b - a) * g_sq) rfl hfd rfl
          refine ⟨l, el, fun x hx => ⟨by linarith [(hl1 x hx).1], (hl1 x hx).2⟩, ?_⟩
          intro hpos x hx
          obtain ⟨y, hy, h⟩ := hl2 (fun z hz => hpos z ⟨by linarith [hz.1], hz.2⟩) x hx
          exact ⟨y, ⟨by linarith [hy.1], hy.2⟩, h⟩
    · exact last a b c d fb fc fd hab hc hd hcd

end Verif.Bands.Bragg
