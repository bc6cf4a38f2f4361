import Verif.Bands.LemmasRoots
import Verif.Bands.PropsBragg
import Mathlib.Analysis.SpecialFunctions.Trigonometric.Bounds
import Mathlib.Analysis.Real.Pi.Bounds
import Mathlib.Tactic.IntervalCases

set_option linter.all false

/-! # Roots for Bragg stacks (C123) -/
namespace Verif.Bands.Bragg

open Set

/-! ## C123 -/

/-- **C123**. For every function that is continuous on an interval and has values of different sign at its ends,
bisection ends with a number within half the tolerance of a root. -/
theorem bisect_root (f : ℝ → ℝ) (left right tol : ℝ) (ht : 0 < tol) (hlr : left ≤ right)
    (hf : ContinuousOn f (Icc left right)) (h : f left * f right < 0) :
    ∃ r, bisect f left right tol = some r ∧ ∃ x ∈ Icc left right, f x = 0 ∧ |r - x| ≤ tol / 2 := by
  obtain ⟨r, hr, _⟩ := bisect_some f left right tol ht hlr
  obtain ⟨n, hn⟩ := exists_pow tol (right - left) ht
  exact ⟨r, hr, bisectLoop_root f tol n left right hlr hn hf h r hr ht.le⟩

theorem golden_some (f : ℝ → ℝ) (omin omax fb : ℝ) (h : omin ≤ omax) :
    ∃ l, golden f omin omax (f omin) fb = some l ∧ (∀ x ∈ l, x ∈ Icc omin omax) ∧
      ((∀ x ∈ Icc omin omax, 0 ≤ f x) → ∀ x ∈ l, ∃ y ∈ Icc omin omax, |f y| < 1 / 10 ^ 8 ∧ |x - y| ≤ 3 / 10 ^ 8) := by
  rw [golden]
  split
  · exact ⟨[], rfl, by simp, by simp⟩
  · have g1 := g_gt
    have g2 := g_lt
    obtain ⟨n, hn⟩ := pow_unbounded_of_one_lt ((omax - omin) * 10 ^ 8) (show 1 < 1 / g by
      rw [lt_div_iff₀ (by linarith)]; linarith)
    rw [div_phi]
    exact goldenLoop_some f n omin omax _ _ fb _ _ h (by linarith) rfl rfl rfl rfl

/-- The interval, in all cases. -/
theorem interval_some (f : ℝ → ℝ) (omin omax : ℝ) (h : omin ≤ omax) :
    ∃ l, findRootsInterval f omin omax = some l ∧ (∀ x ∈ l, x ∈ Icc omin omax) := by
  rw [findRootsInterval]
  split
  · exact ⟨_, rfl, by simp [h]⟩
  · split
    · obtain ⟨x, e, hx⟩ := bisect_some f omin omax (1 / 10 ^ 8) (by norm_num) h
      exact ⟨[x], by rw [e]; rfl, by simpa using hx⟩
    · split
      · obtain ⟨l, e, h1, _⟩ := golden_some (fun o => sign (f omin) * f o) omin omax (sign (f omin) * f omax) h
        exact ⟨l, e, h1⟩
      · exact ⟨_, rfl, by simp⟩

/-- Where it is clear what the roots are: the left end nearly is one, the values at the ends have different signs, or
all values have the same sign. -/
def Clear (f : ℝ → ℝ) (omin omax : ℝ) : Prop :=
  |f omin| < 1 / 10 ^ 8 ∨ (f omin * f omax < 0 ∧ 1 / 10 ^ 8 < |f omax|) ∨ ∀ x ∈ Icc omin omax, 0 < f omin * f x

theorem interval_sound (f : ℝ → ℝ) (omin omax : ℝ) (h : omin ≤ omax) (hf : ContinuousOn f (Icc omin omax))
    (hc : Clear f omin omax) (l : List ℝ) (hl : findRootsInterval f omin omax = some l) :
    ∀ ω ∈ l, ∃ x ∈ Icc omin omax, |f x| < 1 / 10 ^ 8 ∧ |ω - x| ≤ 3 / 10 ^ 8 := by
  intro ω hω
  rw [findRootsInterval] at hl
  split at hl
  · rename_i h1
    rw [← Option.some.inj hl] at hω
    simp only [List.mem_singleton] at hω
    exact ⟨omin, ⟨le_rfl, h⟩, h1, by rw [hω]; norm_num⟩
  · rename_i h1
    split at hl
    · rename_i h2
      obtain ⟨r, er, x, hx, h0, hd⟩ := bisect_root f omin omax (1 / 10 ^ 8) (by norm_num) h hf h2.2
      rw [er, Option.bind_some, Option.some.injEq] at hl
      rw [← hl] at hω
      simp only [List.mem_singleton] at hω
      refine ⟨x, hx, by rw [h0]; norm_num, ?_⟩
      rw [hω]
      refine hd.trans (by norm_num)
    · rename_i h2
      split at hl
      · obtain ⟨l', e, _, hs⟩ := golden_some (fun o => sign (f omin) * f o) omin omax (sign (f omin) * f omax) h
        rw [hl] at e
        rw [Option.some.inj e] at hω
        have hpos : ∀ x ∈ Icc omin omax, 0 < f omin * f x := by
          rcases hc with hc | hc | hc
          · exact absurd hc h1
          · exact absurd ⟨hc.2, hc.1⟩ h2
          · exact hc
        have habs : ∀ x ∈ Icc omin omax, sign (f omin) * f x = |f x| := by
          intro x hx
          rw [sign]
          rcases (mul_pos_iff.1 (hpos x hx)) with ⟨p, q⟩ | ⟨p, q⟩
          · rw [if_pos p, abs_of_pos q, one_mul]
          · rw [if_neg (by linarith), abs_of_neg q]; ring
        obtain ⟨y, hy, h1, h2⟩ := hs (fun x hx => by
          show 0 ≤ sign (f omin) * f x
          rw [habs x hx]; exact abs_nonneg _) ω hω
        have h1 : |sign (f omin) * f y| < 1 / 10 ^ 8 := h1
        rw [habs y hy, abs_abs] at h1
        exact ⟨y, hy, h1, h2⟩
      · rw [← Option.some.inj hl] at hω
        simp at hω

theorem mapM_some {α β : Type} (F : α → Option β) : ∀ l : List α, (∀ a ∈ l, ∃ b, F a = some b) →
    ∃ r, l.mapM F = some r ∧ (∀ a ∈ l, ∃ b ∈ r, F a = some b) ∧ ∀ b ∈ r, ∃ a ∈ l, F a = some b
  | [], _ => ⟨[], rfl, by simp, by simp⟩
  | a :: l, h => by
    obtain ⟨b, hb⟩ := h a (by simp)
    obtain ⟨r, hr, h1, h2⟩ := mapM_some F l fun a ha => h a (by simp [ha])
    refine ⟨b :: r, ?_, ?_, ?_⟩
    · rw [List.mapM_cons, hr, hb]; rfl
    · intro a' ha'
      rcases List.mem_cons.1 ha' with rfl | ha'
      · exact ⟨b, by simp, hb⟩
      · obtain ⟨b', hb', e⟩ := h1 a' ha'
        exact ⟨b', by simp [hb'], e⟩
    · intro b' hb'
      rcases List.mem_cons.1 hb' with rfl | hb'
      · exact ⟨a, by simp, hb⟩
      · obtain ⟨a', ha', e⟩ := h2 b' hb'
        exact ⟨a', by simp [ha'], e⟩

theorem findRoots_some (f : ℝ → ℝ) (M : ℝ) (hM : 0 ≤ M) : ∃ l, findRoots f M = some l ∧
    ∀ ω, ω ∈ l ↔ ∃ i < 200, ∃ l', findRootsInterval f ((i : ℕ) * (M / 200)) (i * (M / 200) + M / 200) = some l' ∧ ω ∈ l' := by
  obtain ⟨r, hr, h1, h2⟩ := mapM_some (fun (i : Nat) => findRootsInterval f (i * (M / 200)) (i * (M / 200) + M / 200))
    (List.range 200) fun i _ => by
      obtain ⟨l, e, _⟩ := interval_some f (i * (M / 200)) (i * (M / 200) + M / 200) (by linarith)
      exact ⟨l, e⟩
  refine ⟨r.flatten, ?_, ?_⟩
  · rw [findRoots, hr]; rfl
  · intro ω
    rw [List.mem_flatten]
    constructor
    · rintro ⟨l', hl', hω⟩
      obtain ⟨i, hi, e⟩ := h2 l' hl'
      exact ⟨i, List.mem_range.1 hi, l', e, hω⟩
    · rintro ⟨i, hi, l', e, hω⟩
      obtain ⟨b, hb, e'⟩ := h1 i (List.mem_range.2 hi)
      rw [e] at e'
      exact ⟨b, hb, (Option.some.inj e') ▸ hω⟩

/-- **C123** (partial: the frequencies are correct if each of the 200 intervals is `Clear`, see
`false_root`; only roots with a change of sign between the grid points are certain to be found). For every continuous
function and positive bound: the search ends; all it reports lies between zero and the bound; for each interval but the
last with different signs at its ends (and not exactly `10⁻⁸` at the right one) there is a frequency in it; and if all intervals are clear, every frequency is
within `3 · 10⁻⁸` of a point where the function is less than `10⁻⁸`. -/
theorem roots_partial (f : ℝ → ℝ) (hf : Continuous f) (M : ℝ) (hM : 0 < M) : ∃ l, findRoots f M = some l ∧
    (∀ ω ∈ l, 0 ≤ ω ∧ ω ≤ M) ∧
    (∀ i < 199, f ((i : ℕ) * (M / 200)) * f ((i + 1) * (M / 200)) < 0 → |f ((i + 1) * (M / 200))| ≠ 1 / 10 ^ 8 →
      ∃ ω ∈ l, i * (M / 200) ≤ ω ∧ ω ≤ (i + 1) * (M / 200)) ∧
    ((∀ i < 200, Clear f ((i : ℕ) * (M / 200)) ((i + 1) * (M / 200))) →
      ∀ ω ∈ l, ∃ x, 0 ≤ x ∧ x ≤ M ∧ |f x| < 1 / 10 ^ 8 ∧ |ω - x| ≤ 3 / 10 ^ 8) := by
  obtain ⟨l, hl, hmem⟩ := findRoots_some f M hM.le
  have hend : ∀ i : ℕ, (i : ℝ) * (M / 200) + M / 200 = (i + 1) * (M / 200) := fun i => by ring
  have hin : ∀ i : ℕ, i < 200 → ∀ x ∈ Icc ((i : ℝ) * (M / 200)) (i * (M / 200) + M / 200), 0 ≤ x ∧ x ≤ M := by
    intro i hi x hx
    have h1 : (i : ℝ) + 1 ≤ 200 := by exact_mod_cast hi
    have h2 : 0 ≤ (i : ℝ) * (M / 200) := by positivity
    refine ⟨by linarith [hx.1], ?_⟩
    have := hx.2
    rw [hend] at this
    have h3 : ((i : ℝ) + 1) * (M / 200) ≤ 200 * (M / 200) := mul_le_mul_of_nonneg_right h1 (by linarith)
    linarith
  refine ⟨l, hl, ?_, ?_, ?_⟩
  · intro ω hω
    obtain ⟨i, hi, l', e, hω'⟩ := (hmem ω).1 hω
    obtain ⟨l'', e'', hx⟩ := interval_some f (i * (M / 200)) (i * (M / 200) + M / 200) (by linarith)
    rw [e] at e''
    exact hin i hi ω (hx ω (Option.some.inj e'' ▸ hω'))
  · intro i hi hs hne
    by_cases h1 : |f (i * (M / 200))| < 1 / 10 ^ 8
    · refine ⟨i * (M / 200), (hmem _).2 ⟨i, by omega, [i * (M / 200)], ?_, by simp⟩, le_rfl, by linarith⟩
      rw [findRootsInterval, if_pos h1]
    · by_cases h2 : |f ((i + 1) * (M / 200))| > 1 / 10 ^ 8
      · obtain ⟨r, er, hr⟩ := bisect_some f (i * (M / 200)) ((i + 1) * (M / 200)) (1 / 10 ^ 8) (by norm_num) (by linarith)
        refine ⟨r, (hmem _).2 ⟨i, by omega, [r], ?_, by simp⟩, hr.1, hr.2⟩
        rw [hend, findRootsInterval, if_neg h1, if_pos ⟨h2, hs⟩, er]
        rfl
      · have h3 : |f ((i + 1) * (M / 200))| < 1 / 10 ^ 8 := lt_of_le_of_ne (not_lt.1 h2) hne
        refine ⟨(i + 1) * (M / 200), (hmem _).2 ⟨i + 1, by omega, [(i + 1) * (M / 200)], ?_, by simp⟩, by linarith, le_rfl⟩
        rw [findRootsInterval]
        push_cast
        rw [if_pos h3]
  · intro hc ω hω
    obtain ⟨i, hi, l', e, hω'⟩ := (hmem ω).1 hω
    obtain ⟨x, hx, h1, h2⟩ := interval_sound f _ _ (by linarith) hf.continuousOn (by rw [hend]; exact hc i hi) l' e ω hω'
    exact ⟨x, (hin i hi x hx).1, (hin i hi x hx).2, h1, h2⟩

/-- A case: a function with one root, not at a grid point. -/
example : ∀ i < 200, Clear (fun x => x - 1 / 3) ((i : ℕ) * (1 / 200)) ((i + 1) * (1 / 200)) := by
  intro i hi
  rcases lt_trichotomy i 66 with h | h | h
  · have h' : (i : ℝ) + 1 ≤ 66 := by exact_mod_cast h
    right; right
    intro x hx
    have := hx.2
    exact mul_pos_of_neg_of_neg (by linarith) (by linarith)
  · right; left
    rw [h]
    constructor
    · norm_num
    · norm_num [abs_of_pos]
  · have h' : (67 : ℝ) ≤ i := by exact_mod_cast h
    right; right
    intro x hx
    have := hx.1
    exact mul_pos (by linarith) (by linarith)

/-- The function of a stack of one material with permittivity one. -/
theorem vacuum_value (fraction k₀ ω : ℝ) : valueTE 1 1 fraction ω ![k₀, 0, 0] = some (Real.cos k₀ - Real.cos ω) := by
  have e : normal 1 ω ![k₀, 0, 0] = ((|ω| : ℝ) : ℂ) := by
    rw [normal]
    have : (1 : ℝ) * ω * ω - (![k₀, 0, 0] : Fin 3 → ℝ) 1 * (![k₀, 0, 0] : Fin 3 → ℝ) 1 -
        (![k₀, 0, 0] : Fin 3 → ℝ) 2 * (![k₀, 0, 0] : Fin 3 → ℝ) 2 = ω * ω := by simp
    rw [this, csqrt, if_pos (mul_self_nonneg ω), Real.sqrt_mul_self_eq_abs]
  have v : value ![k₀, 0, 0] fraction ((|ω| : ℝ) : ℂ) ((|ω| : ℝ) : ℂ) 2 = Real.cos k₀ - Real.cos ω := by
    rw [value]
    have : Complex.cos (((|ω| : ℝ) : ℂ) * fraction) * Complex.cos (((|ω| : ℝ) : ℂ) * (1 - fraction : ℝ)) -
        1 / 2 * 2 * Complex.sin (((|ω| : ℝ) : ℂ) * fraction) * Complex.sin (((|ω| : ℝ) : ℂ) * (1 - fraction : ℝ)) =
        ((Real.cos |ω| : ℝ) : ℂ) := by
      have h : ((|ω| : ℝ) : ℂ) = ((|ω| : ℝ) : ℂ) * fraction + ((|ω| : ℝ) : ℂ) * (1 - fraction : ℝ) := by push_cast; ring
      rw [Complex.ofReal_cos]
      conv_rhs => rw [h, Complex.cos_add]
      ring
    rw [this, Complex.ofReal_re, Real.cos_abs]
    rfl
  have h2 : ((√(1 / 1) + √(1 / 1) : ℝ) : ℂ) = 2 := by
    rw [div_one, Real.sqrt_one]; push_cast; norm_num
  rw [valueTE, e, h2, v]
  split
  · rfl
  · rename_i hn
    have ho : ω ≠ 0 := by
      rintro rfl
      apply hn
      simp
    have hc : ((|ω| : ℝ) : ℂ) ≠ 0 := by exact_mod_cast (abs_pos.2 ho).ne'
    rw [if_neg (by simpa using ho), div_self hc]
    rw [show (1 : ℂ) + 1 = 2 by norm_num, v]

set_option maxHeartbeats 1000000 in
/-- **C123** (violated). The first two points of the golden section search are not tested for a negative value, and the
later ones may come to lie between two negative ones. In a stack of one material with permittivity one, for a wave
vector along the stack, the frequencies are known; a reported one is off by more than `1 / 1000`. -/
theorem false_root (fraction : ℝ) : ∃ k₀ M : ℝ, ∃ f : ℝ → ℝ, 0 < M ∧ Continuous f ∧
    (∀ ω, valueTE 1 1 fraction ω ![k₀, 0, 0] = some (f ω)) ∧
    ∃ l, findRoots f M = some l ∧ ∃ ω ∈ l, ∀ x, f x = 0 → 1 / 1000 ≤ |ω - x| := by
  have hpi := Real.pi_gt_three
  have hpi4 := Real.pi_lt_d2
  obtain ⟨h, hh⟩ : ∃ h : ℝ, h = 2 * Real.pi / (19946 / 100) := ⟨_, rfl⟩
  have h2pi : 2 * Real.pi = 19946 / 100 * h := by rw [hh]; ring
  have hh0 : 3 / 100 < h := by linarith
  have hh1 : h < 1 / 30 := by linarith
  obtain ⟨f, hf⟩ : ∃ f : ℝ → ℝ, f = fun ω => Real.cos (19 / 100 * h) - Real.cos ω := ⟨_, rfl⟩
  have fy : ∀ y, f (2 * Real.pi + y * h) = Real.cos (19 / 100 * h) - Real.cos (y * h) := by
    intro y
    rw [hf]
    simp only []
    rw [add_comm, Real.cos_add_two_pi]
  have cosabs : ∀ y z : ℝ, |y| < |z| → |z| ≤ 1 → Real.cos (z * h) < Real.cos (y * h) := by
    intro y z hyz hz
    rw [← Real.cos_abs (z * h), ← Real.cos_abs (y * h), abs_mul, abs_mul, abs_of_pos (by linarith : (0 : ℝ) < h)]
    apply Real.cos_lt_cos_of_nonneg_of_le_pi
    · have := abs_nonneg y
      positivity
    · nlinarith [abs_nonneg z]
    · exact mul_lt_mul_of_pos_right hyz (by linarith)
  have fneg : ∀ y : ℝ, |y| < 19 / 100 → f (2 * Real.pi + y * h) < 0 := by
    intro y hy
    have := cosabs y (19 / 100) (by rw [abs_of_pos (by norm_num : (0 : ℝ) < 19 / 100)]; exact hy) (by norm_num [abs_of_pos])
    rw [fy]; linarith
  have fpos : ∀ y : ℝ, 19 / 100 < |y| → |y| ≤ 1 → 0 < f (2 * Real.pi + y * h) := by
    intro y hy h1
    have := cosabs (19 / 100) y (by rw [abs_of_pos (by norm_num : (0 : ℝ) < 19 / 100)]; exact hy) h1
    rw [fy]; linarith
  have flt : ∀ y z : ℝ, |y| < |z| → |z| ≤ 1 → f (2 * Real.pi + y * h) < f (2 * Real.pi + z * h) := by
    intro y z hyz hz
    have := cosabs y z hyz hz
    rw [fy, fy]; linarith
  have fsmall : ∀ y : ℝ, |y| ≤ 1 → f (2 * Real.pi + y * h) < 1 / 2 := by
    intro y hy
    have h1 := Real.one_sub_sq_div_two_le_cos (x := y * h)
    have h2 := Real.cos_le_one (19 / 100 * h)
    have h3 : (y * h) ^ 2 ≤ h ^ 2 := by
      rw [mul_pow]
      have : y ^ 2 ≤ 1 := by rw [← sq_abs]; exact pow_le_one₀ (abs_nonneg y) hy
      nlinarith [sq_nonneg h]
    have h4 : h ^ 2 < 1 / 30 := by nlinarith
    rw [fy]; linarith
  have g1 := g_gt
  have g2 := g_lt
  have gg := g_sq
  have hbig1 : 2 / 10 * h ≤ (2 * g - 1) * h := mul_le_mul_of_nonneg_right (by linarith) (by linarith)
  have hbig2 : 1 / 10 * h ≤ (2 - 3 * g) * h := mul_le_mul_of_nonneg_right (by linarith) (by linarith)
  have hord : (-146 / 100 + 2 * g) * h ≤ (-246 / 100 + 4 * g) * h := mul_le_mul_of_nonneg_right (by linarith) (by linarith)
  obtain ⟨l, hl, hmem⟩ := findRoots_some f (200 * h) (by linarith)
  refine ⟨19 / 100 * h, 200 * h, f, by linarith, ?_, ?_, l, hl, ?_⟩
  · rw [hf]; fun_prop
  · intro ω
    rw [vacuum_value, hf]
  refine ⟨2 * Real.pi + (-46 / 100 + (5 * g - 2) / 2) * h, ?_, ?_⟩
  · rw [hmem]
    refine ⟨199, by norm_num, ?_⟩
    have e0 : ((199 : ℕ) : ℝ) * (200 * h / 200) = 2 * Real.pi + (-46 / 100) * h := by rw [h2pi]; push_cast; ring
    have e1 : 2 * Real.pi + (-46 / 100) * h + 200 * h / 200 = 2 * Real.pi + (54 / 100) * h := by ring
    rw [e0, e1]
    have hA : 1 / 10 ^ 8 ≤ f (2 * Real.pi + (-46 / 100) * h) := by
      rw [fy]
      have h1 := Real.one_sub_sq_div_two_le_cos (x := 19 / 100 * h)
      have h2 := Real.cos_le_one_sub_mul_cos_sq (x := -46 / 100 * h) (by rw [abs_le]; constructor <;> linarith)
      have h3 : 2 / Real.pi ^ 2 ≥ 2 / 10 := by
        apply div_le_div_of_nonneg_left (by norm_num) (by positivity)
        nlinarith
      have h4 : 2 / Real.pi ^ 2 * (-46 / 100 * h) ^ 2 ≥ 2 / 10 * (-46 / 100 * h) ^ 2 :=
        mul_le_mul_of_nonneg_right h3 (sq_nonneg _)
      nlinarith
    have hB := fpos (54 / 100) (by norm_num [abs_of_pos]) (by norm_num [abs_of_pos])
    have hA0 : 0 < f (2 * Real.pi + (-46 / 100) * h) := by linarith [show (0 : ℝ) < 1 / 10 ^ 8 by norm_num]
    have hfun : (fun o => sign (f (2 * Real.pi + (-46 / 100) * h)) * f o) = f := by
      funext o; rw [sign, if_pos hA0, one_mul]
    have hsg : ∀ x, sign (f (2 * Real.pi + (-46 / 100) * h)) * x = x := by
      intro x; rw [sign, if_pos hA0, one_mul]
    rw [findRootsInterval, if_neg (by rw [abs_of_pos hA0]; linarith), if_neg (by
      rintro ⟨-, hlt⟩
      linarith [mul_pos hA0 hB]), if_pos ⟨by rw [abs_of_pos hB]; exact fsmall _ (by norm_num [abs_of_pos]), by
      rw [abs_of_pos hA0]; exact fsmall _ (by norm_num [abs_of_neg])⟩, hfun, hsg, hsg, golden]
    have e2 : 2 * Real.pi + (-46 / 100) * h - 1 / 4 * (2 * Real.pi + (54 / 100) * h - (2 * Real.pi + (-46 / 100) * h)) =
      2 * Real.pi + (-71 / 100) * h := by ring
    have e3 : 2 * Real.pi + (54 / 100) * h + 1 / 4 * (2 * Real.pi + (54 / 100) * h - (2 * Real.pi + (-46 / 100) * h)) =
      2 * Real.pi + (79 / 100) * h := by ring
    rw [e2, e3, if_neg (by
      rintro (h1 | h1)
      · have := flt (-46 / 100) (-71 / 100) (by norm_num [abs_of_neg]) (by norm_num [abs_of_neg])
        linarith
      · have := flt (54 / 100) (79 / 100) (by norm_num [abs_of_pos]) (by norm_num [abs_of_pos])
        linarith)]
    have ec : 2 * Real.pi + (54 / 100) * h - (2 * Real.pi + (54 / 100) * h - (2 * Real.pi + (-46 / 100) * h)) / phi =
        2 * Real.pi + (54 / 100 - g) * h := by rw [div_phi]; ring
    have ed : 2 * Real.pi + (-46 / 100) * h + (2 * Real.pi + (54 / 100) * h - (2 * Real.pi + (-46 / 100) * h)) / phi =
        2 * Real.pi + (-46 / 100 + g) * h := by rw [div_phi]; ring
    rw [ec, ed]
    have ac : |54 / 100 - g| = g - 54 / 100 := by rw [abs_of_neg (by linarith)]; ring
    have ad : |-46 / 100 + g| = -46 / 100 + g := abs_of_pos (by linarith)
    have ec2 : 2 * Real.pi + (-46 / 100 + g) * h - (2 * Real.pi + (-46 / 100 + g) * h - (2 * Real.pi + (-46 / 100) * h)) / phi =
        2 * Real.pi + (-146 / 100 + 2 * g) * h := by
      rw [div_phi]; linear_combination -h * gg
    have ac2 : |-146 / 100 + 2 * g| = 146 / 100 - 2 * g := by rw [abs_of_neg (by linarith)]; ring
    have hc2 := fpos (-146 / 100 + 2 * g) (by rw [ac2]; linarith) (by rw [ac2]; linarith)
    rw [goldenLoop, if_pos (by
      rw [show 2 * Real.pi + (54 / 100 - g) * h - (2 * Real.pi + (-46 / 100 + g) * h) = -((2 * g - 1) * h) by ring,
        abs_neg, abs_of_nonneg (mul_nonneg (by linarith) (by linarith))]
      linarith [hbig1]), if_pos (flt _ _ (by rw [ac, ad]; linarith) (by rw [ad]; linarith)), ec2, if_neg (by linarith)]
    have hc := fneg (54 / 100 - g) (by rw [ac]; linarith)
    have ed2 : 2 * Real.pi + (-146 / 100 + 2 * g) * h +
        (2 * Real.pi + (-46 / 100 + g) * h - (2 * Real.pi + (-146 / 100 + 2 * g) * h)) / phi =
        2 * Real.pi + (-246 / 100 + 4 * g) * h := by
      rw [div_phi]; linear_combination -h * gg
    have ad2 : |-246 / 100 + 4 * g| = -246 / 100 + 4 * g := abs_of_pos (by linarith)
    have hd2 := fneg (-246 / 100 + 4 * g) (by rw [ad2]; linarith)
    rw [goldenLoop, if_pos (by
      rw [show 2 * Real.pi + (-146 / 100 + 2 * g) * h - (2 * Real.pi + (54 / 100 - g) * h) = -((2 - 3 * g) * h) by ring,
        abs_neg, abs_of_nonneg (mul_nonneg (by linarith) (by linarith))]
      linarith [hbig2]), if_neg (by linarith), ed2, if_pos hd2]
    obtain ⟨r, er, -⟩ := bisect_some f (2 * Real.pi + (-146 / 100 + 2 * g) * h) (2 * Real.pi + (-246 / 100 + 4 * g) * h)
      (1 / 10 ^ 8) (by norm_num) (by linarith [hord])
    have em : (2 * Real.pi + (-246 / 100 + 4 * g) * h + (2 * Real.pi + (-46 / 100 + g) * h)) / 2 =
        2 * Real.pi + (-46 / 100 + (5 * g - 2) / 2) * h := by ring
    have am : |-46 / 100 + (5 * g - 2) / 2| = -46 / 100 + (5 * g - 2) / 2 := abs_of_pos (by linarith)
    have hm := fneg (-46 / 100 + (5 * g - 2) / 2) (by rw [am]; linarith)
    have hb := fneg (-46 / 100 + g) (by rw [ad]; linarith)
    refine ⟨[r, 2 * Real.pi + (-46 / 100 + (5 * g - 2) / 2) * h], ?_, by simp⟩
    rw [er, Option.bind_some, bisect, bisectLoop, if_pos (by
      rw [show 2 * Real.pi + (-46 / 100 + g) * h - (2 * Real.pi + (-246 / 100 + 4 * g) * h) = (2 - 3 * g) * h by ring,
        abs_of_nonneg (mul_nonneg (by linarith) (by linarith))]
      linarith [hbig2]), em, if_neg (by have := mul_pos_of_neg_of_neg hm hd2; linarith), if_neg (by
      have := mul_pos_of_neg_of_neg hm hb; linarith), Option.bind_some]
  · intro x hx
    rw [hf] at hx
    simp only [] at hx
    obtain ⟨n, hn⟩ := Real.cos_eq_cos_iff.1 (sub_eq_zero.1 hx)
    have hy1 : 85 / 1000 * h ≤ (-46 / 100 + (5 * g - 2) / 2) * h := mul_le_mul_of_nonneg_right (by linarith) (by linarith)
    have hy2 : (-46 / 100 + (5 * g - 2) / 2) * h ≤ 86 / 1000 * h := mul_le_mul_of_nonneg_right (by linarith) (by linarith)
    by_contra hlt
    push Not at hlt
    rw [abs_lt] at hlt
    rcases lt_trichotomy n 1 with h1 | h1 | h1
    · have : (n : ℝ) ≤ 0 := by exact_mod_cast (by omega : n ≤ 0)
      have : 2 * (n : ℝ) * Real.pi ≤ 0 := by nlinarith
      rcases hn with hn | hn <;> linarith [hlt.1, hlt.2]
    · rw [h1] at hn
      push_cast at hn
      rcases hn with hn | hn <;> linarith [hlt.1, hlt.2]
    · have : (2 : ℝ) ≤ n := by exact_mod_cast (by omega : 2 ≤ n)
      have : 4 * Real.pi ≤ 2 * (n : ℝ) * Real.pi := by nlinarith
      rcases hn with hn | hn <;> linarith [hlt.1, hlt.2]

end Verif.Bands.Bragg
