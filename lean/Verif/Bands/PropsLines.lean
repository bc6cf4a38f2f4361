import Verif.Bands.LemmasLines
import Mathlib.Data.Fin.VecNotation
import Mathlib.Tactic.FinCases
import Mathlib.Algebra.BigOperators.Fin

set_option linter.all false

/-! # Lines in the band structure of a homogeneous medium (C121) -/
namespace Verif.Bands

variable {d : Nat}

section
variable (b : Fin d → Vec d) (ε : ℝ) (k₁ k₂ : Vec d)

/-- The numbers the code computes for a point. -/
noncomputable def pair (p : Point d) : ℝ × ℝ :=
  (along b k₁ (fun j => (k₂ j - k₁ j) / l2Norm fun j => k₂ j - k₁ j) p,
    away b k₁ (fun j => (k₂ j - k₁ j) / l2Norm fun j => k₂ j - k₁ j) p)

theorem distance_pos (h : k₁ ≠ k₂) : 0 < l2Norm fun j => k₂ j - k₁ j := by
  refine lt_of_le_of_ne (l2Norm_nonneg _) fun h0 => h ?_
  have := l2Norm_eq_zero.1 h0.symm
  funext j
  have := congrFun this j
  simp only [Pi.zero_apply] at this
  linarith

theorem distance_symm : (l2Norm fun j => k₁ j - k₂ j) = l2Norm fun j => k₂ j - k₁ j := by
  rw [l2Norm, l2Norm]
  congr 1
  exact Finset.sum_congr rfl fun j _ => by ring

/-- The frequency on a line is that of the band. -/
theorem pair_band (h : k₁ ≠ k₂) (p : Point d) (t : ℝ) :
    √((pair b k₁ k₂ p).2 * (pair b k₁ k₂ p).2 +
      ((l2Norm fun j => k₁ j - k₂ j) * t + (pair b k₁ k₂ p).1) * ((l2Norm fun j => k₁ j - k₂ j) * t + (pair b k₁ k₂ p).1)) /
      √ε = band b ε (segment k₁ k₂ t) p := by
  rw [distance_symm]
  have hl := distance_pos k₁ k₂ h
  set l := l2Norm fun j => k₂ j - k₁ j with hldef
  set u : Vec d := fun j => (k₂ j - k₁ j) / l with hu
  have huu : dot u u = 1 := by
    have : dot u u = (∑ j, (k₂ j - k₁ j) * (k₂ j - k₁ j)) / (l * l) := by
      rw [dot, Finset.sum_div]
      exact Finset.sum_congr rfl fun j _ => by rw [hu]; simp only []; rw [div_mul_div_comm]
    rw [this, ← l2Norm_sq fun j => k₂ j - k₁ j, ← hldef, div_self (mul_pos hl hl).ne']
  rw [band, length]
  congr 2
  have := pythagoras (fun j => k₁ j - position b p j) u huu (l * t)
  rw [pair]
  simp only [along, away]
  rw [← hldef, ← hu, ← this]
  refine Finset.sum_congr rfl fun j _ => ?_
  have e : segment k₁ k₂ t j - latticeVector b p j = k₁ j - position b p j + l * t * u j := by
    simp only [segment, latticeVector, position, hu]
    field_simp
    ring
  rw [e, sq]

theorem pair_nonneg (p : Point d) : 0 ≤ (pair b k₁ k₂ p).2 := l2Norm_nonneg _

theorem lowest_iff (l x y M : ℝ) (hε : 0 < ε) (hl : 0 < l) (v : ℝ) (hv : lowest ε l x y = some v) :
    (∃ t, 0 ≤ t ∧ t ≤ 1 ∧ √(y * y + (l * t + x) * (l * t + x)) / √ε ≤ M) ↔ v ≤ M := by
  have hs := Real.sqrt_pos.2 hε
  have mono : ∀ a c : ℝ, a * a ≤ c * c → √(a * a + y * y) / √ε ≤ √(y * y + c * c) / √ε := by
    intro a c h
    apply div_le_div_of_nonneg_right _ hs.le
    exact Real.sqrt_le_sqrt (by linarith)
  rw [lowest, intervalDist, if_neg (by simp [hl.le])] at hv
  by_cases h1 : x < -l
  · rw [if_pos h1] at hv
    obtain rfl : √((-l - x) * (-l - x) + y * y) / √ε = v := by simpa using hv
    constructor
    · rintro ⟨t, h0, h2, h3⟩
      refine (mono _ (l * t + x) ?_).trans h3
      have : l * t ≤ l := by nlinarith
      nlinarith
    · intro h
      refine ⟨1, zero_le_one, le_rfl, ?_⟩
      convert h using 3
      ring
  · rw [if_neg h1] at hv
    by_cases h2 : x < 0
    · rw [if_pos h2] at hv
      obtain rfl : √(0 * 0 + y * y) / √ε = v := by simpa using hv
      constructor
      · rintro ⟨t, h0, h2, h3⟩
        refine (mono _ (l * t + x) ?_).trans h3
        rw [zero_mul]
        exact mul_self_nonneg _
      · intro h
        refine ⟨-x / l, by rw [le_div_iff₀ hl]; linarith, by rw [div_le_iff₀ hl]; linarith, ?_⟩
        have : l * (-x / l) + x = 0 := by field_simp; ring
        rw [this]
        convert h using 3
        ring
    · rw [if_neg h2] at hv
      obtain rfl : √((x - 0) * (x - 0) + y * y) / √ε = v := by simpa using hv
      constructor
      · rintro ⟨t, h0, h2, h3⟩
        refine (mono _ (l * t + x) ?_).trans h3
        have : 0 ≤ l * t := by positivity
        nlinarith
      · intro h
        refine ⟨0, le_rfl, zero_le_one, ?_⟩
        convert h using 3
        ring

/-- The band of a lattice point comes below the bound on the segment. -/
def Seen (M : ℝ) (G : Fin d → Int) : Prop := ∃ t, 0 ≤ t ∧ t ≤ 1 ∧ band b ε (segment k₁ k₂ t) G ≤ M

theorem seen_iff (h : k₁ ≠ k₂) (hε : 0 < ε) (M : ℝ) (p : Point d) (v : ℝ)
    (hv : lowest ε (l2Norm fun j => k₁ j - k₂ j) (pair b k₁ k₂ p).1 (pair b k₁ k₂ p).2 = some v) :
    Seen b ε k₁ k₂ M p ↔ v ≤ M := by
  rw [← lowest_iff ε _ _ _ M hε (by rw [distance_symm]; exact distance_pos k₁ k₂ h) v hv]
  simp only [Seen, pair_band b ε k₁ k₂ h]

theorem seen_finite (hb : Regular b) (hε : 0 < ε) (M : ℝ) : {p : Point d | Seen b ε k₁ k₂ M p}.Finite := by
  refine (finite_within b k₁ hb (∑ _j : Fin d, (|M| * √ε + l2Norm fun j => k₂ j - k₁ j))).subset ?_
  rintro p ⟨t, h0, h1, h2⟩
  have hs := Real.sqrt_pos.2 hε
  rw [band, div_le_iff₀ hs] at h2
  have hnn : 0 ≤ |M| * √ε + l2Norm fun j => k₂ j - k₁ j :=
    add_nonneg (mul_nonneg (abs_nonneg _) hs.le) (l2Norm_nonneg _)
  have hcoord : ∀ j, |position b p j - k₁ j| ≤ |M| * √ε + l2Norm fun j => k₂ j - k₁ j := by
    intro j
    have e1 := abs_le_l2Norm (fun j => segment k₁ k₂ t j - latticeVector b p j) j
    have e2 : l2Norm (fun j => segment k₁ k₂ t j - latticeVector b p j) =
        length (fun j => segment k₁ k₂ t j - latticeVector b p j) := by
      rw [l2Norm, length]; congr 1; exact Finset.sum_congr rfl fun j _ => (sq _).symm
    rw [e2] at e1
    have e3 := abs_le_l2Norm (fun j => k₂ j - k₁ j) j
    simp only [segment] at e1
    have e4 : M * √ε ≤ |M| * √ε := mul_le_mul_of_nonneg_right (le_abs_self M) hs.le
    have e5 : |t * (k₂ j - k₁ j)| ≤ |k₂ j - k₁ j| := by
      rw [abs_mul, abs_of_nonneg h0]
      exact mul_le_of_le_one_left (abs_nonneg _) h1
    have e6 : |position b p j - k₁ j| ≤ |k₁ j + t * (k₂ j - k₁ j) - latticeVector b p j| + |t * (k₂ j - k₁ j)| := by
      have := abs_sub (a := t * (k₂ j - k₁ j)) (b := k₁ j + t * (k₂ j - k₁ j) - latticeVector b p j)
      have e7 : t * (k₂ j - k₁ j) - (k₁ j + t * (k₂ j - k₁ j) - latticeVector b p j) = position b p j - k₁ j := by
        simp only [latticeVector, position]; ring
      rw [e7] at this
      linarith
    have h3 : length (fun j => segment k₁ k₂ t j - latticeVector b p j) ≤ M * √ε := h2
    simp only [segment] at h3
    linarith
  show l2Norm (fun j => position b p j - k₁ j) ≤ _
  rw [l2Norm]
  apply Real.sqrt_le_iff.2
  refine ⟨Finset.sum_nonneg fun _ _ => hnn, ?_⟩
  rw [sq]
  refine (Finset.sum_le_sum fun j _ => ?_ : _ ≤ ∑ j : Fin d, |position b p j - k₁ j| * |position b p j - k₁ j|).trans ?_
  · rw [abs_mul_abs_self]
  · rw [Finset.sum_mul]
    refine Finset.sum_le_sum fun j _ => ?_
    refine mul_le_mul (hcoord j) ?_ (abs_nonneg _) hnn
    exact (hcoord j).trans (Finset.single_le_sum (f := fun _ : Fin d => |M| * √ε + l2Norm fun j => k₂ j - k₁ j)
      (fun _ _ => hnn) (Finset.mem_univ j))

/-- The whole search. -/
theorem lines_search (hb : Regular b) (hε : 0 < ε) (h : k₁ ≠ k₂) (M : ℝ) :
    ∃ init c done, (∀ p, p ∈ init ↔ ∀ i, |p i - round (solve b k₁ i)| ≤ 1) ∧
      LInv (Seen b ε k₁ k₂ M) init c [] done ∧
      lines b ε k₁ k₂ M =
        some { l := l2Norm fun j => k₁ j - k₂ j, permittivity := ε, modes := collect (pair b k₁ k₂) done } := by
  classical
  obtain ⟨init, h1, h2, h3⟩ := nearest_eq b k₁
  have hfin := seen_finite b ε k₁ k₂ hb hε M
  have hl : 0 < l2Norm fun j => k₁ j - k₂ j := by rw [distance_symm]; exact distance_pos k₁ k₂ h
  have hnb : ∀ p : Point d, ∃ ns : List (Point d), ∀ n, n ∈ ns ↔ Next p n := fun p => by
    obtain ⟨ns, -, hns⟩ := neighbours_eq p; exact ⟨ns, hns⟩
  choose nb hnb using hnb
  let F : Finset (Point d) := hfin.toFinset.biUnion (fun p => (nb p).toFinset) ∪ init.toFinset
  obtain ⟨c, done, hI, hr⟩ := lines_total (pair b k₁ k₂) ε (l2Norm fun j => k₁ j - k₂ j) M hl.le (Seen b ε k₁ k₂ M)
    (fun p v hv => seen_iff b ε k₁ k₂ h hε M p v hv) init F
    (fun p hp => Finset.mem_union_right _ (List.mem_toFinset.2 hp))
    (fun p hp n hn => Finset.mem_union_left _ (Finset.mem_biUnion.2
      ⟨p, hfin.mem_toFinset.2 hp, List.mem_toFinset.2 ((hnb p n).2 hn)⟩)) _ init init [] (by
      refine ⟨h2, h2, fun p hp => hp, List.nodup_nil, by simp, by simp, fun p hp => hp, fun p hp => Or.inl hp, by simp,
        fun S hS1 _ => hS1⟩) rfl
  refine ⟨init, c, done, h3, hI, ?_⟩
  rw [lines, if_neg hl.ne', h1]
  have : linesLoop (fun p => (along b k₁ (fun j => (k₂ j - k₁ j) / l2Norm fun j => k₂ j - k₁ j) p,
      away b k₁ (fun j => (k₂ j - k₁ j) / l2Norm fun j => k₂ j - k₁ j) p)) ε (l2Norm fun j => k₁ j - k₂ j) M init init [] =
      some (collect (pair b k₁ k₂) done) := hr
  rw [Option.bind_some, this]
  rfl

end

/-- Two points in the plane: their distances to a third differ by no more than their distance. -/
theorem plane_triangle (x y x' y' s : ℝ) :
    |√(y * y + (s + x) * (s + x)) - √(y' * y' + (s + x') * (s + x'))| ≤ √((x - x') * (x - x') + (y - y') * (y - y')) := by
  have e : ∀ a c : ℝ, √(c * c + a * a) = ‖(⟨a, c⟩ : ℂ)‖ := by
    intro a c
    rw [Complex.norm_def, Complex.normSq_mk, add_comm]
  rw [e, e, add_comm ((x - x') * (x - x')), e]
  refine (abs_norm_sub_norm_le _ _).trans (le_of_eq ?_)
  congr 1
  apply Complex.ext <;> simp

/-- **C121**. For every basis that is not singular, permittivity, pair of different wave vectors and bound the search
ends. Every line it gives is the band of a lattice point along the whole line through the wave vectors, and this band
comes below the bound on the segment between them. -/
theorem lines_sound (b : Fin d → Fin d → ℝ)
    (hb : (Matrix.of fun coord vec => b vec coord : Matrix (Fin d) (Fin d) ℝ).det ≠ 0) (ε : ℝ) (hε : 0 < ε)
    (k₁ k₂ : Fin d → ℝ) (hk : k₁ ≠ k₂) (M : ℝ) :
    ∃ s, lines b ε k₁ k₂ M = some s ∧ ∀ m ∈ s.modes, ∃ G : Fin d → Int,
      (∀ t, s.frequency m t = band b ε (segment k₁ k₂ t) G) ∧
      ∃ t, 0 ≤ t ∧ t ≤ 1 ∧ band b ε (segment k₁ k₂ t) G ≤ M := by
  obtain ⟨init, c, done, -, hI, hr⟩ := lines_search b ε k₁ k₂ hb hε hk M
  refine ⟨_, hr, ?_⟩
  intro m hm
  obtain ⟨p, hp, hx, hy⟩ := collect_origin _ _ m hm
  refine ⟨p, ?_, (hI.dsub p hp).2⟩
  intro t
  rw [← pair_band b ε k₁ k₂ hk p t, LineSet.frequency, hx, hy]

/-- **C121** (partial: for orthogonal bases and segments along which no coordinate changes by more than one, see
`lines_missed`; the multiplicities if no two bands are almost the same). Lattice points are found exactly if their
band comes below the bound on the segment; each has a line that follows its band up to `10⁻⁵ / √ε`; and the
multiplicity of a line is the number of lattice points with this band. -/
theorem lines_complete_partial (b : Fin d → Fin d → ℝ) (hb : Orthogonal b) (ε : ℝ) (hε : 0 < ε)
    (k₁ k₂ x₁ x₂ : Fin d → ℝ) (hk : k₁ ≠ k₂) (hx₁ : ∀ j, ∑ i, x₁ i * b i j = k₁ j) (hx₂ : ∀ j, ∑ i, x₂ i * b i j = k₂ j)
    (hshort : ∀ i, |x₂ i - x₁ i| ≤ 1) (M : ℝ) :
    ∃ s, lines b ε k₁ k₂ M = some s ∧ ∃ Gs : List (Fin d → Int), Gs.Nodup ∧
      (∀ G, G ∈ Gs ↔ ∃ t, 0 ≤ t ∧ t ≤ 1 ∧ band b ε (segment k₁ k₂ t) G ≤ M) ∧
      (∀ G ∈ Gs, ∃ m ∈ s.modes, ∀ t, |s.frequency m t - band b ε (segment k₁ k₂ t) G| ≤ 1 / 10 ^ 5 / √ε) ∧
      ((∀ G ∈ Gs, ∀ H ∈ Gs, (∀ t, band b ε (segment k₁ k₂ t) G = band b ε (segment k₁ k₂ t) H) ∨
          ∃ t, 1 / 10 ^ 5 / √ε ≤ |band b ε (segment k₁ k₂ t) G - band b ε (segment k₁ k₂ t) H|) →
        ∀ m ∈ s.modes, m.multiplicity =
          (open Classical in Gs.filter fun G => ∀ t, band b ε (segment k₁ k₂ t) G = s.frequency m t).length) := by
  have hr := hb.nearly.regular
  obtain ⟨init, c, done, hinit, hI, hres⟩ := lines_search b ε k₁ k₂ hr hε hk M
  have hs := Real.sqrt_pos.2 hε
  have hl : 0 < l2Norm fun j => k₁ j - k₂ j := by rw [distance_symm]; exact distance_pos k₁ k₂ hk
  -- the coordinates are those found by `solve`
  have huniq : x₁ = solve b k₁ := by
    have h1 : combination b x₁ = combination b (solve b k₁) := by
      rw [solve_spec b k₁ hr]; exact funext hx₁
    have hmul : ∀ x : Vec d, combination b x =
        (Matrix.of fun coord vec => b vec coord : Matrix (Fin d) (Fin d) ℝ).mulVec x := by
      intro x; funext j
      simp only [combination, Matrix.mulVec, dotProduct, Matrix.of_apply]
      exact Finset.sum_congr rfl fun i _ => mul_comm _ _
    rw [hmul, hmul] at h1
    exact Matrix.mulVec_injective_of_isUnit ((Matrix.isUnit_iff_isUnit_det _).2 (isUnit_iff_ne_zero.2 hr)) h1
  -- completeness
  have hcomplete : ∀ (n : Nat) (p : Point d), (∑ i, |p i - round (solve b k₁ i)|).toNat = n →
      Seen b ε k₁ k₂ M p → p ∈ done := by
    intro n
    induction n using Nat.strong_induction_on with
    | _ n ih =>
      intro p hn hp
      have fin : p ∈ c → p ∈ done := by
        intro hc
        rcases hI.seen p hc with h | h | h
        · simp at h
        · exact h
        · exact absurd hp h
      by_cases hin : ∀ i, |p i - round (solve b k₁ i)| ≤ 1
      · exact fin (hI.start p ((hinit p).2 hin))
      · push Not at hin
        obtain ⟨i, hi⟩ := hin
        obtain ⟨t, h0, h1, h2⟩ := hp
        set r := round (solve b k₁ i) with hrdef
        obtain ⟨s, hs1, hs2⟩ : ∃ s : Int, (s = 1 ∨ s = -1) ∧ |p i + s - r| + 1 = |p i - r| ∧
            (s : ℝ) * (p i - (x₁ i + t * (x₂ i - x₁ i))) ≤ -(1 / 2) := by
          have hround := abs_le.1 (round_close (solve b k₁ i))
          rw [← hrdef, ← huniq] at hround
          have hsh := abs_le.1 (hshort i)
          have ht1 : t * (x₂ i - x₁ i) ≤ 1 := by nlinarith
          have ht2 : -1 ≤ t * (x₂ i - x₁ i) := by nlinarith
          rcases le_total 0 (p i - r) with h | h
          · rw [abs_of_nonneg h] at hi
            refine ⟨-1, Or.inr rfl, ?_, ?_⟩
            · rw [abs_of_nonneg h, abs_of_nonneg (by omega)]; omega
            · have : (2 : ℝ) ≤ (p i : ℝ) - r := by
                have : (2 : Int) ≤ p i - r := hi
                exact_mod_cast this
              push_cast
              linarith
          · rw [abs_of_nonpos h] at hi
            refine ⟨1, Or.inl rfl, ?_, ?_⟩
            · rw [abs_of_nonpos h, abs_of_nonpos (by omega)]; omega
            · have : (p i : ℝ) - r ≤ -2 := by
                have : p i - r ≤ (-2 : Int) := by omega
                exact_mod_cast this
              push_cast
              linarith
        have hseen : Seen b ε k₁ k₂ M (shift p i s) := by
          refine ⟨t, h0, h1, le_trans ?_ h2⟩
          rw [← frequency_eq_band, ← frequency_eq_band, frequency, frequency]
          apply div_le_div_of_nonneg_right _ hs.le
          have hx : combination b (fun i => x₁ i + t * (x₂ i - x₁ i)) = segment k₁ k₂ t := by
            funext j
            simp only [combination, segment, ← hx₁, ← hx₂, Finset.mul_sum, ← Finset.sum_add_distrib,
              ← Finset.sum_sub_distrib]
            exact Finset.sum_congr rfl fun i _ => by ring
          rw [shift_position, l2Norm, l2Norm]
          apply Real.sqrt_le_sqrt
          have hv' : ∀ j, position b p j - segment k₁ k₂ t j =
              combination b (fun i => (p i : ℝ) - (x₁ i + t * (x₂ i - x₁ i))) j :=
            fun j => congrFun (position_sub b _ _ hx p) j
          simp only [hv']
          have hss : (s : ℝ) * s = 1 := by rcases hs1 with rfl | rfl <;> norm_num
          rw [shift_norm b _ i s hss, combination_dot b _ (b i)]
          have hd : ∑ c, ((p c : ℝ) - (x₁ c + t * (x₂ c - x₁ c))) * ∑ j, b c j * b i j =
              ((p i : ℝ) - (x₁ i + t * (x₂ i - x₁ i))) * ∑ j, b i j * b i j := by
            rw [Finset.sum_eq_single i]
            · intro c _ hc
              rw [hb.1 c i hc, mul_zero]
            · intro h; exact absurd (Finset.mem_univ i) h
          rw [hd]
          have hg : (0 : ℝ) ≤ ∑ j, b i j * b i j := Finset.sum_nonneg fun _ _ => mul_self_nonneg _
          have := mul_le_mul_of_nonneg_right hs2.2 hg
          nlinarith
        have hs21 : |p i + s - round (solve b k₁ i)| + 1 = |p i - round (solve b k₁ i)| := hs2.1
        have hlt : (∑ a, |shift p i s a - round (solve b k₁ a)|).toNat < n := by
          rw [← hn]
          have hle : ∑ a, |shift p i s a - round (solve b k₁ a)| < ∑ a, |p a - round (solve b k₁ a)| := by
            apply Finset.sum_lt_sum
            · intro a _
              by_cases ha : a = i
              · subst ha
                simp only [shift, Function.update_self]
                omega
              · simp only [shift, Function.update_of_ne ha]; exact le_rfl
            · refine ⟨i, Finset.mem_univ i, ?_⟩
              simp only [shift, Function.update_self]
              omega
          have : 0 ≤ ∑ a, |shift p i s a - round (solve b k₁ a)| := Finset.sum_nonneg fun _ _ => abs_nonneg _
          omega
        have hdone := ih _ hlt _ rfl hseen
        have hnext := shift_next p i s hs1
        exact fin (hI.spread _ hdone p ⟨hnext.1.symm, fun a => by rw [abs_sub_comm]; exact hnext.2 a⟩)
  -- lines and bands
  have hfreq : ∀ (m : Mode) (t : ℝ), LineSet.frequency
      { l := l2Norm fun j => k₁ j - k₂ j, permittivity := ε, modes := collect (pair b k₁ k₂) done } m t =
      √(m.y * m.y + ((l2Norm fun j => k₁ j - k₂ j) * t + m.x) * ((l2Norm fun j => k₁ j - k₂ j) * t + m.x)) / √ε :=
    fun m t => rfl
  have hclose : ∀ (x y : ℝ) (p : Point d) (t : ℝ),
      |√(y * y + ((l2Norm fun j => k₁ j - k₂ j) * t + x) * ((l2Norm fun j => k₁ j - k₂ j) * t + x)) / √ε -
        band b ε (segment k₁ k₂ t) p| ≤
      √((x - (pair b k₁ k₂ p).1) * (x - (pair b k₁ k₂ p).1) + (y - (pair b k₁ k₂ p).2) * (y - (pair b k₁ k₂ p).2)) / √ε := by
    intro x y p t
    rw [← pair_band b ε k₁ k₂ hk p t, ← sub_div, abs_div, abs_of_pos hs]
    apply div_le_div_of_nonneg_right _ hs.le
    exact plane_triangle _ _ _ _ _
  have hsq : √(1 / 10 ^ 10 : ℝ) = 1 / 10 ^ 5 := by
    rw [show (1 / 10 ^ 10 : ℝ) = (1 / 10 ^ 5) ^ 2 by norm_num, Real.sqrt_sq (by norm_num)]
  refine ⟨_, hres, done, hI.dnodup, ?_, ?_, ?_⟩
  · intro G
    exact ⟨fun h => (hI.dsub G h).2, fun h => hcomplete _ G rfl h⟩
  · intro G hG
    obtain ⟨m, hm, hgap⟩ := collect_covers (pair b k₁ k₂) done G hG
    refine ⟨m, hm, fun t => ?_⟩
    rw [hfreq]
    refine (hclose m.x m.y G t).trans (div_le_div_of_nonneg_right ?_ hs.le)
    rw [← hsq]
    exact Real.sqrt_le_sqrt hgap.le
  · intro hsep m hm
    -- equal bands have equal numbers
    have hsame : ∀ (x y : ℝ) (p : Point d), 0 ≤ y →
        (∀ t, band b ε (segment k₁ k₂ t) p =
          √(y * y + ((l2Norm fun j => k₁ j - k₂ j) * t + x) * ((l2Norm fun j => k₁ j - k₂ j) * t + x)) / √ε) →
        pair b k₁ k₂ p = (x, y) := by
      intro x y p hy h
      set l := l2Norm fun j => k₁ j - k₂ j with hldef
      have hsq : ∀ t, (pair b k₁ k₂ p).2 * (pair b k₁ k₂ p).2 + (l * t + (pair b k₁ k₂ p).1) * (l * t + (pair b k₁ k₂ p).1) =
          y * y + (l * t + x) * (l * t + x) := by
        intro t
        have h1 := h t
        rw [← pair_band b ε k₁ k₂ hk p t, ← hldef, div_left_inj' hs.ne'] at h1
        have h2 := congrArg (fun v => v * v) h1
        rwa [Real.mul_self_sqrt (add_nonneg (mul_self_nonneg _) (mul_self_nonneg _)),
          Real.mul_self_sqrt (add_nonneg (mul_self_nonneg _) (mul_self_nonneg _))] at h2
      have a0 := hsq 0
      have a1 := hsq 1
      have hx : (pair b k₁ k₂ p).1 = x := by
        have : 2 * l * ((pair b k₁ k₂ p).1 - x) = 0 := by linarith
        have h3 : (pair b k₁ k₂ p).1 - x = 0 := by
          rcases mul_eq_zero.1 this with h' | h'
          · linarith
          · exact h'
        linarith
      have hy2 : (pair b k₁ k₂ p).2 = y := by
        have h4 : (pair b k₁ k₂ p).2 * (pair b k₁ k₂ p).2 = y * y := by rw [hx] at a0; linarith
        exact (mul_self_inj_of_nonneg (pair_nonneg b k₁ k₂ p) hy).1 h4
      exact Prod.ext hx hy2
    have hsepd : Separated (pair b k₁ k₂) done := by
      intro p hp q hq
      rcases hsep p hp q hq with h | ⟨t, ht⟩
      · left
        refine (hsame _ _ p (pair_nonneg b k₁ k₂ q) fun t => ?_)
        exact (h t).trans (pair_band b ε k₁ k₂ hk q t).symm
      · right
        rw [← pair_band b ε k₁ k₂ hk p t] at ht
        have h1 := ht.trans (hclose _ _ q t)
        rw [div_le_div_iff_of_pos_right hs] at h1
        have h2 := Real.le_sqrt' (by norm_num : (0 : ℝ) < 1 / 10 ^ 5) |>.1 h1
        refine le_trans (le_of_eq ?_) h2
        norm_num
    have hcount := (collect_count (pair b k₁ k₂) done hsepd).2 m hm
    rw [hcount]
    obtain ⟨p, hp, hx, hy⟩ := collect_origin _ _ m hm
    congr 2
    funext q
    congr 1
    apply propext
    constructor
    · intro h t
      rw [hfreq, ← pair_band b ε k₁ k₂ hk q t, h]
    · intro h
      refine hsame _ _ q ?_ fun t => by rw [h t, hfreq]
      rw [hy]
      exact pair_nonneg b k₁ k₂ p

/-- **C121**. Without a direction there is no result: for equal wave vectors the direction is NaN. -/
theorem lines_same (b : Fin d → Fin d → ℝ) (ε : ℝ) (k : Fin d → ℝ) (M : ℝ) : lines b ε k k M = none := by
  have : (l2Norm fun j => k j - k j) = 0 := l2Norm_eq_zero.2 (by funext j; simp)
  rw [lines, if_pos this]

/-- The square lattice. -/
def unitSquare : Fin 2 → Fin 2 → ℝ := ![![1, 0], ![0, 1]]

/-- **C121** (violated). On the segment from `(0, 0)` to `(3, 1)` in the square lattice the band of the lattice point
`(3, 1)` goes down to zero at the end; but for the bound 1/10 all points between are left out, with their neighbours,
and every line that is given is at two or more there. -/
theorem lines_missed : ∃ s, lines unitSquare 1 (fun _ => 0) ![3, 1] (1 / 10) = some s ∧
    band unitSquare 1 (segment (fun _ => 0) ![3, 1] 1) ![3, 1] = 0 ∧ ∀ m ∈ s.modes, 2 ≤ s.frequency m 1 := by
  have hreg : Regular unitSquare := by
    rw [Regular, Matrix.det_fin_two]
    simp [unitSquare]
  have hk : (fun _ => 0 : Fin 2 → ℝ) ≠ ![3, 1] := by
    intro h
    have := congrFun h 1
    norm_num at this
  obtain ⟨init, c, done, hinit, hI, hr⟩ := lines_search unitSquare 1 (fun _ => 0) ![3, 1] hreg one_pos hk (1 / 10)
  have hsolve : ∀ i, round (solve unitSquare (fun _ => 0) i) = 0 := by
    intro i
    have : solve unitSquare (fun _ : Fin 2 => (0 : ℝ)) = 0 := by
      rw [solve, if_neg hreg]
      exact Matrix.mulVec_zero _
    rw [this, Pi.zero_apply, round, if_pos le_rfl]
    norm_num
  have hcoord : ∀ (p : Point 2) (t : ℝ) (j : Fin 2),
      |segment (fun _ => 0) ![3, 1] t j - p j| ≤ band unitSquare 1 (segment (fun _ => 0) ![3, 1] t) p := by
    intro p t j
    rw [band, Real.sqrt_one, div_one]
    have h1 := abs_le_l2Norm (fun j => segment (fun _ => 0) ![3, 1] t j - latticeVector unitSquare p j) j
    have h2 : latticeVector unitSquare p j = p j := by
      fin_cases j <;> simp [latticeVector, unitSquare, Fin.sum_univ_two]
    have h3 : l2Norm (fun j => segment (fun _ => 0) ![3, 1] t j - latticeVector unitSquare p j) =
        length (fun j => segment (fun _ => 0) ![3, 1] t j - latticeVector unitSquare p j) := by
      rw [l2Norm, length]; congr 1; exact Finset.sum_congr rfl fun j _ => (sq _).symm
    simp only [h2] at h1
    rw [← h3]
    simpa [h2] using h1
  have hbox : ∀ p ∈ c, ∀ i, |p i| ≤ 1 := by
    refine hI.closed (fun p => ∀ i, |p i| ≤ 1) ?_ ?_
    · intro p hp i
      have := (hinit p).1 hp i
      rwa [hsolve, sub_zero] at this
    · rintro r p hr1 ⟨t, h0, h1, h2⟩ hn i
      have a0 := abs_le.1 ((hcoord r t 0).trans h2)
      have a1 := abs_le.1 ((hcoord r t 1).trans h2)
      simp only [segment, Matrix.cons_val_zero, Matrix.cons_val_one, sub_zero, zero_add, mul_one] at a0 a1
      have b1 : ((r 0 - 3 * r 1 : Int) : ℝ) < 1 := by push_cast; linarith
      have b2 : (-1 : ℝ) < ((r 0 - 3 * r 1 : Int) : ℝ) := by push_cast; linarith
      have b1' : r 0 - 3 * r 1 < 1 := by exact_mod_cast b1
      have b2' : -1 < r 0 - 3 * r 1 := by exact_mod_cast b2
      have c0 := abs_le.1 (hr1 0)
      have c1 := abs_le.1 (hr1 1)
      have hr0 : ∀ i, r i = 0 := by
        intro i
        fin_cases i
        · show r 0 = 0; omega
        · show r 1 = 0; omega
      have := hn.2 i
      rwa [hr0 i, sub_zero] at this
  refine ⟨_, hr, ?_, ?_⟩
  · rw [band, length, Real.sqrt_one, div_one]
    simp [segment, latticeVector, unitSquare, Fin.sum_univ_two]
  · intro m hm
    obtain ⟨p, hp, hx, hy⟩ := collect_origin _ _ m hm
    have hpb := abs_le.1 (hbox p (hI.dsub p hp).1 0)
    have h1 := hcoord p 1 0
    have h2 := pair_band unitSquare 1 (fun _ => 0) ![3, 1] hk p 1
    rw [LineSet.frequency, hx, hy]
    refine le_trans ?_ (le_trans h1 (le_of_eq h2.symm))
    simp only [segment, Matrix.cons_val_zero, sub_zero, zero_add, one_mul]
    have h3 : (p 0 : ℝ) ≤ 1 := by exact_mod_cast hpb.2
    exact le_trans (by linarith) (le_abs_self _)

/-- The hypotheses of `lines_complete_partial` hold for the path from the centre of the zone to a corner. -/
example : Orthogonal unitSquare ∧ (fun _ => 0 : Fin 2 → ℝ) ≠ ![1 / 2, 1 / 2] ∧
    (∀ j, ∑ i, (![1 / 2, 1 / 2] : Fin 2 → ℝ) i * unitSquare i j = (![1 / 2, 1 / 2] : Fin 2 → ℝ) j) ∧
    ∀ i, |(![1 / 2, 1 / 2] : Fin 2 → ℝ) i - 0| ≤ 1 := by
  refine ⟨⟨?_, ?_⟩, ?_, ?_, ?_⟩
  · intro i j hij
    fin_cases i <;> fin_cases j <;> simp_all [unitSquare, Fin.sum_univ_two]
  · intro i h
    have := congrFun h i
    fin_cases i <;> simp [unitSquare] at this
  · intro h
    have := congrFun h 0
    norm_num at this
  · intro j
    fin_cases j <;> simp [unitSquare, Fin.sum_univ_two]
  · intro i
    fin_cases i <;> simp <;> norm_num

end Verif.Bands
