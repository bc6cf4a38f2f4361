import Verif.Bands.Lemmas
import Verif.Bands.Spec
import Mathlib.Tactic.LinearCombination

set_option linter.all false

/-! # Helpers: the search for the spectrum -/
namespace Verif.Bands

variable {d : Nat}

theorem frequency_eq_band (b : Fin d → Vec d) (ε : ℝ) (k : Vec d) (p : Point d) :
    frequency b ε k p = band b ε k p := by
  rw [frequency, band, l2Norm, length]
  congr 2
  refine Finset.sum_congr rfl fun j _ => ?_
  simp only [position, latticeVector]
  ring

theorem NearlyOrthogonal.regular {b : Fin d → Vec d} (h : NearlyOrthogonal b) : Regular b := by
  intro h0
  set A : Matrix (Fin d) (Fin d) ℝ := Matrix.of fun coord vec => b vec coord with hA
  have hg : (A.transpose * A).det ≠ 0 := by
    apply det_ne_zero_of_sum_row_lt_diag
    intro i
    have e : ∀ j, (A.transpose * A) i j = ∑ c, b i c * b j c := by
      intro j
      simp [Matrix.mul_apply, hA]
    simp only [e, Real.norm_eq_abs]
    have h1 := h i
    have h2 : (0 : ℝ) ≤ ∑ c, b i c * b i c := Finset.sum_nonneg fun c _ => mul_self_nonneg _
    have h3 : (0 : ℝ) ≤ ∑ j ∈ Finset.univ.erase i, |∑ c, b i c * b j c| := Finset.sum_nonneg fun c _ => abs_nonneg _
    rw [abs_of_nonneg h2]
    linarith
  apply hg
  rw [Matrix.det_mul, h0, mul_zero]

theorem Orthogonal.nearly {b : Fin d → Vec d} (h : Orthogonal b) : NearlyOrthogonal b := by
  intro i
  rw [Finset.sum_eq_zero fun j hj => by rw [h.1 i j (Finset.ne_of_mem_erase hj).symm, abs_zero]]
  have h2 : (0 : ℝ) ≤ ∑ c, b i c * b i c := Finset.sum_nonneg fun c _ => mul_self_nonneg _
  have h3 : ∑ c, b i c * b i c ≠ 0 := by
    intro h0
    apply h.2 i
    have : l2Norm (b i) = 0 := by rw [l2Norm, h0, Real.sqrt_zero]
    exact l2Norm_eq_zero.1 this
  have : 0 < ∑ c, b i c * b i c := lt_of_le_of_ne h2 (Ne.symm h3)
  linarith

/-- One coordinate moved by `s`. -/
def shift (p : Point d) (i : Fin d) (s : Int) : Point d := Function.update p i (p i + s)

theorem shift_next (p : Point d) (i : Fin d) (s : Int) (hs : s = 1 ∨ s = -1) : Next p (shift p i s) := by
  refine ⟨?_, ?_⟩
  · intro h
    have := congrFun h i
    simp [shift] at this
    omega
  · intro j
    by_cases hj : j = i
    · subst hj; simp [shift]; rcases hs with rfl | rfl <;> simp
    · simp [shift, hj]

theorem shift_norm (b : Fin d → Vec d) (v : Vec d) (i : Fin d) (s : ℝ) (hs : s * s = 1) :
    ∑ j, (v j + s * b i j) * (v j + s * b i j) =
      ∑ j, v j * v j + 2 * s * (∑ j, v j * b i j) + ∑ j, b i j * b i j := by
  rw [Finset.mul_sum, ← Finset.sum_add_distrib, ← Finset.sum_add_distrib]
  refine Finset.sum_congr rfl fun j _ => ?_
  linear_combination (b i j * b i j) * hs

theorem shift_position (b : Fin d → Vec d) (k : Vec d) (p : Point d) (i : Fin d) (s : Int) :
    (fun j => position b (shift p i s) j - k j) = fun j => (position b p j - k j) + (s : ℝ) * b i j := by
  funext j
  have : ∀ c, ((shift p i s c : Int) : ℝ) * b c j = (p c : ℝ) * b c j + (if c = i then (s : ℝ) * b i j else 0) := by
    intro c
    by_cases hc : c = i
    · subst hc; simp [shift]; ring
    · simp [shift, hc]
  simp only [position, this, Finset.sum_add_distrib, Finset.sum_ite_eq', Finset.mem_univ, if_true]
  ring

theorem combination_dot (b : Fin d → Vec d) (δ w : Vec d) :
    ∑ j, combination b δ j * w j = ∑ c, δ c * ∑ j, b c j * w j := by
  simp only [combination, Finset.sum_mul, Finset.mul_sum]
  rw [Finset.sum_comm]
  refine Finset.sum_congr rfl fun c _ => Finset.sum_congr rfl fun j _ => by ring

/-- Far from the wave vector there is a point next to a point that is closer. -/
theorem closer (b : Fin d → Vec d) (h : NearlyOrthogonal b) (k x : Vec d) (hx : combination b x = k) (p : Point d)
    (hp : ∃ i, 3 / 2 ≤ |(p i : ℝ) - x i|) :
    ∃ n, Next p n ∧ l2Norm (fun j => position b n j - k j) < l2Norm (fun j => position b p j - k j) := by
  obtain ⟨i0, hi0⟩ := hp
  obtain ⟨i, -, hi⟩ := Finset.exists_max_image Finset.univ (fun i => |(p i : ℝ) - x i|) ⟨i0, Finset.mem_univ _⟩
  have hi1 : 3 / 2 ≤ |(p i : ℝ) - x i| := hi0.trans (hi i0 (Finset.mem_univ _))
  set δ : Vec d := fun i => (p i : ℝ) - x i with hδ
  obtain ⟨s, hs, hsd⟩ : ∃ s : Int, (s = 1 ∨ s = -1) ∧ (s : ℝ) * δ i = -|δ i| := by
    rcases le_total 0 (δ i) with h0 | h0
    · exact ⟨-1, Or.inr rfl, by rw [abs_of_nonneg h0]; push_cast; ring⟩
    · exact ⟨1, Or.inl rfl, by rw [abs_of_nonpos h0]; push_cast; ring⟩
  have hss : (s : ℝ) * s = 1 := by rcases hs with rfl | rfl <;> norm_num
  have hsa : |(s : ℝ)| = 1 := by rcases hs with rfl | rfl <;> norm_num
  refine ⟨shift p i s, shift_next p i s hs, ?_⟩
  rw [shift_position, l2Norm, l2Norm]
  apply Real.sqrt_lt_sqrt (Finset.sum_nonneg fun i _ => mul_self_nonneg _)
  have hv := position_sub b k x hx p
  have hv' : ∀ j, position b p j - k j = combination b δ j := fun j => congrFun hv j
  simp only [hv']
  rw [shift_norm b _ i s hss, combination_dot b δ (b i)]
  have hg := h i
  set S := ∑ j ∈ Finset.univ.erase i, |∑ c, b i c * b j c| with hS
  have hsplit : ∑ c, δ c * ∑ j, b c j * b i j =
      δ i * (∑ j, b i j * b i j) + ∑ c ∈ Finset.univ.erase i, δ c * ∑ j, b c j * b i j := by
    rw [← Finset.add_sum_erase _ _ (Finset.mem_univ i)]
  have hrest : |∑ c ∈ Finset.univ.erase i, δ c * ∑ j, b c j * b i j| ≤ |δ i| * S := by
    refine (Finset.abs_sum_le_sum_abs _ _).trans ?_
    rw [hS, Finset.mul_sum]
    refine Finset.sum_le_sum fun c _ => ?_
    rw [abs_mul]
    have : ∑ j, b c j * b i j = ∑ j, b i j * b c j := Finset.sum_congr rfl fun j _ => mul_comm _ _
    rw [this]
    exact mul_le_mul_of_nonneg_right (hi c (Finset.mem_univ _)) (abs_nonneg _)
  have hrest2 : (s : ℝ) * ∑ c ∈ Finset.univ.erase i, δ c * ∑ j, b c j * b i j ≤ |δ i| * S := by
    refine (le_abs_self _).trans ?_
    rw [abs_mul, hsa, one_mul]
    exact hrest
  have hSn : 0 ≤ S := Finset.sum_nonneg fun c _ => abs_nonneg _
  set g := ∑ j, b i j * b i j with hgd
  have hmul : 3 / 2 * (g - S) ≤ |δ i| * (g - S) := mul_le_mul_of_nonneg_right hi1 (by linarith)
  have e : 2 * (s : ℝ) * (∑ c, δ c * ∑ j, b c j * b i j) ≤ -2 * (|δ i| * (g - S)) := by
    rw [hsplit]
    have : 2 * (s : ℝ) * (δ i * g + ∑ c ∈ Finset.univ.erase i, δ c * ∑ j, b c j * b i j) =
        2 * ((s : ℝ) * δ i) * g + 2 * ((s : ℝ) * ∑ c ∈ Finset.univ.erase i, δ c * ∑ j, b c j * b i j) := by ring
    rw [this, hsd]
    linarith
  linarith

/-! ## The loop -/

/-- The key of a point. -/
def keyOf (f : Point d → ℝ) (p : Point d) : Key d := toLex (f p, toLex p)

theorem mem_seeds (f : Point d → ℝ) (M : ℝ) (e : Key d) : ∀ (ps : List (Point d)),
    e ∈ seeds f M ps ↔ ∃ p ∈ ps, f p ≤ M ∧ e = keyOf f p := by
  have key : ∀ (ps : List (Point d)) (q : Finset (Key d)),
      e ∈ ps.foldl (fun q p => if f p > M then q else insert (toLex (f p, toLex p)) q) q ↔
        e ∈ q ∨ ∃ p ∈ ps, f p ≤ M ∧ e = keyOf f p := by
    intro ps
    induction ps with
    | nil => intro q; simp
    | cons p ps ih =>
      intro q
      rw [List.foldl_cons, ih]
      by_cases hp : f p > M
      · rw [if_pos hp]
        constructor
        · rintro (h | ⟨p', h1, h2⟩)
          · exact Or.inl h
          · exact Or.inr ⟨p', List.mem_cons_of_mem _ h1, h2⟩
        · rintro (h | ⟨p', h1, h2, h3⟩)
          · exact Or.inl h
          · rcases List.mem_cons.1 h1 with rfl | h1
            · exact absurd h2 (not_le.2 hp)
            · exact Or.inr ⟨p', h1, h2, h3⟩
      · rw [if_neg hp]
        constructor
        · rintro (h | ⟨p', h1, h2⟩)
          · rcases Finset.mem_insert.1 h with h | h
            · exact Or.inr ⟨p, List.mem_cons_self, not_lt.1 hp, h⟩
            · exact Or.inl h
          · exact Or.inr ⟨p', List.mem_cons_of_mem _ h1, h2⟩
        · rintro (h | ⟨p', h1, h2, h3⟩)
          · exact Or.inl (Finset.mem_insert_of_mem h)
          · rcases List.mem_cons.1 h1 with rfl | h1
            · exact Or.inl (by rw [h3]; exact Finset.mem_insert_self _ _)
            · exact Or.inr ⟨p', h1, h2, h3⟩
  intro ps
  rw [seeds, key]
  simp

/-- What the loop keeps. -/
structure Inv (f : Point d → ℝ) (M : ℝ) (init : List (Point d)) (q : Finset (Key d)) (done : List (Point d)) : Prop where
  keys : ∀ e ∈ q, ∃ p, e = keyOf f p ∧ f p ≤ M ∧ p ∉ done ∧ ∀ r ∈ done, f r ≤ f p
  bound : ∀ p ∈ done, f p ≤ M
  nodup : done.Nodup
  sorted : done.Pairwise fun p r => f p ≤ f r
  start : ∀ p ∈ init, f p ≤ M → p ∈ done ∨ keyOf f p ∈ q
  spread : ∀ p ∈ done, ∀ n, Next p n → f p < f n → f n < M → n ∈ done ∨ keyOf f n ∈ q
  origin : ∀ p, p ∈ done ∨ keyOf f p ∈ q → p ∈ init ∨ ∃ r ∈ done, Next r p ∧ f r < f p ∧ f p < M

theorem keyOf_inj {f : Point d → ℝ} {p r : Point d} (h : keyOf f p = keyOf f r) : p = r := by
  have := congrArg (fun e => ofLex (ofLex e).2) h
  simpa [keyOf] using this

theorem enqueue_mem (f : Point d → ℝ) (M cur : ℝ) (q : Finset (Key d)) (n : Point d)
    (hq : ∀ e ∈ q, ∃ p, e = keyOf f p) (e : Key d) :
    e ∈ enqueue f M cur q n ↔ e ∈ q ∨ (e = keyOf f n ∧ cur < f n ∧ f n < M) := by
  classical
  rw [enqueue]
  by_cases h : f n > cur ∧ f n < M
  · rw [if_pos h]
    split
    · rename_i hf
      obtain ⟨e', he', hn⟩ := hf
      obtain ⟨p, rfl⟩ := hq e' he'
      have : p = n := by simpa [keyOf] using hn
      subst this
      constructor
      · exact Or.inl
      · rintro (h | ⟨rfl, -⟩)
        · exact h
        · exact he'
    · rw [Finset.mem_insert]
      constructor
      · rintro (h' | h')
        · exact Or.inr ⟨h', h.1, h.2⟩
        · exact Or.inl h'
      · rintro (h' | ⟨h', -⟩)
        · exact Or.inr h'
        · exact Or.inl h'
  · rw [if_neg h]
    constructor
    · exact Or.inl
    · rintro (h' | ⟨-, h'⟩)
      · exact h'
      · exact absurd h' h

theorem enqueue_all (f : Point d → ℝ) (M cur : ℝ) : ∀ (ns : List (Point d)) (q : Finset (Key d))
    (_ : ∀ e ∈ q, ∃ p, e = keyOf f p) (e : Key d),
    e ∈ ns.foldl (enqueue f M cur) q ↔ e ∈ q ∨ ∃ n ∈ ns, e = keyOf f n ∧ cur < f n ∧ f n < M := by
  intro ns
  induction ns with
  | nil => intro q _ e; simp
  | cons n ns ih =>
    intro q hq e
    rw [List.foldl_cons, ih _ (fun e he => ?_), enqueue_mem f M cur q n hq]
    · constructor
      · rintro ((h | h) | ⟨n', h1, h2⟩)
        · exact Or.inl h
        · exact Or.inr ⟨n, List.mem_cons_self, h⟩
        · exact Or.inr ⟨n', List.mem_cons_of_mem _ h1, h2⟩
      · rintro (h | ⟨n', h1, h2⟩)
        · exact Or.inl (Or.inl h)
        · rcases List.mem_cons.1 h1 with rfl | h1
          · exact Or.inl (Or.inr h2)
          · exact Or.inr ⟨n', h1, h2⟩
    · rcases (enqueue_mem f M cur q n hq e).1 he with h | ⟨h, -⟩
      · exact hq e h
      · exact ⟨n, h⟩

theorem Inv.step {f : Point d → ℝ} {M : ℝ} {init : List (Point d)} {q : Finset (Key d)} {done : List (Point d)}
    (h : Inv f M init q done) (p : Point d) (hp : keyOf f p ∈ q) (hmin : ∀ e ∈ q, keyOf f p ≤ e)
    (ns : List (Point d)) (hns : ∀ n, n ∈ ns ↔ Next p n) :
    Inv f M init (ns.foldl (enqueue f M (f p)) (q.erase (keyOf f p))) (done ++ [p]) := by
  have hkeys : ∀ e ∈ q, ∃ p, e = keyOf f p := fun e he => by
    obtain ⟨p, h1, -⟩ := h.keys e he; exact ⟨p, h1⟩
  have hmem := enqueue_all f M (f p) ns (q.erase (keyOf f p)) (fun e he => hkeys e (Finset.mem_of_mem_erase he))
  obtain ⟨p', e1, hpM, hpd, hple⟩ := h.keys _ hp
  obtain rfl := keyOf_inj e1
  have hle : ∀ r, keyOf f r ∈ q → f p ≤ f r := by
    intro r hr
    have := hmin _ hr
    rw [keyOf, keyOf, Prod.Lex.toLex_le_toLex] at this
    rcases this with h' | h'
    · exact h'.le
    · exact h'.1.le
  refine ⟨?_, ?_, ?_, ?_, ?_, ?_, ?_⟩
  · intro e he
    rcases (hmem e).1 he with he | ⟨n, hn, rfl, h1, h2⟩
    · obtain ⟨hne, he⟩ := Finset.mem_erase.1 he
      obtain ⟨r, rfl, hrM, hrd, hrle⟩ := h.keys e he
      have hrp : r ≠ p := fun hh => hne (by rw [hh])
      refine ⟨r, rfl, hrM, ?_, ?_⟩
      · simp [hrd, hrp]
      · intro a ha
        rcases List.mem_append.1 ha with ha | ha
        · exact hrle a ha
        · rw [List.mem_singleton.1 ha]; exact hle r he
    · refine ⟨n, rfl, h2.le, ?_, ?_⟩
      · intro hnd
        rcases List.mem_append.1 hnd with hnd | hnd
        · exact absurd (hple n hnd) (not_le.2 h1)
        · rw [List.mem_singleton.1 hnd] at h1; exact lt_irrefl _ h1
      · intro a ha
        rcases List.mem_append.1 ha with ha | ha
        · exact (hple a ha).trans h1.le
        · rw [List.mem_singleton.1 ha]; exact h1.le
  · intro a ha
    rcases List.mem_append.1 ha with ha | ha
    · exact h.bound a ha
    · rw [List.mem_singleton.1 ha]; exact hpM
  · rw [List.nodup_append]
    refine ⟨h.nodup, List.nodup_singleton _, ?_⟩
    intro a ha c hc
    rw [List.mem_singleton.1 hc]
    rintro rfl
    exact hpd ha
  · rw [List.pairwise_append]
    refine ⟨h.sorted, List.pairwise_singleton _ _, ?_⟩
    intro a ha c hc
    rw [List.mem_singleton.1 hc]
    exact hple a ha
  · intro a ha haM
    rcases h.start a ha haM with h' | h'
    · exact Or.inl (List.mem_append_left _ h')
    · by_cases hap : a = p
      · subst hap; exact Or.inl (by simp)
      · exact Or.inr ((hmem _).2 (Or.inl (Finset.mem_erase.2 ⟨fun hh => hap (keyOf_inj hh), h'⟩)))
  · intro a ha n hn h1 h2
    rcases List.mem_append.1 ha with ha | ha
    · rcases h.spread a ha n hn h1 h2 with h' | h'
      · exact Or.inl (List.mem_append_left _ h')
      · by_cases hap : n = p
        · subst hap; exact Or.inl (by simp)
        · exact Or.inr ((hmem _).2 (Or.inl (Finset.mem_erase.2 ⟨fun hh => hap (keyOf_inj hh), h'⟩)))
    · rw [List.mem_singleton.1 ha] at hn h1
      exact Or.inr ((hmem _).2 (Or.inr ⟨n, (hns n).2 hn, rfl, h1, h2⟩))
  · intro a ha
    have old : a ∈ done ∨ keyOf f a ∈ q → a ∈ init ∨ ∃ r ∈ done ++ [p], Next r a ∧ f r < f a ∧ f a < M := by
      intro hh
      rcases h.origin a hh with h' | ⟨r, hr, h'⟩
      · exact Or.inl h'
      · exact Or.inr ⟨r, List.mem_append_left _ hr, h'⟩
    rcases ha with ha | ha
    · rcases List.mem_append.1 ha with ha | ha
      · exact old (Or.inl ha)
      · rw [List.mem_singleton.1 ha] at old ⊢
        exact old (Or.inr hp)
    · rcases (hmem _).1 ha with ha | ⟨n, hn, he, h1, h2⟩
      · exact old (Or.inr (Finset.mem_of_mem_erase ha))
      · obtain rfl := keyOf_inj he
        exact Or.inr ⟨p, by simp, (hns a).1 hn, h1, h2⟩

/-- What a list of points gives. -/
noncomputable def listing (f : Point d → ℝ) (ps : List (Point d)) : List ℝ :=
  ps.flatMap fun p => List.replicate (modes d (f p)) (f p)

theorem loop_total (f : Point d → ℝ) (M : ℝ) (init : List (Point d)) (F : Finset (Point d))
    (hF : ∀ p, f p ≤ M → p ∈ F) : ∀ (m : Nat) (q : Finset (Key d)) (done : List (Point d)) (_ : Inv f M init q done)
    (_ : (F.filter (· ∉ done)).card = m),
    ∃ done', Inv f M init ∅ done' ∧ spectrumLoop f M q (listing f done) = some (listing f done') := by
  intro m
  induction m using Nat.strong_induction_on with
  | _ m ih =>
    intro q done hI hm
    rw [spectrumLoop]
    by_cases h : q.Nonempty
    · rw [dif_pos h]
      obtain ⟨p, hpe, hpM, hpd, hple⟩ := hI.keys _ (q.min'_mem h)
      obtain ⟨ns, hns, hmem⟩ := neighbours_eq (d := d) p
      have e1 : ofLex (ofLex (q.min' h)).2 = p := by rw [hpe]; rfl
      have e2 : (ofLex (q.min' h)).1 = f p := by rw [hpe]; rfl
      rw [e1, e2, hns, hpe]
      have hst := hI.step p (by rw [← hpe]; exact q.min'_mem h) (fun e he => by rw [← hpe]; exact q.min'_le e he) ns hmem
      have hlt : (F.filter (· ∉ done ++ [p])).card < m := by
        rw [← hm]
        apply Finset.card_lt_card
        rw [Finset.ssubset_iff_of_subset]
        · exact ⟨p, Finset.mem_filter.2 ⟨hF p hpM, hpd⟩, by simp⟩
        · intro a ha
          rw [Finset.mem_filter] at ha ⊢
          exact ⟨ha.1, fun hh => ha.2 (List.mem_append_left _ hh)⟩
      obtain ⟨done', h1, h2⟩ := ih _ hlt _ _ hst rfl
      refine ⟨done', h1, ?_⟩
      rw [← h2]
      congr 1
      simp [listing]
    · rw [dif_neg h]
      rw [Finset.not_nonempty_iff_eq_empty] at h
      subst h
      exact ⟨done, hI, rfl⟩

theorem Inv.initial (f : Point d → ℝ) (M : ℝ) (init : List (Point d)) : Inv f M init (seeds f M init) [] := by
  refine ⟨?_, by simp, List.nodup_nil, List.Pairwise.nil, ?_, by simp, ?_⟩
  · intro e he
    obtain ⟨p, -, h1, h2⟩ := (mem_seeds f M e init).1 he
    exact ⟨p, h2, h1, by simp, by simp⟩
  · intro p hp hpM
    exact Or.inr ((mem_seeds f M _ init).2 ⟨p, hp, hpM, rfl⟩)
  · intro p hp
    rcases hp with hp | hp
    · simp at hp
    · obtain ⟨r, hr, -, h2⟩ := (mem_seeds f M _ init).1 hp
      rw [keyOf_inj h2]
      exact Or.inl hr

theorem frequency_le_iff (b : Fin d → Vec d) (ε : ℝ) (hε : 0 < ε) (k : Vec d) (p : Point d) (M : ℝ) :
    frequency b ε k p ≤ M ↔ l2Norm (fun j => position b p j - k j) ≤ M * √ε := by
  rw [frequency, div_le_iff₀ (Real.sqrt_pos.2 hε)]

/-- The whole search, for any basis. -/
theorem spectrum_total (b : Fin d → Vec d) (hb : Regular b) (ε : ℝ) (hε : 0 < ε) (k : Vec d) (M : ℝ) :
    ∃ init done, nearest b k = some init ∧ (∀ p, p ∈ init ↔ ∀ i, |p i - round (solve b k i)| ≤ 1) ∧
      Inv (frequency b ε k) M init ∅ done ∧
      linearSpectrum b ε k M = some (listing (frequency b ε k) done) := by
  obtain ⟨init, h1, h2, h3⟩ := nearest_eq b k
  have hfin : {p : Point d | frequency b ε k p ≤ M}.Finite := by
    refine (finite_within b k hb (M * √ε)).subset ?_
    intro p hp
    exact (frequency_le_iff b ε hε k p M).1 hp
  obtain ⟨done, hI, hd⟩ := loop_total (frequency b ε k) M init hfin.toFinset (fun p hp => hfin.mem_toFinset.2 hp) _ _ _
    (Inv.initial (frequency b ε k) M init) rfl
  refine ⟨init, done, h1, h3, hI, ?_⟩
  rw [linearSpectrum, h1]
  exact hd

/-- Every point is found if there is always a closer point next to it. -/
theorem Inv.complete {f : Point d → ℝ} {M : ℝ} {init : List (Point d)} {done : List (Point d)}
    (h : Inv f M init ∅ done) (hfin : {p : Point d | f p ≤ M}.Finite)
    (hlow : ∀ p, p ∉ init → ∃ n, Next p n ∧ f n < f p) : ∀ p, f p < M → p ∈ done := by
  by_contra hc
  push Not at hc
  obtain ⟨p0, hp0, hn0⟩ := hc
  have hbad : {p : Point d | f p < M ∧ p ∉ done}.Finite := hfin.subset fun p hp => le_of_lt hp.1
  obtain ⟨p, hp, hmin⟩ := Set.exists_min_image _ f hbad ⟨p0, hp0, hn0⟩
  by_cases hi : p ∈ init
  · rcases h.start p hi hp.1.le with h' | h'
    · exact hp.2 h'
    · simp at h'
  · obtain ⟨n, hn, hnf⟩ := hlow p hi
    have hnd : n ∈ done := by
      by_contra hh
      exact absurd (hmin n ⟨hnf.trans hp.1, hh⟩) (not_le.2 hnf)
    have hsym : Next n p := ⟨hn.1.symm, fun i => by rw [abs_sub_comm]; exact hn.2 i⟩
    rcases h.spread n hnd p hsym hnf hp.1 with h' | h'
    · exact hp.2 h'
    · simp at h'

theorem far_of_not_near (b : Fin d → Vec d) (k : Vec d) (p : Point d)
    (hp : ¬ ∀ i, |p i - round (solve b k i)| ≤ 1) : ∃ i, 3 / 2 ≤ |(p i : ℝ) - solve b k i| := by
  push Not at hp
  obtain ⟨i, hi⟩ := hp
  refine ⟨i, ?_⟩
  have h2 : (2 : ℝ) ≤ |(p i : ℝ) - round (solve b k i)| := by
    have : (2 : Int) ≤ |p i - round (solve b k i)| := hi
    exact_mod_cast this
  have h3 := round_close (solve b k i)
  have h4 : |(p i : ℝ) - round (solve b k i)| ≤ |(p i : ℝ) - solve b k i| + |(round (solve b k i) : ℝ) - solve b k i| := by
    have := abs_sub (a := (p i : ℝ) - solve b k i) (b := (round (solve b k i) : ℝ) - solve b k i)
    simpa using this
  linarith

end Verif.Bands
