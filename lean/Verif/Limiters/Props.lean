import Verif.Limiters.LemmasLoop

/-!
# Properties of the limiters of the shallow granular flow application

`mean` is half of the integral over the reference line; `Looked` are the nodes and quadrature points.
-/
namespace Verif.Limiters

variable {n v : ℕ}

/-! ## C129: the layer limiter -/

/-- The limiter never changes the amount of material in an element. It does not touch the variables
after the discharge, and if the mean height is at least the layer thickness it also keeps the mean
discharge. -/
theorem positiveLayer_conserves {S : Space n} (A : Adequate S) {minH w : ℝ} (hw : 0 < w)
    (u u' : Fin (v + 2) → Fin n → ℝ) (h : positiveLayer S minH w u = some u') :
    mean S (u' 0) = mean S (u 0) ∧ (∀ i, 2 ≤ i.val → u' i = u i) ∧
    (minH ≤ mean S (u 0) → mean S (u' 1) = mean S (u 1)) := by
  obtain ⟨a, b, c⟩ := positiveLayer_means A hw u u' h
  exact ⟨a, b, fun hm => c hm 1⟩

/-- A solution that is thick enough wherever the limiter looks is left alone. -/
theorem positiveLayer_keeps (S : Space n) (minH w : ℝ) (u : Fin (v + 2) → Fin n → ℝ)
    (h : ∀ x, Looked S x → minH ≤ S.value (u 0) x) : positiveLayer S minH w u = some u := by
  unfold positiveLayer
  rw [if_pos]
  exact (le_minimum S (u 0) minH).mpr h

/-- The limiter fails exactly if it has to do something and the mean height is negative (up to
rounding). -/
theorem positiveLayer_fails {S : Space n} (A : Adequate S) {minH w : ℝ} (hw : 0 < w)
    (u : Fin (v + 2) → Fin n → ℝ) :
    positiveLayer S minH w u = none ↔
      (∃ x, Looked S x ∧ S.value (u 0) x < minH) ∧ mean S (u 0) ≤ -(1 / 10 ^ 16) := by
  rw [← minimum_lt]
  rcases positiveLayer_eq A hw u (minH := minH) with ⟨h, e⟩ | ⟨h, k, e⟩ | ⟨h, k, a, b, e, c⟩
  · rw [e]; simp [not_lt.mpr h]
  · rw [e]; exact ⟨fun _ => ⟨h, k⟩, fun _ => rfl⟩
  · rw [e]; simp only [reduceCtorEq, false_iff, not_and, not_le]; exact fun _ => k

/-- An element whose mean height is below the layer thickness becomes a resting layer of constant
height. -/
theorem positiveLayer_dries {S : Space n} (A : Adequate S) {minH w : ℝ} (hw : 0 < w)
    (u : Fin (v + 2) → Fin n → ℝ) (h1 : ∃ x, Looked S x ∧ S.value (u 0) x < minH)
    (h2 : -(1 / 10 ^ 16) < mean S (u 0)) (h3 : mean S (u 0) < minH) :
    ∃ u', positiveLayer S minH w u = some u' ∧ (∀ x, S.value (u' 0) x = mean S (u 0)) ∧
      ∀ x, S.value (u' 1) x = 0 := by
  rw [← minimum_lt] at h1
  rcases positiveLayer_eq A hw u (minH := minH) with ⟨h, e⟩ | ⟨h, k, e⟩ | ⟨h, k, a, b, e, c⟩
  · exact absurd h1 (not_lt.mpr h)
  · exact absurd h2 (not_lt.mpr k)
  · rcases c with ⟨_, ca, cb⟩ | ⟨c, _⟩
    · refine ⟨_, e, fun x => ?_, fun x => ?_⟩
      · rw [Function.update_of_ne (by simp), Function.update_self, ca]
      · rw [Function.update_self, cb]
    · exact absurd h3 (not_lt.mpr c)

/-- If the mean height and the mean of the heights of the two nodes are at least the layer thickness,
then after limiting the height is at least the layer thickness wherever the limiter looks. Missing:
nodes with a lower mean, see `positiveLayer_below`. -/
theorem positiveLayer_restores_partial {S : Space n} (A : Adequate S) {minH w : ℝ} (hw : 0 < w)
    (u u' : Fin (v + 2) → Fin n → ℝ) (h : positiveLayer S minH w u = some u')
    (h1 : minH ≤ mean S (u 0)) (h2 : minH ≤ (S.value (u 0) (-1) + S.value (u 0) 1) / 2)
    (x : ℝ) (hx : Looked S x) : minH ≤ S.value (u' 0) x := by
  rcases positiveLayer_eq A hw u (minH := minH) with ⟨k, e⟩ | ⟨_, _, e⟩ | ⟨_, k, a, b, e, c⟩
  · rw [e] at h; obtain rfl := Option.some.inj h
    exact (le_minimum S _ _).mp k x hx
  · rw [e] at h; simp at h
  · rw [e] at h; obtain rfl := Option.some.inj h
    rw [Function.update_of_ne (by simp), Function.update_self]
    rcases c with ⟨c, _⟩ | ⟨_, f, hf, ca, _⟩
    · exact absurd h1 (not_le.mpr c)
    · rw [ca x]
      obtain ⟨x1, x2⟩ := looked_inside A hx
      have s0 : 0 ≤ min ((S.value (u 0) (-1) + S.value (u 0) 1 - 2 * minH) / 2) (mean S (u 0) - minH) :=
        le_min (by linarith) (by linarith)
      have s1 := min_le_right ((S.value (u 0) (-1) + S.value (u 0) 1 - 2 * minH) / 2) (mean S (u 0) - minH)
      generalize min ((S.value (u 0) (-1) + S.value (u 0) 1 - 2 * minH) / 2) (mean S (u 0) - minH) = s at s0 s1
      split_ifs at hf <;> subst hf <;> nlinarith

/-- If the height is a linear function, it suffices that its mean is at least the layer thickness. -/
theorem positiveLayer_restores_linear {S : Space n} (A : Adequate S) {minH w : ℝ} (hw : 0 < w)
    (u u' : Fin (v + 2) → Fin n → ℝ) (h : positiveLayer S minH w u = some u')
    (a b : ℝ) (hl : ∀ x, S.value (u 0) x = a + b * x) (h1 : minH ≤ a) (x : ℝ) (hx : Looked S x) :
    minH ≤ S.value (u' 0) x := by
  refine positiveLayer_restores_partial A hw u u' h ?_ ?_ x hx
  · rw [mean_linear S _ a b hl]; exact h1
  · rw [hl, hl]; linarith

/-- The discharge is zero in the node where the old height is least, if the limiter acts. -/
theorem positiveLayer_discharge {S : Space n} (A : Adequate S) {minH w : ℝ} (hw : 0 < w)
    (u u' : Fin (v + 2) → Fin n → ℝ) (h : positiveLayer S minH w u = some u')
    (h1 : ∃ x, Looked S x ∧ S.value (u 0) x < minH) :
    (S.value (u 0) 1 < S.value (u 0) (-1) → S.value (u' 1) 1 = 0) ∧
    (S.value (u 0) (-1) ≤ S.value (u 0) 1 → S.value (u' 1) (-1) = 0) := by
  rw [← minimum_lt] at h1
  rcases positiveLayer_eq A hw u (minH := minH) with ⟨k, e⟩ | ⟨_, _, e⟩ | ⟨_, k, a, b, e, c⟩
  · exact absurd h1 (not_lt.mpr k)
  · rw [e] at h; simp at h
  · rw [e] at h; obtain rfl := Option.some.inj h
    rw [Function.update_self]
    rcases c with ⟨_, _, c⟩ | ⟨_, f, hf, _, c⟩
    · exact ⟨fun _ => c _, fun _ => c _⟩
    · constructor
      · intro hlt
        rw [if_pos hlt] at hf
        rw [c, hf]; ring
      · intro hle
        rw [if_neg (not_lt.mpr hle)] at hf
        rw [c, hf]; ring

/-- If the mean of the heights of the nodes is further below the layer thickness than the mean height
is above it, then after limiting the height of one of the nodes is below the layer thickness. -/
theorem positiveLayer_below {S : Space n} (A : Adequate S) {minH w : ℝ} (hw : 0 < w) (hH : 0 ≤ minH)
    (u : Fin (v + 2) → Fin n → ℝ) (h1 : minH ≤ mean S (u 0))
    (h2 : (S.value (u 0) (-1) + S.value (u 0) 1) / 2 < minH - (mean S (u 0) - minH)) :
    ∃ u', positiveLayer S minH w u = some u' ∧
      (S.value (u' 0) (-1) < minH ∨ S.value (u' 0) 1 < minH) := by
  have low : S.minimum (u 0) < minH := by
    rw [minimum_lt]
    by_contra hc
    push Not at hc
    have a := hc (-1) (Or.inl rfl)
    have b := hc 1 (Or.inr (Or.inl rfl))
    linarith
  have e16 : (0 : ℝ) < 1 / 10 ^ 16 := by norm_num
  rcases positiveLayer_eq A hw u (minH := minH) with ⟨k, e⟩ | ⟨_, k, e⟩ | ⟨_, k, a, b, e, c⟩
  · exact absurd low (not_lt.mpr k)
  · linarith
  · refine ⟨_, e, ?_⟩
    rw [Function.update_of_ne (by simp), Function.update_self]
    rcases c with ⟨c, _⟩ | ⟨_, f, hf, ca, _⟩
    · exact absurd h1 (not_le.mpr c)
    · rw [ca, ca]
      have s1 := min_le_left ((S.value (u 0) (-1) + S.value (u 0) 1 - 2 * minH) / 2) (mean S (u 0) - minH)
      generalize min ((S.value (u 0) (-1) + S.value (u 0) 1 - 2 * minH) / 2) (mean S (u 0) - minH) = s at s1
      split_ifs at hf <;> subst hf
      · left; linarith
      · right; linarith

/-- Linear elements are adequate. A height that is too low in the left node is repaired. -/
example : Adequate linear ∧ (1 : ℝ) ≤ mean linear ![0, 4] ∧
    (∃ x, Looked linear x ∧ linear.value ![0, 4] x < 1) :=
  ⟨adequate_linear, by rw [mean_lin]; simp <;> norm_num, -1, Or.inl rfl, by rw [value_linear]; simp <;> norm_num⟩

/-- Quadratic elements are adequate, and the hypotheses of `positiveLayer_below` are met by a height
with mean 4 that is -3 in both nodes. -/
example : Adequate quadratic ∧ (1 : ℝ) ≤ mean quadratic ![-3, -3, -21 / 2] ∧
    (quadratic.value ![-3, -3, -21 / 2] (-1) + quadratic.value ![-3, -3, -21 / 2] 1) / 2
      < 1 - (mean quadratic ![-3, -3, -21 / 2] - 1) := by
  refine ⟨adequate_quadratic, ?_, ?_⟩
  · rw [mean_quadratic]; simp <;> norm_num
  · rw [mean_quadratic, value_quadratic, value_quadratic]; simp <;> norm_num

/-! ## C130: the squeezing limiter and the averaging limiter -/

/-- The squeezing limiter keeps the mean height; if this is at least the layer thickness it also keeps
the mean discharge, and the height is at least the layer thickness wherever the limiter looks,
whatever the degree of the polynomials. -/
theorem squeezeLimiter_correct {S : Space n} (A : Adequate S) {minH w : ℝ} (hw : 0 < w)
    (u u' : Fin (v + 2) → Fin n → ℝ) (h : squeezeLimiter S minH w u = some u') :
    mean S (u' 0) = mean S (u 0) ∧ (∀ i, 2 ≤ i.val → u' i = u i) ∧
    (minH ≤ mean S (u 0) → mean S (u' 1) = mean S (u 1) ∧
      ∀ x, Looked S x → minH ≤ S.value (u' 0) x) := by
  have up : ∀ (a b : Fin n → ℝ) (i : Fin (v + 2)), 2 ≤ i.val →
      Function.update (Function.update u 0 a) 1 b i = u i := by
    intro a b i hi
    have h1 : i ≠ 1 := by rintro rfl; simp at hi
    have h0 : i ≠ 0 := by rintro rfl; simp at hi
    rw [Function.update_of_ne h1, Function.update_of_ne h0]
  have z : (0 : Fin (v + 2)) ≠ 1 := by simp
  rcases squeeze_eq A hw u (minH := minH) with ⟨k, e⟩ | ⟨_, _, e⟩ | ⟨_, _, _, e⟩ | ⟨hlt, k, a, b, e, c⟩
  · rw [e] at h; obtain rfl := Option.some.inj h
    exact ⟨rfl, fun _ _ => rfl, fun _ => ⟨rfl, (le_minimum S _ _).mp k⟩⟩
  · rw [e] at h; simp at h
  · rw [e] at h; simp at h
  · rw [e] at h; obtain rfl := Option.some.inj h
    rw [Function.update_self, Function.update_of_ne z, Function.update_self]
    rcases c with ⟨cm, ca, cb⟩ | ⟨cm, f, _, ca, cb⟩
    · exact ⟨mean_linear S a _ 0 fun x => by rw [ca x]; ring, up a b, fun hm => absurd hm (not_le.mpr cm)⟩
    · have pos : 0 < mean S (u 0) - S.minimum (u 0) := by linarith
      set t := (mean S (u 0) - minH) / (mean S (u 0) - S.minimum (u 0)) with ht
      have t0 : 0 ≤ t := div_nonneg (by linarith) pos.le
      have tt : t * (mean S (u 0) - S.minimum (u 0)) = mean S (u 0) - minH := by
        rw [ht]; field_simp
      refine ⟨?_, up a b, fun hm => ⟨?_, fun x hx => ?_⟩⟩
      · rw [mean_comb S A (u 0) a (mean S (u 0) - t * mean S (u 0)) t fun x => by rw [ca x]; ring]
        ring
      · rw [mean_comb S A (u 1) b (mean S (u 1) - f * mean S (u 1)) f fun x => by rw [cb x]; ring]
        ring
      · rw [ca x]
        have := (le_minimum S (u 0) (S.minimum (u 0))).mp le_rfl x hx
        nlinarith

/-- If the discharge is constant and negative, the squeezing limiter divides by zero whenever it has
to squeeze. -/
theorem squeezeLimiter_not_finite {S : Space n} (A : Adequate S) {minH w : ℝ} (hw : 0 < w)
    (u : Fin (v + 2) → Fin n → ℝ) (h1 : ∃ x, Looked S x ∧ S.value (u 0) x < minH)
    (h2 : minH ≤ mean S (u 0)) (q : ℝ) (hq : ∀ x, S.value (u 1) x = q) (hneg : q < 0) :
    squeezeLimiter S minH w u = none := by
  rw [← minimum_lt] at h1
  have hm : mean S (u 1) = q := mean_linear S _ q 0 fun x => by rw [hq x]; ring
  have hn : dischargeFactor (mean S (u 1)) (S.value (u 1) (minimumPoint S u)) = none := by
    rw [hm, hq]; simp [dischargeFactor, hneg]
  rcases squeeze_eq A hw u (minH := minH) with ⟨k, e⟩ | ⟨_, _, e⟩ | ⟨_, _, _, e⟩ | ⟨_, k, a, b, e, c⟩
  · exact absurd h1 (not_lt.mpr k)
  · exact e
  · exact e
  · rcases c with ⟨c, _⟩ | ⟨_, f, hf, _⟩
    · exact absurd h2 (not_le.mpr c)
    · rw [hn] at hf; simp at hf

/-- The point that is taken for the one of the least height can be the one of the greatest: if the
discharge in the left node is below all heights, it is the right node. -/
theorem minimumPoint_wrong (S : Space n) (u : Fin (v + 2) → Fin n → ℝ)
    (h : ∀ x, Looked S x → S.value (u 1) (-1) < S.value (u 0) x) : minimumPoint S u = 1 := by
  unfold minimumPoint
  simp only []
  rw [if_pos (h (-1) (Or.inl rfl))]
  have : ∀ l : List (ℝ × ℝ), (∀ q ∈ l, q ∈ S.rule) →
      (l.foldl (fun (m : ℝ × ℝ) q => if m.1 > S.value (u 0) q.2 then (S.value (u 0) q.2, q.2) else m)
        (S.value (u 1) (-1), 1)) = (S.value (u 1) (-1), 1) := by
    intro l
    induction l with
    | nil => intro _; rfl
    | cons a l ih =>
      intro hl
      rw [List.foldl_cons, if_neg]
      · exact ih fun q hq => hl q (List.mem_cons_of_mem _ hq)
      · exact not_lt.mpr (h a.2 (Or.inr (Or.inr ⟨a, hl a (by simp), rfl⟩))).le
  rw [this S.rule fun _ h => h]

/-- The averaging limiter keeps the means of height and discharge and makes both constant. -/
theorem averageLimiter_correct {S : Space n} (A : Adequate S) {minH w : ℝ} (hw : 0 < w)
    (u : Fin (v + 2) → Fin n → ℝ) (h1 : ∃ x, Looked S x ∧ S.value (u 0) x < minH)
    (h2 : -(1 / 10 ^ 16) < mean S (u 0)) :
    ∃ u', averageLimiter S minH w u = some u' ∧ (∀ x, S.value (u' 0) x = mean S (u 0)) ∧
      (∀ x, S.value (u' 1) x = mean S (u 1)) ∧ ∀ i, 2 ≤ i.val → u' i = u i := by
  rw [← minimum_lt] at h1
  obtain ⟨a, ha, ha'⟩ := project_const A hw (mean S (u 0))
  obtain ⟨b, hb, hb'⟩ := project_const A hw (mean S (u 1))
  refine ⟨Function.update (Function.update u 0 a) 1 b, ?_, fun x => ?_, fun x => ?_, fun i hi => ?_⟩
  · unfold averageLimiter
    have h1' : ¬ S.minimum (u 0) ≥ minH := not_le.mpr h1
    have h2' : mean S (u 0) > -(1 / 10 ^ 16) := h2
    rw [if_neg h1', averages_eq A hw, if_pos h2']
    simp only [Option.bind_eq_bind, Option.bind_some, ha, hb]
    rfl
  · rw [Function.update_of_ne (by simp), Function.update_self, ha']
  · rw [Function.update_self, hb']
  · have h1 : i ≠ 1 := by rintro rfl; simp at hi
    have h0 : i ≠ 0 := by rintro rfl; simp at hi
    rw [Function.update_of_ne h1, Function.update_of_ne h0]

/-- A height 4, ..., 0 with discharge -1 meets the hypotheses of `squeezeLimiter_not_finite`. -/
example : (∃ x, Looked linear x ∧ linear.value ![4, 0] x < 1) ∧ (1 : ℝ) ≤ mean linear ![4, 0] ∧
    ∀ x, linear.value ![-1, -1] x = -1 :=
  ⟨⟨1, Or.inr (Or.inl rfl), by rw [value_linear]; simp <;> norm_num⟩, by rw [mean_lin]; simp <;> norm_num,
    fun x => by rw [value_linear]; simp⟩

/-- With height 1, ..., 2 and discharge -1 the right node is taken for the one of the least height. -/
example : ∀ x, Looked linear x → linear.value ![-1, -1] (-1) < linear.value ![1, 2] x := by
  intro x hx
  obtain ⟨h1, h2⟩ := looked_inside adequate_linear hx
  rw [value_linear, value_linear]; simp; linarith

/-! ## C131: the small particles -/

/-- Let the height be nowhere below `-minH` after the layer limiter, and let the bidispersed limiter
not fall back to the average of the small height. Then the height of the small particles lies between
zero and the height, up to `minH`, wherever the limiter looks. Missing: the fall back, see
`bidispersed_outside`. -/
theorem bidispersed_fits_partial {S : Space n} (A : Adequate S) {minH w : ℝ} (hw : 0 < w) (hH : 0 ≤ minH)
    (u u1 u' : Fin (v + 3) → Fin n → ℝ) (h1 : positiveLayer (v := v + 1) S minH w u = some u1)
    (h : bidispersedLimiter S minH w u = some u')
    (hpos : ∀ x, Looked S x → -minH ≤ S.value (u1 0) x)
    (hc : mean S (u 0) + minH < mean S (u 2) ∨ mean S (u 2) < -minH ∨
      ∀ x, Looked S x → -minH ≤ S.value (u 2) x ∧ S.value (u 2) x ≤ S.value (u1 0) x + minH)
    (x : ℝ) (hx : Looked S x) :
    u' 0 = u1 0 ∧ -minH ≤ S.value (u' 2) x ∧ S.value (u' 2) x ≤ S.value (u' 0) x + minH := by
  classical
  obtain ⟨m0, m2, _⟩ := positiveLayer_means A hw u u1 h1
  have e2 : u1 2 = u 2 := m2 2 (by rw [Fin.val_two])
  have z : (0 : Fin (v + 3)) ≠ 2 := by
    intro hz
    have := congrArg Fin.val hz
    rw [Fin.val_two] at this
    simp at this
  unfold bidispersedLimiter at h
  rw [h1] at h
  simp only [Option.bind_eq_bind, Option.bind_some] at h
  rw [averages_eq A hw] at h
  by_cases hm : mean S (u1 0) > -(1 / 10 ^ 16)
  · rw [if_pos hm] at h
    simp only [Option.bind_some, m0, e2] at h
    by_cases c1 : mean S (u 0) + minH < mean S (u 2)
    · rw [if_pos c1] at h
      obtain rfl := Option.some.inj h
      rw [Function.update_self, Function.update_of_ne z]
      exact ⟨rfl, hpos x hx, by linarith⟩
    · rw [if_neg c1] at h
      by_cases c2 : mean S (u 2) < -minH
      · rw [if_pos c2] at h
        obtain rfl := Option.some.inj h
        rw [Function.update_self, Function.update_of_ne z]
        have := hpos x hx
        have e : S.value (fun _ => 0) x = 0 := by simp [Space.value]
        rw [e]
        exact ⟨rfl, by linarith, by linarith⟩
      · rw [if_neg c2] at h
        have c3 : ∀ x, Looked S x → -minH ≤ S.value (u 2) x ∧ S.value (u 2) x ≤ S.value (u1 0) x + minH := by
          rcases hc with hc | hc | hc
          · exact absurd hc c1
          · exact absurd hc c2
          · exact hc
        have nf : ¬ smallDoesNotFit S minH u1 := by
          unfold smallDoesNotFit
          rw [e2]
          push Not
          constructor
          · intro y hy
            have : Looked S y := by
              simp only [List.mem_cons, List.not_mem_nil, or_false] at hy
              rcases hy with rfl | rfl
              · left; rfl
              · right; left; rfl
            exact ⟨(c3 y this).2, (c3 y this).1⟩
          · intro q hq
            have := c3 q.2 (Or.inr (Or.inr ⟨q, hq, rfl⟩))
            exact ⟨this.2, this.1⟩
        rw [if_neg nf] at h
        obtain rfl := Option.some.inj h
        rw [e2]
        exact ⟨rfl, c3 x hx⟩
  · rw [if_neg hm] at h
    simp at h

/-- If the average of the small height lies between zero and the average height, but somewhere above
the height, the limiter leaves it above the height: it answers the constant average. -/
theorem bidispersed_outside {S : Space n} (A : Adequate S) {minH w : ℝ} (hw : 0 < w)
    (u u1 : Fin (v + 3) → Fin n → ℝ) (h1 : positiveLayer (v := v + 1) S minH w u = some u1)
    (hm : -(1 / 10 ^ 16) < mean S (u 0)) (ha : mean S (u 2) ≤ mean S (u 0) + minH)
    (hb : -minH ≤ mean S (u 2)) (x : ℝ) (hx : Looked S x)
    (hout : S.value (u1 0) x + minH < S.value (u 2) x)
    (hav : S.value (u1 0) x + minH < mean S (u 2)) :
    ∃ u', bidispersedLimiter S minH w u = some u' ∧ (∀ y, S.value (u' 2) y = mean S (u 2)) ∧
      S.value (u' 0) x + minH < S.value (u' 2) x := by
  classical
  obtain ⟨m0, m2, _⟩ := positiveLayer_means A hw u u1 h1
  have e2 : u1 2 = u 2 := m2 2 (by rw [Fin.val_two])
  have z : (0 : Fin (v + 3)) ≠ 2 := by
    intro hz
    have := congrArg Fin.val hz
    rw [Fin.val_two] at this
    simp at this
  obtain ⟨c, hc, hc'⟩ := project_const A hw (mean S (u 2))
  refine ⟨Function.update u1 2 c, ?_, fun y => ?_, ?_⟩
  · unfold bidispersedLimiter
    rw [h1]
    simp only [Option.bind_eq_bind, Option.bind_some]
    have hm' : mean S (u1 0) > -(1 / 10 ^ 16) := by rw [m0]; exact hm
    rw [averages_eq A hw, if_pos hm']
    simp only [Option.bind_some, m0, e2]
    rw [if_neg (not_lt.mpr ha), if_neg (not_lt.mpr hb)]
    have nf : smallDoesNotFit S minH u1 := by
      unfold smallDoesNotFit
      rw [e2]
      rcases hx with rfl | rfl | ⟨q, hq, rfl⟩
      · exact Or.inl ⟨-1, by simp, Or.inl hout⟩
      · exact Or.inl ⟨1, by simp, Or.inl hout⟩
      · exact Or.inr ⟨q, hq, Or.inl hout⟩
    rw [if_pos nf, hc]
    rfl
  · rw [Function.update_self, hc']
  · rw [Function.update_self, hc', Function.update_of_ne z]
    exact hav

/-- Height 1, ..., 4 and small height 3, ..., 1 with layer thickness 1/2: the layer limiter does
nothing, and the small height exceeds the height in the left node also after limiting. -/
example : ∃ u : Fin 3 → Fin 2 → ℝ, positiveLayer (v := 1) linear (1 / 2) 1 u = some u ∧
    -(1 / 10 ^ 16) < mean linear (u 0) ∧ mean linear (u 2) ≤ mean linear (u 0) + 1 / 2 ∧
    -(1 / 2) ≤ mean linear (u 2) ∧ Looked linear (-1) ∧
    linear.value (u 0) (-1) + 1 / 2 < linear.value (u 2) (-1) ∧
    linear.value (u 0) (-1) + 1 / 2 < mean linear (u 2) := by
  refine ⟨![![1, 4], ![0, 0], ![3, 1]], ?_, ?_, ?_, ?_, Or.inl rfl, ?_, ?_⟩
  · apply positiveLayer_keeps
    intro x hx
    obtain ⟨h1, h2⟩ := looked_inside adequate_linear hx
    rw [value_linear]; simp; linarith
  all_goals simp only [mean_lin, value_linear]; simp <;> norm_num

/-! ## C132: the slope limiter -/

/-- What the limiter makes of a variable of an interior element: a linear function with the same mean.
If the averages of the left neighbour, the element and the right neighbour increase, so does the
function, its slope is half of the smaller difference, and its values lie between the averages of the
neighbours; likewise if they decrease. Otherwise it is constant, up to differences of less than
1e-16. -/
theorem minmod_correct {S : Space n} (N : Nodal S) (uL u0 uR : ℝ) :
    mean S (minmodCoeffs n uL u0 uR) = u0 ∧
    ∃ s, (∀ x, S.value (minmodCoeffs n uL u0 uR) x = u0 + s * x) ∧
      (∀ x, -1 ≤ x → x ≤ 1 → min uL (min u0 uR) - 1 / 10 ^ 16 ≤ u0 + s * x ∧
        u0 + s * x ≤ max uL (max u0 uR) + 1 / 10 ^ 16) ∧
      (uL + 1 / 10 ^ 16 ≤ u0 → u0 + 1 / 10 ^ 16 ≤ uR → s = min (u0 - uL) (uR - u0) / 2) ∧
      (uR + 1 / 10 ^ 16 ≤ u0 → u0 + 1 / 10 ^ 16 ≤ uL → s = max (u0 - uL) (uR - u0) / 2) ∧
      (uL + 1 / 10 ^ 16 ≤ u0 → uR ≤ u0 → s = 0) ∧ (u0 + 1 / 10 ^ 16 ≤ uL → u0 ≤ uR → s = 0) := by
  classical
  refine ⟨mean_minmod N uL u0 uR, ?_⟩
  obtain ⟨s, hs, hcase⟩ := minmod_slope (u0 - uL) (uR - u0)
  have e16 : (0 : ℝ) < 1 / 10 ^ 16 := by norm_num
  refine ⟨s, fun x => ?_, fun x x1 x2 => ?_, fun h1 h2 => ?_, fun h1 h2 => ?_, fun h1 h2 => ?_, fun h1 h2 => ?_⟩
  · rw [minmod_value N, ← hs]
  · have a1 := min_le_left uL (min u0 uR)
    have a2 := (min_le_right uL (min u0 uR)).trans (min_le_left u0 uR)
    have a3 := (min_le_right uL (min u0 uR)).trans (min_le_right u0 uR)
    have b1 := le_max_left uL (max u0 uR)
    have b2 := (le_max_left u0 uR).trans (le_max_right uL (max u0 uR))
    have b3 := (le_max_right u0 uR).trans (le_max_right uL (max u0 uR))
    have bound : ∀ k, |s| ≤ k → |s * x| ≤ k := by
      intro k hk
      rw [abs_mul]
      have : |x| ≤ 1 := abs_le.mpr ⟨x1, x2⟩
      nlinarith [abs_nonneg s, abs_nonneg x]
    rcases hcase with ⟨h, _⟩ | ⟨p, q, h⟩ | ⟨p, q, h⟩ | ⟨p, q, h⟩
    · rw [h]; constructor <;> linarith
    · have c1 := min_le_left (u0 - uL) (uR - u0)
      have c2 := min_le_right (u0 - uL) (uR - u0)
      have c0 : 0 < min (u0 - uL) (uR - u0) := lt_min p q
      have := abs_le.mp (bound s (by rw [abs_of_pos (by linarith)]))
      constructor <;> linarith
    · have c1 := le_max_left (u0 - uL) (uR - u0)
      have c2 := le_max_right (u0 - uL) (uR - u0)
      have c0 : max (u0 - uL) (uR - u0) < 0 := max_lt p q
      have := abs_le.mp (bound (-s) (by rw [abs_of_neg (by linarith)]))
      constructor <;> linarith
    · rw [abs_lt] at p q
      have : |s| ≤ 1 / 10 ^ 16 := by
        rw [abs_le]
        rcases h with h | h <;> rw [h] <;> constructor <;> linarith
      have := abs_le.mp (bound _ this)
      constructor <;> linarith
  · have sg : sign (u0 - uL) = 1 ∧ sign (uR - u0) = 1 := by
      constructor <;> unfold sign <;> rw [if_neg (by rw [abs_of_pos (by linarith)]; linarith), if_neg (by linarith)]
    rcases hcase with ⟨_, h⟩ | ⟨p, q, h⟩ | ⟨p, q, h⟩ | ⟨p, q, h⟩
    · rw [sg.1, sg.2] at h; exact absurd rfl h
    · exact h
    · linarith
    · rw [abs_lt] at p; linarith
  · rcases hcase with ⟨_, h⟩ | ⟨p, q, h⟩ | ⟨p, q, h⟩ | ⟨p, q, h⟩
    · have sg : sign (u0 - uL) = -1 ∧ sign (uR - u0) = -1 := by
        constructor <;> unfold sign <;> rw [if_neg (by rw [abs_of_neg (by linarith)]; linarith), if_pos (by linarith)]
      rw [sg.1, sg.2] at h; exact absurd rfl h
    · linarith
    · exact h
    · rw [abs_lt] at p; linarith
  · rcases hcase with ⟨h, _⟩ | ⟨p, q, h⟩ | ⟨p, q, h⟩ | ⟨p, q, h⟩
    · exact h
    · linarith
    · linarith
    · rw [abs_lt] at p; linarith
  · rcases hcase with ⟨h, _⟩ | ⟨p, q, h⟩ | ⟨p, q, h⟩ | ⟨p, q, h⟩
    · exact h
    · linarith
    · linarith
    · rw [abs_lt] at p; linarith

/-- `TvbLimiter1D` treats the variables one by one and changes no other element. Variables whose
difference between the nodes is less than the square of the width are left alone, as are all
variables of an element at the boundary. The others get the function of `minmod_correct`. -/
theorem tvbLimiter_correct {S : Space n} (A : Adequate S) (N : Nodal S) (mesh : Mesh)
    (hw : ∀ e, 0 < mesh.width e) (st st' : State n v) (e : ℕ) (h : tvbLimiter S mesh st e = some st') :
    (∀ f, f ≠ e → st' f = st f) ∧
    (∀ i, |S.value (st e i) 1 - S.value (st e i) (-1)| < mesh.width e ^ 2 → st' e i = st e i) ∧
    (mesh.left e = none ∨ mesh.right e = none → st' = st) ∧
    ∀ l r, mesh.left e = some l → mesh.right e = some r → ∀ i,
      mesh.width e ^ 2 ≤ |S.value (st e i) 1 - S.value (st e i) (-1)| →
      r = e + 1 ∧ e = l + 1 ∧
      st' e i = minmodCoeffs n (mean S (st l i)) (mean S (st e i)) (mean S (st r i)) := by
  classical
  rw [tvb_eq A N mesh hw] at h
  have sm : ∀ i, smallSlope S 1 (mesh.width e) (st e i) ↔
      |S.value (st e i) 1 - S.value (st e i) (-1)| < mesh.width e ^ 2 := by
    intro i; unfold smallSlope; rw [one_mul, pow_two]
  split_ifs at h with ok
  have h := Option.some.inj h
  refine ⟨fun f hf => by rw [← h, Function.update_of_ne hf], fun i hi => ?_, fun hb => ?_,
    fun l r hl hr i hi => ?_⟩
  · rw [← h, Function.update_self]
    cases hl : mesh.left e with
    | none => rfl
    | some l =>
      cases hr : mesh.right e with
      | none => rfl
      | some r => simp only [tvbNew]; rw [if_pos ((sm i).mpr hi)]
  · rw [← h]
    rcases hb with hb | hb
    · simp only [hb, Function.update_eq_self]
    · cases hl : mesh.left e with
      | none => simp only [Function.update_eq_self]
      | some l => simp only [hb, Function.update_eq_self]
  · have ns : ¬ smallSlope S 1 (mesh.width e) (st e i) := fun k => absurd ((sm i).mp k) (not_lt.mpr hi)
    obtain ⟨a, b, _⟩ := ok l r hl hr ⟨i, ns⟩
    refine ⟨a, b, ?_⟩
    rw [← h, Function.update_self]
    simp only [hl, hr, tvbNew]
    rw [if_neg ns]

/-- The program stops at an interior element with a variable to be limited, unless its neighbours have
the preceding and the following number. In a periodic mesh the first element is such an element. -/
theorem tvbLimiter_stops {S : Space n} (A : Adequate S) (N : Nodal S) (mesh : Mesh)
    (hw : ∀ e, 0 < mesh.width e) (st : State n v) (e l r : ℕ) (hl : mesh.left e = some l)
    (hr : mesh.right e = some r) (i : Fin (v + 2))
    (hi : mesh.width e ^ 2 ≤ |S.value (st e i) 1 - S.value (st e i) (-1)|)
    (hbad : ¬ (r = e + 1 ∧ e = l + 1)) : tvbLimiter S mesh st e = none := by
  cases h : tvbLimiter S mesh st e with
  | none => rfl
  | some st' =>
    obtain ⟨_, _, _, k⟩ := tvbLimiter_correct A N mesh hw st st' e h
    obtain ⟨a, b, _⟩ := k l r hl hr i hi
    exact absurd ⟨a, b⟩ hbad

/-- The limiter with the discontinuity detector never keeps a slope: whatever the neighbours, the
variable becomes constant if its values in the nodes differ by more than 1e-16. -/
theorem detectorMinmod_flattens {S : Space n} (A : Adequate S) {w : ℝ} (hw : 0 < w) (uL uR : ℝ)
    (u : Fin (v + 2) → Fin n → ℝ) (i : Fin (v + 2)) (hm : -(1 / 10 ^ 16) < mean S (u 0))
    (hd : 1 / 10 ^ 16 < |S.value (u i) 1 - S.value (u i) (-1)|) :
    ∃ u', detectorMinmod S w uL uR u i = some u' ∧ (∀ x, S.value (u' i) x = mean S (u i)) ∧
      ∀ j, j ≠ i → u' j = u j := by
  obtain ⟨c, hc, hc'⟩ := project_linear A hw (mean S (u i)) 0
  refine ⟨Function.update u i c, ?_, fun x => ?_, fun j hj => Function.update_of_ne hj _ _⟩
  · unfold detectorMinmod
    have hm' : mean S (u 0) > -(1 / 10 ^ 16) := hm
    have hd' : |(|(0 : ℝ)| - |S.value (u i) 1 - S.value (u i) (-1)|)| > 1 / 10 ^ 16 := by
      rw [abs_zero, zero_sub, abs_neg, abs_abs]; exact hd
    rw [averages_eq A hw, if_pos hm']
    simp only [Option.bind_eq_bind, Option.bind_some, Bool.false_eq_true, false_and, if_false]
    rw [if_pos hd', hc]
    rfl
  · rw [Function.update_self, hc']; ring

/-- Averages 1, 3, 7 give the slope 1. -/
example : ∃ s : ℝ, (∀ x, linear.value (minmodCoeffs 2 1 3 7) x = 3 + s * x) ∧ s = 1 := by
  obtain ⟨_, s, h1, _, h2, _⟩ := minmod_correct nodal_linear 1 3 7
  exact ⟨s, h1, by rw [h2 (by norm_num) (by norm_num)]; norm_num⟩

/-! ## C133: the loop over the elements -/

/-- The loop over the elements never changes the amount of material in any element, hence neither the
total; elements that are not in the list are not changed. If no element has a mean height below the
layer thickness, the means of all variables are kept. -/
theorem limitLoop_conserves {S : Space n} (A : Adequate S) (N : Nodal S) (mesh : Mesh)
    (hw : ∀ e, 0 < mesh.width e) (minH dry : ℝ) (elements : List ℕ) (st st' : State n v)
    (h : limitLoop S mesh minH dry elements st = some st') :
    (∀ s : Finset ℕ, ∑ e ∈ s, mesh.width e * mean S (st' e 0) = ∑ e ∈ s, mesh.width e * mean S (st e 0)) ∧
    (∀ e, e ∉ elements → st' e = st e) ∧
    ((∀ e ∈ elements, minH ≤ mean S (st e 0)) → ∀ e i, mean S (st' e i) = mean S (st e i)) := by
  obtain ⟨a, b, c⟩ := loop_means A N mesh hw minH dry elements st st' h
  exact ⟨fun s => Finset.sum_congr rfl fun e _ => by rw [a e], b, c⟩

/-- Although the elements are limited in place, the result does not depend on their order, if no
element has a mean height below the layer thickness. Missing: elements that become dry, see
`limitLoop_order_matters`. -/
theorem limitLoop_order_partial {S : Space n} (A : Adequate S) (N : Nodal S) (mesh : Mesh)
    (hw : ∀ e, 0 < mesh.width e) (minH dry : ℝ) (elements elements' : List ℕ)
    (hp : elements.Perm elements') (st : State n v) (hm : ∀ e ∈ elements, minH ≤ mean S (st e 0)) :
    limitLoop S mesh minH dry elements st = limitLoop S mesh minH dry elements' st :=
  loop_perm A N mesh hw minH dry hp st hm

/-- Three elements of width one in a row. -/
def row : Mesh where
  width _ := 1
  left e := if e = 0 then none else some (e - 1)
  right e := if e = 2 then none else some (e + 1)

/-- Height 1/2, 2, 2; discharge 3/2, from 0 to 4, 3. -/
noncomputable def rowState : State 2 0 := fun e =>
  if e = 0 then ![![1 / 2, 1 / 2], ![3 / 2, 3 / 2]]
  else if e = 1 then ![![2, 2], ![0, 4]] else ![![2, 2], ![3, 3]]

/-- If an element becomes dry its discharge is lost, and the neighbour that is limited later sees
another average than the one that is limited before: the result depends on the order. -/
theorem limitLoop_order_matters :
    ∃ a b : State 2 0, limitLoop linear row 1 1 [1, 0] rowState = some a ∧
      limitLoop linear row 1 1 [0, 1] rowState = some b ∧
      linear.value (a 1 1) 1 = 9 / 4 ∧ linear.value (b 1 1) 1 = 5 / 2 := by
  classical
  have A := adequate_linear
  have N := nodal_linear
  have hw : ∀ e, 0 < row.width e := fun _ => one_pos
  have s0 : rowState 0 = ![![1 / 2, 1 / 2], ![3 / 2, 3 / 2]] := rfl
  have s1 : rowState 1 = ![![2, 2], ![0, 4]] := rfl
  have s2 : rowState 2 = ![![2, 2], ![3, 3]] := rfl
  have low : ∀ c : Fin 2 → ℝ, c 0 = 1 / 2 → c 1 = 1 / 2 → linear.minimum c < 1 := by
    intro c h0 h1
    rw [minimum_lt]
    exact ⟨-1, Or.inl rfl, by rw [value_linear, h0, h1]; norm_num⟩
  have high : ∀ c : Fin 2 → ℝ, c 0 = 2 → c 1 = 2 → ¬ linear.minimum c < 1 := by
    intro c h0 h1
    rw [not_lt, le_minimum]
    intro x _
    rw [value_linear, h0, h1]; norm_num
  -- drying of element 0
  have dry : ∀ st : State 2 0, st 0 = rowState 0 → ∃ u, limitElement linear row 1 1 st 0 =
      some (Function.update st 0 u) ∧ mean linear (u 0) = 1 / 2 ∧ mean linear (u 1) = 0 := by
    intro st h
    have l : linear.minimum (st 0 0) < 1 := low _ (by rw [h, s0]; rfl) (by rw [h, s0]; rfl)
    have m : mean linear (st 0 0) = 1 / 2 := by rw [mean_lin, h, s0]; simp <;> norm_num
    obtain ⟨u, h1, h2, h3⟩ := positiveLayer_dries A (minH := 1) (w := row.width 0) (hw 0) (st 0)
      (by rw [← minimum_lt]; exact l) (by rw [m]; norm_num) (by rw [m]; norm_num)
    refine ⟨u, ?_, ?_, ?_⟩
    · unfold limitElement
      rw [if_pos l, h1]; rfl
    · rw [mean_linear linear (u 0) _ 0 fun x => by rw [h2 x]; ring, m]
    · exact mean_linear linear (u 1) _ 0 fun x => by rw [h3 x]; ring
  -- limiting of element 1
  have lim : ∀ (st : State 2 0), st 1 = rowState 1 → st 2 = rowState 2 → mean linear (st 0 0) = 1 / 2 →
      ∃ u, limitElement linear row 1 1 st 1 = some (Function.update st 1 u) ∧
        u 1 = minmodCoeffs 2 (mean linear (st 0 1)) 2 3 := by
    intro st h1 h2 m0
    have l : ¬ linear.minimum (st 1 0) < 1 := high _ (by rw [h1, s1]; rfl) (by rw [h1, s1]; rfl)
    have m1 : mean linear (st 1 0) = 2 := by rw [mean_lin, h1, s1]; simp
    have m2 : mean linear (st 2 0) = 2 := by rw [mean_lin, h2, s2]; simp
    have m3 : mean linear (st 1 1) = 2 := by rw [mean_lin, h1, s1]; simp <;> norm_num
    have m4 : mean linear (st 2 1) = 3 := by rw [mean_lin, h2, s2]; simp
    have ok : tvbOk linear row (fun f i => mean linear (st f i)) 1 (st 1) := by
      intro l r hl hr _
      have hl' : l = 0 := (Option.some.inj hl).symm
      have hr' : r = 2 := (Option.some.inj hr).symm
      subst hl' hr'
      refine ⟨rfl, rfl, ?_, ?_, ?_⟩
      · show _ < mean linear (st 1 0); rw [m1]; norm_num
      · show _ < mean linear (st 2 0); rw [m2]; norm_num
      · show _ < mean linear (st 0 0); rw [m0]; norm_num
    refine ⟨tvbNew linear 1 (fun i => mean linear (st 0 i)) (fun i => mean linear (st 2 i)) (st 1), ?_, ?_⟩
    · unfold limitElement
      rw [if_neg l, if_pos (by norm_num), tvb_eq A N row hw, if_pos ok]
      rfl
    · unfold tvbNew
      simp only []
      rw [if_neg, m3, m4]
      unfold smallSlope
      rw [h1, s1, value_linear, value_linear]
      norm_num
  have n0 : mean linear (rowState 0 0) = 1 / 2 := by rw [mean_lin, s0]; simp <;> norm_num
  have n1 : mean linear (rowState 0 1) = 3 / 2 := by rw [mean_lin, s0]; simp <;> norm_num
  -- first order
  obtain ⟨u, hu, hu'⟩ := lim rowState rfl rfl n0
  obtain ⟨d, hd, _⟩ := dry (Function.update rowState 1 u) (by rw [Function.update_of_ne (by norm_num)])
  -- second order
  obtain ⟨d2, hd2, hm, hm'⟩ := dry rowState rfl
  obtain ⟨u2, hu2, hu2'⟩ := lim (Function.update rowState 0 d2) (by rw [Function.update_of_ne (by norm_num)])
    (by rw [Function.update_of_ne (by norm_num)]) (by rw [Function.update_self]; exact hm)
  refine ⟨Function.update (Function.update rowState 1 u) 0 d,
    Function.update (Function.update rowState 0 d2) 1 u2, ?_, ?_, ?_, ?_⟩
  · unfold limitLoop
    simp only [List.foldlM_cons, List.foldlM_nil, hu, hd, Option.bind_eq_bind, Option.bind_some]
    rfl
  · unfold limitLoop
    simp only [List.foldlM_cons, List.foldlM_nil, hu2, hd2, Option.bind_eq_bind, Option.bind_some]
    rfl
  · rw [Function.update_of_ne (by norm_num), Function.update_self, hu', n1]
    obtain ⟨_, s, h1, _, h2, _⟩ := minmod_correct N (3 / 2) 2 3
    rw [h1, h2 (by norm_num) (by norm_num)]
    norm_num
  · rw [Function.update_self, hu2', Function.update_self, hm']
    obtain ⟨_, s, h1, _, h2, _⟩ := minmod_correct N 0 2 3
    rw [h1, h2 (by norm_num) (by norm_num)]
    norm_num

end Verif.Limiters
