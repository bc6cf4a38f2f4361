import Verif.Limiters.LemmasTvb
import Mathlib.Analysis.Real.Sqrt

/-! Helper lemmas for the loop over the elements, and two concrete spaces -/
set_option linter.all false
namespace Verif.Limiters

variable {n v : ℕ}

open Classical in
/-- The new coefficients of one element from the old ones and the means of all elements. -/
noncomputable def newCoeffs (S : Space n) (mesh : Mesh) (minH dry : ℝ) (e : ℕ)
    (u : Fin (v + 2) → Fin n → ℝ) (m : ℕ → Fin (v + 2) → ℝ) : Option (Fin (v + 2) → Fin n → ℝ) :=
  if S.minimum (u 0) < dry then positiveLayer S minH (mesh.width e) u
  else if n > 1 then
    if tvbOk S mesh m e u then
      some (match mesh.left e, mesh.right e with
          | some l, some r => tvbNew S (mesh.width e) (m l) (m r) u
          | _, _ => u)
    else none
  else some u

noncomputable def means (S : Space n) (st : State n v) : ℕ → Fin (v + 2) → ℝ := fun e i => mean S (st e i)

theorem step_eq {S : Space n} (A : Adequate S) (N : Nodal S) (mesh : Mesh) (hw : ∀ e, 0 < mesh.width e)
    (minH dry : ℝ) (st : State n v) (e : ℕ) :
    limitElement S mesh minH dry st e =
      (newCoeffs S mesh minH dry e (st e) (means S st)).map (Function.update st e) := by
  classical
  unfold limitElement newCoeffs
  by_cases h1 : S.minimum (st e 0) < dry
  · rw [if_pos h1, if_pos h1]
  · rw [if_neg h1, if_neg h1]
    by_cases h2 : n > 1
    · rw [if_pos h2, if_pos h2, tvb_eq A N mesh hw]
      show (if tvbOk S mesh (means S st) e (st e) then _ else _) = _
      by_cases h3 : tvbOk S mesh (means S st) e (st e)
      · rw [if_pos h3, if_pos h3]; rfl
      · rw [if_neg h3, if_neg h3]; rfl
    · rw [if_neg h2, if_neg h2]
      simp

theorem positiveLayer_means {S : Space n} (A : Adequate S) {minH w : ℝ} (hw : 0 < w)
    (u u' : Fin (v + 2) → Fin n → ℝ) (h : positiveLayer S minH w u = some u') :
    mean S (u' 0) = mean S (u 0) ∧ (∀ i, 2 ≤ i.val → u' i = u i) ∧
    (minH ≤ mean S (u 0) → ∀ i, mean S (u' i) = mean S (u i)) := by
  have up : ∀ (a b : Fin n → ℝ) (i : Fin (v + 2)), 2 ≤ i.val →
      Function.update (Function.update u 0 a) 1 b i = u i := by
    intro a b i hi
    have h1 : i ≠ 1 := by rintro rfl; simp [Fin.val_one] at hi
    have h0 : i ≠ 0 := by rintro rfl; simp at hi
    rw [Function.update_of_ne h1, Function.update_of_ne h0]
  have z : (0 : Fin (v + 2)) ≠ 1 := by simp
  rcases positiveLayer_eq A hw u (minH := minH) with ⟨_, e⟩ | ⟨_, _, e⟩ | ⟨_, _, a, b, e, c⟩
  · rw [e] at h; obtain rfl := Option.some.inj h; exact ⟨rfl, fun _ _ => rfl, fun _ _ => rfl⟩
  · rw [e] at h; simp at h
  · rw [e] at h
    obtain rfl := Option.some.inj h
    have m0 : mean S (Function.update (Function.update u 0 a) 1 b 0) = mean S (u 0) := by
      rw [Function.update_of_ne z, Function.update_self]
      rcases c with ⟨_, c, _⟩ | ⟨_, f, _, c, _⟩
      · exact mean_linear S a _ 0 fun x => by rw [c x]; ring
      · exact mean_linear S a _ _ c
    refine ⟨m0, up a b, fun hm i => ?_⟩
    by_cases h2 : 2 ≤ i.val
    · rw [up a b i h2]
    · have : i = 0 ∨ i = 1 := by
        rw [Fin.ext_iff, Fin.ext_iff]
        simp only [Fin.val_zero, Fin.val_one]
        omega
      rcases this with rfl | rfl
      · exact m0
      · rw [Function.update_self]
        rcases c with ⟨c, _⟩ | ⟨_, f, _, _, c⟩
        · exact (not_le.mpr c hm).elim
        · exact mean_linear S b _ _ c

theorem newCoeffs_means {S : Space n} (A : Adequate S) (N : Nodal S) (mesh : Mesh)
    (hw : ∀ e, 0 < mesh.width e) (minH dry : ℝ) (e : ℕ) (u u' : Fin (v + 2) → Fin n → ℝ)
    (m : ℕ → Fin (v + 2) → ℝ) (h : newCoeffs S mesh minH dry e u m = some u') :
    mean S (u' 0) = mean S (u 0) ∧ (minH ≤ mean S (u 0) → ∀ i, mean S (u' i) = mean S (u i)) := by
  classical
  unfold newCoeffs at h
  have key : (∀ i, mean S (u' i) = mean S (u i)) →
      mean S (u' 0) = mean S (u 0) ∧ (minH ≤ mean S (u 0) → ∀ i, mean S (u' i) = mean S (u i)) :=
    fun k => ⟨k 0, fun _ => k⟩
  split_ifs at h with h1 h2 h3
  · obtain ⟨a, _, b⟩ := positiveLayer_means A (hw e) u u' h
    exact ⟨a, b⟩
  · apply key
    intro i
    have h := Option.some.inj h
    cases hl : mesh.left e with
    | none => simp only [hl] at h; rw [← h]
    | some l =>
      cases hr : mesh.right e with
      | none => simp only [hl, hr] at h; rw [← h]
      | some r =>
        simp only [hl, hr] at h
        rw [← h]
        unfold tvbNew
        split_ifs
        · rfl
        · exact mean_minmod N _ _ _
  · apply key
    obtain rfl := Option.some.inj h
    exact fun _ => rfl

theorem step_means {S : Space n} (A : Adequate S) (N : Nodal S) (mesh : Mesh)
    (hw : ∀ e, 0 < mesh.width e) (minH dry : ℝ) (e : ℕ) (st st' : State n v)
    (h : limitElement S mesh minH dry st e = some st') :
    (∀ f, f ≠ e → st' f = st f) ∧ (∀ f, mean S (st' f 0) = mean S (st f 0)) ∧
    (minH ≤ mean S (st e 0) → means S st' = means S st) := by
  rw [step_eq A N mesh hw] at h
  cases hn : newCoeffs S mesh minH dry e (st e) (means S st) with
  | none => rw [hn] at h; simp at h
  | some u' =>
    rw [hn] at h
    have h := Option.some.inj h
    obtain ⟨a, b⟩ := newCoeffs_means A N mesh hw minH dry e _ _ _ hn
    subst h
    refine ⟨fun f hf => Function.update_of_ne hf _ _, fun f => ?_, fun hm => ?_⟩
    · by_cases hf : f = e
      · subst hf; rw [Function.update_self]; exact a
      · rw [Function.update_of_ne hf]
    · funext f i
      unfold means
      by_cases hf : f = e
      · subst hf; rw [Function.update_self]; exact b hm i
      · rw [Function.update_of_ne hf]

theorem step_comm {S : Space n} (A : Adequate S) (N : Nodal S) (mesh : Mesh)
    (hw : ∀ e, 0 < mesh.width e) (minH dry : ℝ) (e f : ℕ) (st : State n v)
    (he : minH ≤ mean S (st e 0)) (hf : minH ≤ mean S (st f 0)) :
    (limitElement S mesh minH dry st e).bind (fun s => limitElement S mesh minH dry s f) =
    (limitElement S mesh minH dry st f).bind (fun s => limitElement S mesh minH dry s e) := by
  by_cases hef : e = f
  · subst hef; rfl
  have one : ∀ e f : ℕ, e ≠ f → minH ≤ mean S (st e 0) →
      (limitElement S mesh minH dry st e).bind (fun s => limitElement S mesh minH dry s f) =
      (newCoeffs S mesh minH dry e (st e) (means S st)).bind fun a =>
        (newCoeffs S mesh minH dry f (st f) (means S st)).map fun b =>
          Function.update (Function.update st e a) f b := by
    intro e f hef he
    cases hn : newCoeffs S mesh minH dry e (st e) (means S st) with
    | none => rw [step_eq A N mesh hw, hn]; rfl
    | some a =>
      have h1 : limitElement S mesh minH dry st e = some (Function.update st e a) := by
        rw [step_eq A N mesh hw, hn]; rfl
      have h2 := (step_means A N mesh hw minH dry e st _ h1).2.2 he
      rw [h1]
      simp only [Option.bind_some]
      rw [step_eq A N mesh hw, h2, Function.update_of_ne (Ne.symm hef)]
  rw [one e f hef he, one f e (Ne.symm hef) hf]
  cases newCoeffs S mesh minH dry e (st e) (means S st) with
  | none => cases newCoeffs S mesh minH dry f (st f) (means S st) <;> rfl
  | some a =>
    cases newCoeffs S mesh minH dry f (st f) (means S st) with
    | none => rfl
    | some b =>
      simp only [Option.bind_some, Option.map_some]
      rw [Function.update_comm hef]

theorem loop_perm {S : Space n} (A : Adequate S) (N : Nodal S) (mesh : Mesh)
    (hw : ∀ e, 0 < mesh.width e) (minH dry : ℝ) {l l' : List ℕ} (hp : l.Perm l') (st : State n v)
    (hm : ∀ e ∈ l, minH ≤ mean S (st e 0)) :
    limitLoop S mesh minH dry l st = limitLoop S mesh minH dry l' st := by
  unfold limitLoop
  induction hp generalizing st with
  | nil => rfl
  | cons a hp ih =>
    rw [List.foldlM_cons, List.foldlM_cons]
    cases h : limitElement S mesh minH dry st a with
    | none => rfl
    | some s =>
      apply ih
      intro e he
      rw [(step_means A N mesh hw minH dry a st s h).2.1 e]
      exact hm e (List.mem_cons_of_mem _ he)
  | swap a b l =>
    simp only [List.foldlM_cons]
    have := step_comm A N mesh hw minH dry b a st (hm b (by simp)) (hm a (by simp))
    simp only [Option.bind_eq_bind, ← Option.bind_assoc]
    rw [this]
  | trans h1 h2 ih1 ih2 =>
    rw [ih1 st hm]
    exact ih2 st fun e he => hm e (h1.mem_iff.mpr he)

theorem loop_means {S : Space n} (A : Adequate S) (N : Nodal S) (mesh : Mesh)
    (hw : ∀ e, 0 < mesh.width e) (minH dry : ℝ) (l : List ℕ) (st st' : State n v)
    (h : limitLoop S mesh minH dry l st = some st') :
    (∀ e, mean S (st' e 0) = mean S (st e 0)) ∧ (∀ e, e ∉ l → st' e = st e) ∧
    ((∀ e ∈ l, minH ≤ mean S (st e 0)) → ∀ e i, mean S (st' e i) = mean S (st e i)) := by
  unfold limitLoop at h
  induction l generalizing st with
  | nil => obtain rfl := Option.some.inj h; exact ⟨fun _ => rfl, fun _ _ => rfl, fun _ _ _ => rfl⟩
  | cons a l ih =>
    rw [List.foldlM_cons] at h
    cases hs : limitElement S mesh minH dry st a with
    | none => rw [hs] at h; simp at h
    | some s =>
      rw [hs] at h
      obtain ⟨i1, i2, i3⟩ := ih s h
      obtain ⟨s1, s2, s3⟩ := step_means A N mesh hw minH dry a st s hs
      refine ⟨fun e => (i1 e).trans (s2 e), fun e he => ?_, fun hm e i => ?_⟩
      · rw [List.mem_cons, not_or] at he
        rw [i2 e he.2, s1 e he.1]
      · rw [i3 (fun e he => by rw [s2 e]; exact hm e (List.mem_cons_of_mem _ he)) e i]
        exact congrFun (congrFun (s3 (hm a (by simp))) e) i

/-! ### Linear and quadratic elements -/

/-- Linear functions with the Gauss rule of two points. -/
noncomputable def linear : Space 2 where
  phi := ![fun x => (1 - x) / 2, fun x => (1 + x) / 2]
  rule := [(1, -(1 / √3)), (1, 1 / √3)]

theorem inv_sqrt3 : (1 / √3) * (1 / √3) = 1 / 3 := by
  rw [div_mul_div_comm, Real.mul_self_sqrt (by norm_num)]; norm_num

theorem value_linear (c : Fin 2 → ℝ) (x : ℝ) :
    linear.value c x = (c 0 + c 1) / 2 + (c 1 - c 0) / 2 * x := by
  simp [Space.value, linear, Fin.sum_univ_two]; ring

theorem nodal_linear : Nodal linear :=
  ⟨by norm_num, by norm_num, fun x => rfl, fun x => rfl⟩

theorem integral_affine (a b : ℝ) : ∫ x in (-1 : ℝ)..1, (a + b * x) = 2 * a := by
  have e := intervalIntegral.integral_add (μ := MeasureTheory.volume) (a := -1) (b := 1)
    (f := fun _ : ℝ => a) (g := fun x : ℝ => b * x)
    (by simp) ((continuous_const.mul continuous_id).intervalIntegrable _ _)
  rw [e, intervalIntegral.integral_const_mul, integral_id]
  simp only [intervalIntegral.integral_const, smul_eq_mul]
  ring

theorem adequate_linear : Adequate linear where
  continuous := by
    intro i
    fin_cases i
    · exact (continuous_const.sub continuous_id).div_const 2
    · exact (continuous_const.add continuous_id).div_const 2
  inside := by
    have h : 0 ≤ 1 / √3 := by positivity
    have h1 : 1 / √3 ≤ 1 := by nlinarith [inv_sqrt3]
    intro q hq
    simp only [linear, List.mem_cons, List.not_mem_nil, or_false] at hq
    rcases hq with rfl | rfl <;> simp only [] <;> constructor <;> linarith
  exact := by
    intro i
    fin_cases i
    · show _ = ∫ x in (-1 : ℝ)..1, (1 - x) / 2
      rw [show (fun x : ℝ => (1 - x) / 2) = fun x => 1 / 2 + (-1 / 2) * x by funext x; ring, integral_affine]
      simp [linear]; ring
    · show _ = ∫ x in (-1 : ℝ)..1, (1 + x) / 2
      rw [show (fun x : ℝ => (1 + x) / 2) = fun x => 1 / 2 + (1 / 2) * x by funext x; ring, integral_affine]
      simp [linear]; ring
  mass := by
    have h := inv_sqrt3
    rw [Matrix.det_fin_two]
    simp only [Matrix.of_apply, linear, List.map_cons, List.map_nil, List.sum_cons, List.sum_nil,
      Matrix.cons_val_zero, Matrix.cons_val_one]
    generalize 1 / √3 = s at h
    have : (1 * ((1 - -s) / 2 * ((1 - -s) / 2)) + (1 * ((1 - s) / 2 * ((1 - s) / 2)) + 0)) *
        (1 * ((1 + -s) / 2 * ((1 + -s) / 2)) + (1 * ((1 + s) / 2 * ((1 + s) / 2)) + 0)) -
        (1 * ((1 - -s) / 2 * ((1 + -s) / 2)) + (1 * ((1 - s) / 2 * ((1 + s) / 2)) + 0)) *
        (1 * ((1 + -s) / 2 * ((1 - -s) / 2)) + (1 * ((1 + s) / 2 * ((1 - s) / 2)) + 0)) = s * s := by ring
    rw [this, h]; norm_num
  linear := by
    intro a b
    refine ⟨![a - b, a + b], fun x => ?_⟩
    have := value_linear ![a - b, a + b] x
    simp only [Space.value] at this
    rw [this]
    simp

theorem mean_lin (c : Fin 2 → ℝ) : mean linear c = (c 0 + c 1) / 2 :=
  mean_linear linear c _ _ (value_linear c)

/-- Quadratic functions with the Gauss rule of three points. -/
noncomputable def quadratic : Space 3 where
  phi := ![fun x => (1 - x) / 2, fun x => (1 + x) / 2, fun x => x ^ 2 - 1]
  rule := [(5 / 9, -√(3 / 5)), (8 / 9, 0), (5 / 9, √(3 / 5))]

theorem sqrt35 : √(3 / 5) * √(3 / 5) = 3 / 5 := Real.mul_self_sqrt (by norm_num)

theorem value_quadratic (c : Fin 3 → ℝ) (x : ℝ) :
    quadratic.value c x = c 0 * ((1 - x) / 2) + c 1 * ((1 + x) / 2) + c 2 * (x ^ 2 - 1) := by
  simp [Space.value, quadratic, Fin.sum_univ_three]

theorem nodal_quadratic : Nodal quadratic :=
  ⟨by norm_num, by norm_num, fun x => rfl, fun x => rfl⟩

theorem integral_bubble : ∫ x in (-1 : ℝ)..1, (x ^ 2 - 1) = -(4 / 3) := by
  rw [intervalIntegral.integral_sub ((continuous_pow 2).intervalIntegrable _ _) (by simp), integral_pow]
  simp
  norm_num

theorem adequate_quadratic : Adequate quadratic where
  continuous := by
    intro i
    fin_cases i
    · exact (continuous_const.sub continuous_id).div_const 2
    · exact (continuous_const.add continuous_id).div_const 2
    · exact (continuous_pow 2).sub continuous_const
  inside := by
    have h : 0 ≤ √(3 / 5) := Real.sqrt_nonneg _
    have h1 : √(3 / 5) ≤ 1 := by nlinarith [sqrt35]
    intro q hq
    simp only [quadratic, List.mem_cons, List.not_mem_nil, or_false] at hq
    rcases hq with rfl | rfl | rfl <;> simp only [] <;> constructor <;> linarith
  exact := by
    have h := sqrt35
    intro i
    fin_cases i
    · show _ = ∫ x in (-1 : ℝ)..1, (1 - x) / 2
      rw [show (fun x : ℝ => (1 - x) / 2) = fun x => 1 / 2 + (-1 / 2) * x by funext x; ring, integral_affine]
      simp [quadratic]; ring
    · show _ = ∫ x in (-1 : ℝ)..1, (1 + x) / 2
      rw [show (fun x : ℝ => (1 + x) / 2) = fun x => 1 / 2 + (1 / 2) * x by funext x; ring, integral_affine]
      simp [quadratic]; ring
    · show _ = ∫ x in (-1 : ℝ)..1, (x ^ 2 - 1)
      rw [integral_bubble]
      show (([(5 / 9, -√(3 / 5)), (8 / 9, 0), (5 / 9, √(3 / 5))] : List (ℝ × ℝ)).map
        fun q => q.1 * (q.2 ^ 2 - 1)).sum = _
      simp only [List.map_cons, List.map_nil, List.sum_cons, List.sum_nil]
      generalize √(3 / 5) = s at h
      linear_combination (10 / 9) * h
  mass := by
    have h := sqrt35
    rw [Matrix.det_fin_three]
    have m : ∀ i j, (Matrix.of fun i j => (quadratic.rule.map fun q => q.1 * (quadratic.phi i q.2 *
        quadratic.phi j q.2)).sum : Matrix (Fin 3) (Fin 3) ℝ) i j =
        (![![2 / 3, 1 / 3, -2 / 3], ![1 / 3, 2 / 3, -2 / 3], ![-2 / 3, -2 / 3, 16 / 15]] : Fin 3 → Fin 3 → ℝ) i j := by
      intro i j
      rw [Matrix.of_apply]
      simp only [quadratic, List.map_cons, List.map_nil, List.sum_cons, List.sum_nil]
      generalize √(3 / 5) = s at h
      fin_cases i <;> fin_cases j <;> simp
      · linear_combination (5 / 18) * h
      · linear_combination (-5 / 18) * h
      · linear_combination (5 / 9) * h
      · linear_combination (-5 / 18) * h
      · linear_combination (5 / 18) * h
      · linear_combination (5 / 9) * h
      · linear_combination (5 / 9) * h
      · linear_combination (5 / 9) * h
      · linear_combination (10 / 9) * (s * s + 3 / 5) * h - (20 / 9) * h
    simp only [m]
    simp
    norm_num
  linear := by
    intro a b
    refine ⟨![a - b, a + b, 0], fun x => ?_⟩
    have := value_quadratic ![a - b, a + b, 0] x
    simp only [Space.value] at this
    rw [this]
    simp; ring

theorem mean_quadratic (c : Fin 3 → ℝ) : mean quadratic c = (c 0 + c 1) / 2 - 2 / 3 * c 2 := by
  have h := sqrt35
  rw [← average_eq adequate_quadratic (w := 1) (by norm_num)]
  unfold Space.average
  rw [integrate_eq]
  simp only [Lq, value_quadratic]
  simp only [quadratic, List.map_cons, List.map_nil, List.sum_cons, List.sum_nil]
  generalize √(3 / 5) = s at h
  linear_combination (5 / 9) * c 2 * h

end Verif.Limiters
