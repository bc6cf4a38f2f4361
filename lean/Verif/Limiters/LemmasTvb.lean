import Verif.Limiters.Lemmas

/-! Helper lemmas for the slope limiter and the loop over the elements -/
set_option linter.all false
namespace Verif.Limiters

variable {n v : ℕ}

theorem value_nodal {S : Space n} (N : Nodal S) (c : Fin n → ℝ) (h2 : ∀ i : Fin n, 2 ≤ i.val → c i = 0)
    (x : ℝ) (a b : ℝ) (ha : ∀ i : Fin n, i.val = 0 → c i = a) (hb : ∀ i : Fin n, i.val = 1 → c i = b) :
    S.value c x = (a + b) / 2 + (b - a) / 2 * x := by
  obtain ⟨h0, h1, p0, p1⟩ := N
  unfold Space.value
  have hne : (⟨0, h0⟩ : Fin n) ≠ ⟨1, h1⟩ := by simp
  rw [← Finset.sum_subset (Finset.subset_univ {(⟨0, h0⟩ : Fin n), ⟨1, h1⟩}) (by
    intro i _ hi
    have : 2 ≤ i.val := by
      simp only [Finset.mem_insert, Finset.mem_singleton, not_or, Fin.ext_iff] at hi
      omega
    rw [h2 i this, zero_mul]), Finset.sum_pair hne, p0, p1, ha _ rfl, hb _ rfl]
  ring

theorem minmod_value {S : Space n} (N : Nodal S) (uL u0 uR x : ℝ) :
    S.value (minmodCoeffs n uL u0 uR) x = u0 +
      (open Classical in if sign (uR - u0) ≠ sign (u0 - uL) then 0
      else if ratioBelowOne (u0 - uL) (uR - u0) then (u0 - uL) / 2 else (uR - u0) / 2) * x := by
  classical
  unfold minmodCoeffs
  by_cases h1 : sign (uR - u0) ≠ sign (u0 - uL)
  · simp only [if_pos h1]
    rw [value_nodal N _ (fun i hi => by rw [if_neg (by omega), if_neg (by omega)]) x u0 u0
      (fun i hi => by rw [if_pos hi]) (fun i hi => by rw [if_neg (by omega), if_pos hi])]
    ring
  · simp only [if_neg h1]
    by_cases h2 : ratioBelowOne (u0 - uL) (uR - u0)
    · simp only [if_pos h2]
      rw [value_nodal N _ (fun i hi => by rw [if_neg (by omega), if_neg (by omega)]) x _ _
        (fun i hi => by rw [if_pos hi]) (fun i hi => by rw [if_neg (by omega), if_pos hi])]
      ring
    · simp only [if_neg h2]
      rw [value_nodal N _ (fun i hi => by rw [if_neg (by omega), if_neg (by omega)]) x _ _
        (fun i hi => by rw [if_pos hi]) (fun i hi => by rw [if_neg (by omega), if_pos hi])]
      ring

theorem mean_minmod {S : Space n} (N : Nodal S) (uL u0 uR : ℝ) :
    mean S (minmodCoeffs n uL u0 uR) = u0 :=
  mean_linear S _ u0 _ fun x => minmod_value N uL u0 uR x

/-- The slope that the limiter chooses: zero, or of the sign of both differences and not larger than
half of either. -/
theorem minmod_slope (a b : ℝ) : open Classical in
    ∃ s, (if sign b ≠ sign a then 0 else if ratioBelowOne a b then a / 2 else b / 2) = s ∧
    ((s = 0 ∧ sign a ≠ sign b) ∨ (0 < a ∧ 0 < b ∧ s = min a b / 2) ∨ (a < 0 ∧ b < 0 ∧ s = max a b / 2) ∨
      (|a| < 1 / 10 ^ 16 ∧ |b| < 1 / 10 ^ 16 ∧ (s = a / 2 ∨ s = b / 2))) := by
  classical
  refine ⟨_, rfl, ?_⟩
  by_cases h1 : sign b ≠ sign a
  · rw [if_pos h1]; left; exact ⟨rfl, h1.symm⟩
  · right
    rw [if_neg h1]
    push Not at h1
    have e : (0 : ℝ) < 1 / 10 ^ 16 := by norm_num
    unfold sign at h1
    by_cases ha : |a| < 1 / 10 ^ 16
    · rw [if_pos ha] at h1
      have hb : |b| < 1 / 10 ^ 16 := by
        by_contra hb
        rw [if_neg hb] at h1
        split_ifs at h1 <;> norm_num at h1
      right; right
      refine ⟨ha, hb, ?_⟩
      split_ifs
      · left; rfl
      · right; rfl
    · rw [if_neg ha] at h1
      have hb : ¬ |b| < 1 / 10 ^ 16 := by
        intro hb
        rw [if_pos hb] at h1
        split_ifs at h1 <;> norm_num at h1
      rw [if_neg hb] at h1
      have hb0 : b ≠ 0 := by rintro rfl; simp at hb
      have ha0 : a ≠ 0 := by rintro rfl; simp at ha
      by_cases sa : a < 0
      · have sb : b < 0 := by
          rw [if_pos sa] at h1
          by_contra sb
          rw [if_neg sb] at h1
          norm_num at h1
        right; left
        refine ⟨sa, sb, ?_⟩
        unfold ratioBelowOne
        rw [if_neg hb0, div_lt_one_of_neg sb]
        split_ifs with h
        · rw [max_eq_left h.le]
        · rw [max_eq_right (not_lt.mp h)]
      · have sb : ¬ b < 0 := by
          rw [if_neg sa] at h1
          intro sb
          rw [if_pos sb] at h1
          norm_num at h1
        have pa : 0 < a := lt_of_le_of_ne (not_lt.mp sa) ha0.symm
        have pb : 0 < b := lt_of_le_of_ne (not_lt.mp sb) hb0.symm
        left
        refine ⟨pa, pb, ?_⟩
        unfold ratioBelowOne
        rw [if_neg hb0, div_lt_one pb]
        split_ifs with h
        · rw [min_eq_left h.le]
        · rw [min_eq_right (not_lt.mp h)]

/-- New coefficients of one element by the slope limiter, as function of its coefficients and of the
means of its neighbours. -/
noncomputable def tvbNew (S : Space n) (w : ℝ) (mL mR : Fin (v + 2) → ℝ) (u : Fin (v + 2) → Fin n → ℝ) :
    Fin (v + 2) → Fin n → ℝ :=
  open Classical in
  fun i => if smallSlope S 1 w (u i) then u i else minmodCoeffs n (mL i) (mean S (u i)) (mR i)

/-- Whether the slope limiter runs without failure -/
def tvbOk (S : Space n) (mesh : Mesh) (m : ℕ → Fin (v + 2) → ℝ) (e : ℕ) (u : Fin (v + 2) → Fin n → ℝ) :
    Prop :=
  ∀ l r, mesh.left e = some l → mesh.right e = some r →
    (∃ i, ¬ smallSlope S 1 (mesh.width e) (u i)) →
    r = e + 1 ∧ e = l + 1 ∧ -(1 / 10 ^ 16) < m e 0 ∧ -(1 / 10 ^ 16) < m r 0 ∧ -(1 / 10 ^ 16) < m l 0

theorem tvb_fold {S : Space n} (A : Adequate S) (N : Nodal S) (mesh : Mesh) (hw : ∀ e, 0 < mesh.width e)
    (e l r : ℕ) (hl : mesh.left e = some l) (hr : mesh.right e = some r)
    (hlr : r = e + 1 ∧ e = l + 1) (is : List (Fin (v + 2))) (nd : is.Nodup) (st : State n v)
    (h0 : -(1 / 10 ^ 16) < mean S (st e 0)) (h1 : -(1 / 10 ^ 16) < mean S (st r 0))
    (h2 : -(1 / 10 ^ 16) < mean S (st l 0)) :
    open Classical in
    is.foldlM (fun st i =>
      if smallSlope S 1 (mesh.width e) (st e i) then some st else tvbVariable S mesh st e i) st =
    some (Function.update st e fun i => if i ∈ is then
      tvbNew S (mesh.width e) (fun i => mean S (st l i)) (fun i => mean S (st r i)) (st e) i
      else st e i) := by
  classical
  induction is generalizing st with
  | nil => simp
  | cons a is ih =>
    rw [List.nodup_cons] at nd
    have hre : r ≠ e := by omega
    have hle : l ≠ e := by omega
    -- one step
    have step : (if smallSlope S 1 (mesh.width e) (st e a) then some st else tvbVariable S mesh st e a) =
        some (Function.update st e (Function.update (st e) a
          (tvbNew S (mesh.width e) (fun i => mean S (st l i)) (fun i => mean S (st r i)) (st e) a))) := by
      unfold tvbNew
      by_cases hs : smallSlope S 1 (mesh.width e) (st e a)
      · simp only [if_pos hs, Function.update_eq_self]
      · simp only [if_neg hs]
        unfold tvbVariable
        simp only [hl, hr]
        rw [if_pos hlr, averages_eq A (hw e), averages_eq A (hw r), averages_eq A (hw l), if_pos h0,
          if_pos h1, if_pos h2]
        rfl
    rw [List.foldlM_cons, step]
    simp only [Option.bind_eq_bind, Option.bind_some]
    set st' := Function.update st e (Function.update (st e) a
          (tvbNew S (mesh.width e) (fun i => mean S (st l i)) (fun i => mean S (st r i)) (st e) a)) with hst'
    have hr' : st' r = st r := by rw [hst', Function.update_of_ne hre]
    have hl' : st' l = st l := by rw [hst', Function.update_of_ne hle]
    have he' : st' e = Function.update (st e) a
          (tvbNew S (mesh.width e) (fun i => mean S (st l i)) (fun i => mean S (st r i)) (st e) a) := by
      rw [hst', Function.update_self]
    have hm : mean S (st' e 0) = mean S (st e 0) := by
      rw [he']
      by_cases h : (0 : Fin (v + 2)) = a
      · subst h
        rw [Function.update_self]
        unfold tvbNew
        split_ifs
        · rfl
        · exact mean_minmod N _ _ _
      · rw [Function.update_of_ne h]
    rw [ih nd.2 st' (by rw [hm]; exact h0) (by rw [hr']; exact h1) (by rw [hl']; exact h2), hr', hl']
    congr 1
    rw [hst', Function.update_idem, ← hst']
    congr 1
    funext i
    rw [he']
    by_cases hi : i = a
    · subst hi
      rw [if_neg nd.1, Function.update_self, if_pos (by simp)]
    · rw [Function.update_of_ne hi]
      unfold tvbNew
      simp only [Function.update_of_ne hi, List.mem_cons, hi, false_or]

theorem tvb_eq {S : Space n} (A : Adequate S) (N : Nodal S) (mesh : Mesh) (hw : ∀ e, 0 < mesh.width e)
    (e : ℕ) (st : State n v) :
    open Classical in
    tvbLimiter S mesh st e =
      if tvbOk S mesh (fun f i => mean S (st f i)) e (st e) then
        some (Function.update st e (match mesh.left e, mesh.right e with
          | some l, some r => tvbNew S (mesh.width e) (fun i => mean S (st l i)) (fun i => mean S (st r i)) (st e)
          | _, _ => st e))
      else none := by
  classical
  unfold tvbLimiter
  -- a boundary element
  have bd : (∀ l r, mesh.left e = some l → mesh.right e = some r → False) → ∀ is : List (Fin (v + 2)),
      is.foldlM (fun st i =>
      if smallSlope S 1 (mesh.width e) (st e i) then some st else tvbVariable S mesh st e i) st = some st := by
    intro hb is
    induction is with
    | nil => rfl
    | cons a is ih =>
      have step : (if smallSlope S 1 (mesh.width e) (st e a) then some st else tvbVariable S mesh st e a) =
          some st := by
        split_ifs
        · rfl
        · unfold tvbVariable
          split
          · rename_i l r hl hr
            exact (hb l r hl hr).elim
          · rfl
      rw [List.foldlM_cons, step]
      exact ih
  -- an element that is not limited
  have small : (∀ i, smallSlope S 1 (mesh.width e) (st e i)) → ∀ is : List (Fin (v + 2)),
      is.foldlM (fun st i =>
      if smallSlope S 1 (mesh.width e) (st e i) then some st else tvbVariable S mesh st e i) st = some st := by
    intro hb is
    induction is with
    | nil => rfl
    | cons a is ih =>
      rw [List.foldlM_cons, if_pos (hb a)]
      exact ih
  -- failures
  have bad : ∀ l r, mesh.left e = some l → mesh.right e = some r →
      ¬ (r = e + 1 ∧ e = l + 1 ∧ -(1 / 10 ^ 16) < mean S (st e 0) ∧ -(1 / 10 ^ 16) < mean S (st r 0) ∧
        -(1 / 10 ^ 16) < mean S (st l 0)) → ∀ is : List (Fin (v + 2)),
        (∃ i ∈ is, ¬ smallSlope S 1 (mesh.width e) (st e i)) →
      is.foldlM (fun st i =>
      if smallSlope S 1 (mesh.width e) (st e i) then some st else tvbVariable S mesh st e i) st = none := by
    intro l r hl hr hb is
    induction is with
    | nil => rintro ⟨i, hi, _⟩; simp at hi
    | cons a is ih =>
      rintro ⟨i, hi, hs⟩
      rw [List.foldlM_cons]
      by_cases ha : smallSlope S 1 (mesh.width e) (st e a)
      · rw [if_pos ha]
        apply ih
        rcases List.mem_cons.mp hi with rfl | hi
        · exact (hs ha).elim
        · exact ⟨i, hi, hs⟩
      · rw [if_neg ha]
        have : tvbVariable S mesh st e a = none := by
          unfold tvbVariable
          simp only [hl, hr]
          by_cases hlr : r = e + 1 ∧ e = l + 1
          · rw [if_pos hlr, averages_eq A (hw e), averages_eq A (hw r), averages_eq A (hw l)]
            by_cases k0 : -(1 / 10 ^ 16) < mean S (st e 0)
            · by_cases k1 : -(1 / 10 ^ 16) < mean S (st r 0)
              · have k2 : ¬ -(1 / 10 ^ 16) < mean S (st l 0) := fun k2 => hb ⟨hlr.1, hlr.2, k0, k1, k2⟩
                have k2' : ¬ mean S (st l 0) > -(1 / 10 ^ 16) := k2
                rw [if_neg k2']
                simp only [Option.bind_eq_bind, Option.bind_none, Option.bind_fun_none]
              · have k1' : ¬ mean S (st r 0) > -(1 / 10 ^ 16) := k1
                rw [if_neg k1']
                simp only [Option.bind_eq_bind, Option.bind_none, Option.bind_fun_none]
            · have k0' : ¬ mean S (st e 0) > -(1 / 10 ^ 16) := k0
              rw [if_neg k0']
              rfl
          · rw [if_neg hlr]
        rw [this]
        rfl
  by_cases hb : ∃ l r, mesh.left e = some l ∧ mesh.right e = some r
  · obtain ⟨l, r, hl, hr⟩ := hb
    by_cases hs : ∃ i, ¬ smallSlope S 1 (mesh.width e) (st e i)
    · by_cases ok : r = e + 1 ∧ e = l + 1 ∧ -(1 / 10 ^ 16) < mean S (st e 0) ∧ -(1 / 10 ^ 16) < mean S (st r 0) ∧
        -(1 / 10 ^ 16) < mean S (st l 0)
      · rw [if_pos (by
          intro l' r' hl' hr' _
          rw [hl] at hl'; rw [hr] at hr'
          obtain rfl := Option.some.inj hl'
          obtain rfl := Option.some.inj hr'
          exact ok), tvb_fold A N mesh hw e l r hl hr ⟨ok.1, ok.2.1⟩ _ (List.nodup_finRange _) st ok.2.2.1 ok.2.2.2.1
            ok.2.2.2.2]
        simp only [hl, hr, List.mem_finRange, if_true]
      · rw [bad l r hl hr ok _ (by
          obtain ⟨i, hi⟩ := hs
          exact ⟨i, List.mem_finRange i, hi⟩), if_neg (fun h => ok (h l r hl hr hs))]
    · push Not at hs
      rw [small hs, if_pos (by
        intro l' r' _ _ ⟨i, hi⟩
        exact (hi (hs i)).elim)]
      simp only [hl, hr]
      congr 1
      rw [show tvbNew S (mesh.width e) (fun i => mean S (st l i)) (fun i => mean S (st r i)) (st e) = st e from by
        funext i; unfold tvbNew; rw [if_pos (hs i)], Function.update_eq_self]
  · push Not at hb
    have hb' : ∀ l r, mesh.left e = some l → mesh.right e = some r → False := fun l r h1 h2 => hb l r h1 h2
    have ok : tvbOk S mesh (fun f i => mean S (st f i)) e (st e) := fun l r hl hr => (hb' l r hl hr).elim
    rw [bd hb', if_pos ok]
    congr 1
    split
    · rename_i l r hl hr
      exact (hb' l r hl hr).elim
    · rw [Function.update_eq_self]

end Verif.Limiters
