import Verif.Granular.Lemmas
import Verif.Shallow.Props
import Mathlib.Analysis.SpecialFunctions.Trigonometric.Deriv
import Mathlib.Analysis.Calculus.Deriv.Mul
import Mathlib.Analysis.Complex.ExponentialBounds

/-!
# Friction, sources, boundaries and test solution of the granular flow application
-/

namespace Verif.Granular

open Verif.Shallow (Params hllc1 basicFlux1 basicFlux2 root)
open Spec (tanDeg)

/-! ## C158: the friction coefficient -/

/-- In two dimensions the friction coefficient is between the tangents of the two
angles for every wet state. -/
theorem friction2_bounds (P : Chute) (h hu hv : ℝ) (hd : P.dry ≤ h) (hh : 0 < h)
    (hg : 0 < P.eps * P.cosAngle) :
    ∃ mu, friction2 P h hu hv = some mu ∧ tanDeg 17.518 < mu ∧ mu < tanDeg 29.712 := by
  unfold friction2
  rw [if_neg (not_lt.2 hd)]
  simp only []
  rw [if_neg (not_le.2 (by positivity))]
  exact pouliquen_bounds hh (by positivity)

/-- And it grows with the speed. -/
theorem friction2_monotone (P : Chute) (h hu hv ku kv : ℝ) (hd : P.dry ≤ h) (hh : 0 < h)
    (hg : 0 < P.eps * P.cosAngle) (hk : hu ^ 2 + hv ^ 2 < ku ^ 2 + kv ^ 2) :
    ∃ a b, friction2 P h hu hv = some a ∧ friction2 P h ku kv = some b ∧ a < b := by
  unfold friction2
  rw [if_neg (not_lt.2 hd)]
  simp only []
  simp only [if_neg (not_le.2 (by positivity : 0 < P.eps * P.cosAngle * h)),
    if_neg (not_lt.2 hd)]
  refine pouliquen_mono hh (div_nonneg (Real.sqrt_nonneg _) (Real.sqrt_nonneg _)) ?_
  apply div_lt_div_of_pos_right _ (by positivity)
  apply Real.sqrt_lt_sqrt (add_nonneg (mul_self_nonneg _) (mul_self_nonneg _))
  have e : ∀ a b : ℝ, a / h * (a / h) + b / h * (b / h) = (a ^ 2 + b ^ 2) / h ^ 2 := by
    intro a b
    field_simp
  rw [e, e]
  exact div_lt_div_of_pos_right hk (by positivity)

/-- In one dimension the same holds for flow downhill and at rest. -/
theorem friction1_partial (P : Chute) (h hu : ℝ) (hd : P.dry ≤ h) (hh : 0 < h)
    (hg : 0 < P.eps * P.cosAngle) (hu0 : 0 ≤ hu) :
    ∃ mu, friction1 P h hu = some mu ∧ tanDeg 17.518 < mu ∧ mu < tanDeg 29.712 := by
  unfold friction1
  rw [if_neg (not_lt.2 hd)]
  simp only []
  rw [if_neg (not_le.2 (by positivity))]
  exact pouliquen_bounds hh (by positivity)

/-- Uphill it does not: at every height every value outside the bounds, negative ones
among them, is the friction coefficient of some flow uphill. -/
theorem friction1_wrong (P : Chute) (h : ℝ) (hd : P.dry ≤ h) (hh : 0 < h)
    (hg : 0 < P.eps * P.cosAngle) (M : ℝ) (hM : M < tanDeg 17.518 ∨ tanDeg 29.712 < M) :
    ∃ hu < (0 : ℝ), friction1 P h hu = some M := by
  obtain ⟨F, hF, hp⟩ := pouliquen_any hh M hM
  have hr : 0 < P.eps * P.cosAngle * h := by positivity
  have hs : 0 < Real.sqrt (P.eps * P.cosAngle * h) := Real.sqrt_pos.2 hr
  refine ⟨F * Real.sqrt (P.eps * P.cosAngle * h) * h, ?_, ?_⟩
  · have : F < 0 := by norm_num at hF; linarith
    exact mul_neg_of_neg_of_pos (mul_neg_of_neg_of_pos this hs) hh
  · unfold friction1
    rw [if_neg (not_lt.2 hd)]
    simp only []
    rw [if_neg (not_le.2 hr), ← hp]
    congr 1
    field_simp

/-- The exponential law keeps its bounds in both directions. -/
theorem exponential_bounds (P : Chute) (h hu : ℝ) (hh : 0 < h) (he : 0 < P.eps) :
    ∃ mu, frictionExponential P h hu = some mu ∧ tanDeg 27 ≤ mu ∧ mu < tanDeg 37 ∧
      frictionExponential P h (-hu) = some mu := by
  have ht := tanDeg_lt (a := 27) (b := 37) (by norm_num) (by norm_num) (by norm_num)
  unfold frictionExponential
  simp only [tanDegrees_eq, neg_div, abs_neg]
  by_cases h1 : h < P.dry
  · simp only [if_pos h1]
    exact ⟨_, rfl, le_refl _, ht, rfl⟩
  simp only [if_neg h1]
  by_cases h2 : |hu / h| < 1e-16
  · simp only [if_pos h2]
    exact ⟨_, rfl, le_refl _, ht, rfl⟩
  simp only [if_neg h2]
  have hpos : 0 < P.eps * h := by positivity
  simp only [if_neg (not_lt.2 hpos.le)]
  refine ⟨_, rfl, ?_, ?_, rfl⟩
  · have := Real.exp_pos (-(0.136 * (P.eps * h) ^ (1.5 : ℝ) / (2 * |hu / h|)))
    have := mul_pos (sub_pos.2 ht) this
    simp only [neg_mul, neg_div]
    linarith
  · have h3 : 0 < |hu / h| := lt_of_lt_of_le (by norm_num) (not_lt.1 h2)
    have h4 : 0 < (P.eps * h) ^ (1.5 : ℝ) := Real.rpow_pos_of_pos hpos _
    have h5 : -0.136 * (P.eps * h) ^ (1.5 : ℝ) / (2 * |hu / h|) < 0 := by
      apply div_neg_of_neg_of_pos _ (by positivity)
      nlinarith
    have := (Real.exp_lt_exp.2 h5).trans_eq Real.exp_zero
    nlinarith

/-- The law for two sizes of particles keeps its bounds downhill. -/
theorem bidispersed_bounds_partial (P : Chute) (h hu eta : ℝ) (hh : 0 < h) (he : 0 < P.eps)
    (hu0 : 0 ≤ hu) (h0 : 0 ≤ eta) (h1 : eta ≤ h) :
    ∃ mu, frictionBidispersed P h hu eta = some mu ∧ tanDeg 20 ≤ mu ∧ mu ≤ tanDeg 37 := by
  have t1 := tanDeg_lt (a := 20) (b := 27) (by norm_num) (by norm_num) (by norm_num)
  have t2 := tanDeg_lt (a := 27) (b := 30) (by norm_num) (by norm_num) (by norm_num)
  have t3 := tanDeg_lt (a := 30) (b := 37) (by norm_num) (by norm_num) (by norm_num)
  have hpos : 0 < P.eps * h := by positivity
  unfold frictionBidispersed
  rw [if_neg (by rintro (a | a) <;> linarith)]
  simp only [tanDegrees_eq]
  refine ⟨_, rfl, ?_⟩
  set e := if hu / h = 0 then 0 else Real.exp (-(P.eps * h) ^ (1.5 : ℝ) / (hu / h)) with hedef
  have e0 : 0 ≤ e := by
    rw [hedef]; split
    · exact le_refl _
    · exact (Real.exp_pos _).le
  have e1 : e ≤ 1 := by
    rw [hedef]; split
    · exact zero_le_one
    · apply Real.exp_le_one_iff.2
      apply div_nonpos_of_nonpos_of_nonneg
      · have := Real.rpow_pos_of_pos hpos 1.5
        linarith
      · positivity
  have p0 : 0 ≤ eta / h := by positivity
  have p1 : eta / h ≤ 1 := (div_le_one hh).2 h1
  clear_value e
  generalize eta / h = p at p0 p1
  have s1 : tanDeg 20 ≤ tanDeg 20 + (tanDeg 30 - tanDeg 20) * e := by nlinarith
  have s2 : tanDeg 20 + (tanDeg 30 - tanDeg 20) * e ≤ tanDeg 37 := by nlinarith
  have l1 : tanDeg 20 ≤ tanDeg 27 + (tanDeg 37 - tanDeg 27) * e := by nlinarith
  have l2 : tanDeg 27 + (tanDeg 37 - tanDeg 27) * e ≤ tanDeg 37 := by nlinarith
  constructor <;> nlinarith

/-- Uphill it has no bound. -/
theorem bidispersed_wrong (P : Chute) (h eta : ℝ) (hh : 0 < h) (he : 0 < P.eps)
    (h0 : 0 ≤ eta) (h1 : eta ≤ h) (M : ℝ) :
    ∃ hu < (0 : ℝ), ∃ mu, frictionBidispersed P h hu eta = some mu ∧ M < mu := by
  have t1 := tanDeg_lt (a := 20) (b := 30) (by norm_num) (by norm_num) (by norm_num)
  have t2 := tanDeg_lt (a := 27) (b := 37) (by norm_num) (by norm_num) (by norm_num)
  have t0 := tanDeg_pos (a := 20) (by norm_num) (by norm_num)
  have t0' := tanDeg_pos (a := 27) (by norm_num) (by norm_num)
  have hpos : 0 < P.eps * h := by positivity
  have hr : 0 < (P.eps * h) ^ (1.5 : ℝ) := Real.rpow_pos_of_pos hpos _
  -- the smaller of the two slopes
  set k := min (tanDeg 30 - tanDeg 20) (tanDeg 37 - tanDeg 27) with hk
  have hk0 : 0 < k := lt_min (by linarith) (by linarith)
  set L := |M| / k + 1 with hL
  have hL0 : 0 < L := by positivity
  have hu0 : -((P.eps * h) ^ (1.5 : ℝ)) / L < 0 := div_neg_of_neg_of_pos (by linarith) hL0
  refine ⟨-((P.eps * h) ^ (1.5 : ℝ)) / L * h, mul_neg_of_neg_of_pos hu0 hh, ?_⟩
  unfold frictionBidispersed
  rw [if_neg (by rintro (a | a) <;> linarith)]
  simp only [tanDegrees_eq]
  refine ⟨_, rfl, ?_⟩
  rw [mul_div_assoc, div_self hh.ne', mul_one, if_neg hu0.ne]
  have ee : -((P.eps * h) ^ (1.5 : ℝ)) / (-((P.eps * h) ^ (1.5 : ℝ)) / L) = L := by
    field_simp
  rw [ee]
  have hexp : L < Real.exp L := by
    have := Real.add_one_le_exp L; linarith
  have p0 : 0 ≤ eta / h := by positivity
  have p1 : eta / h ≤ 1 := (div_le_one hh).2 h1
  have hkL : |M| < k * Real.exp L := by
    have : k * L = |M| + k := by rw [hL]; field_simp
    nlinarith
  have a1 : |M| < tanDeg 20 + (tanDeg 30 - tanDeg 20) * Real.exp L := by
    have : k ≤ tanDeg 30 - tanDeg 20 := min_le_left _ _
    nlinarith [Real.exp_pos L]
  have a2 : |M| < tanDeg 27 + (tanDeg 37 - tanDeg 27) * Real.exp L := by
    have : k ≤ tanDeg 37 - tanDeg 27 := min_le_right _ _
    nlinarith [Real.exp_pos L]
  have hM := le_abs_self M
  generalize eta / h = p at p0 p1
  generalize tanDeg 20 + (tanDeg 30 - tanDeg 20) * Real.exp L = A at a1
  generalize tanDeg 27 + (tanDeg 37 - tanDeg 27) * Real.exp L = B at a2
  rcases lt_or_ge p (1 / 2) with hp | hp <;> nlinarith

/-! ## C159: forces on the flow -/

/-- In two dimensions friction opposes the motion of every wet state that moves: it is
antiparallel to the discharge, and its size is the friction coefficient times the load
on the bottom. -/
theorem friction_opposes (P : Chute) (h hu hv : ℝ) (hd : P.dry < h) (hh : 0 < h)
    (he : 0 < P.eps) (hc : 0 < P.cosAngle) (hm : 1e-32 < (hu / h) ^ 2 + (hv / h) ^ 2) :
    ∃ sx sy k mu, source2 P h hu hv = some (sx, sy) ∧ 0 < k ∧
      sx - h * P.sinAngle = -k * hu ∧ sy = -k * hv ∧
      tanDeg 17.518 < mu ∧ mu < tanDeg 29.712 ∧
      (sx - h * P.sinAngle) ^ 2 + sy ^ 2 = (mu * (h * P.cosAngle)) ^ 2 := by
  obtain ⟨mu, e, b1, b2⟩ := friction2_bounds P h hu hv hd.le hh (by positivity)
  have t0 := tanDeg_pos (a := 17.518) (by norm_num) (by norm_num)
  have hq : hu / h * (hu / h) + hv / h * (hv / h) = (hu / h) ^ 2 + (hv / h) ^ 2 := by ring
  have hpos : 0 < (hu / h) ^ 2 + (hv / h) ^ 2 := lt_trans (by norm_num) hm
  set n := Real.sqrt ((hu / h) ^ 2 + (hv / h) ^ 2) with hn
  have hn0 : 0 < n := Real.sqrt_pos.2 hpos
  have hn2 : n ^ 2 = (hu / h) ^ 2 + (hv / h) ^ 2 := Real.sq_sqrt hpos.le
  refine ⟨h * P.sinAngle - h * mu * (hu / h / n) * P.cosAngle,
    -h * mu * (hv / h / n) * P.cosAngle, mu * P.cosAngle / n, mu, ?_, ?_, ?_, ?_, b1, b2, ?_⟩
  · unfold source2
    simp only [e, Option.map_some]
    rw [if_pos hd, if_pos hd, hq, if_pos hm, if_pos hm]
  · have : 0 < mu := by linarith
    positivity
  · field_simp; ring
  · field_simp
  · have : (h * P.sinAngle - h * mu * (hu / h / n) * P.cosAngle - h * P.sinAngle) ^ 2
        + (-h * mu * (hv / h / n) * P.cosAngle) ^ 2
        = (mu * (h * P.cosAngle)) ^ 2 * (((hu / h) ^ 2 + (hv / h) ^ 2) / n ^ 2) := by
      field_simp
      ring
    rw [this, ← hn2, div_self (by positivity), mul_one]

/-- In one dimension downhill flow is braked, within the bounds of the law. -/
theorem downhill_braked (P : Chute) (h hu : ℝ) (hd : P.dry < h) (hh : 0 < h)
    (he : 0 < P.eps) (hc : 0 < P.cosAngle) (hm : 1e-16 ≤ hu / h) :
    ∃ s, source1 P h hu = some s ∧
      h * P.sinAngle - tanDeg 29.712 * (h * P.cosAngle) < s ∧
      s < h * P.sinAngle - tanDeg 17.518 * (h * P.cosAngle) := by
  have hu0 : 0 ≤ hu := by
    have : 0 < hu / h := lt_of_lt_of_le (by norm_num) hm
    by_contra hneg
    have := div_neg_of_neg_of_pos (not_le.1 hneg) hh
    linarith
  obtain ⟨mu, e, b1, b2⟩ := friction1_partial P h hu hd.le hh (by positivity) hu0
  refine ⟨h * P.sinAngle - h * mu * 1 * P.cosAngle, ?_, ?_, ?_⟩
  · unfold source1
    simp only [e, Option.map_some]
    rw [if_pos hd]
    have hn : 0 ≤ hu / h := by positivity
    rw [sign, if_neg (by rw [abs_of_nonneg hn]; exact not_lt.2 hm), if_neg (not_lt.2 hn)]
  · have : 0 < h * P.cosAngle := by positivity
    nlinarith
  · have : 0 < h * P.cosAngle := by positivity
    nlinarith

/-- Uphill flow may be driven on by its friction, as strongly as one likes. -/
theorem uphill_wrong (P : Chute) (h : ℝ) (hd : P.dry < h) (hh : 0 < h)
    (he : 0 < P.eps) (hc : 0 < P.cosAngle) (hr : 1e-20 ≤ P.eps * P.cosAngle * h) (M : ℝ) :
    ∃ hu < (0 : ℝ), ∃ s, source1 P h hu = some s ∧ s < M := by
  have hL : 0 < h * P.cosAngle := by positivity
  have t0 := tanDeg_pos (a := 17.518) (by norm_num) (by norm_num)
  set N := -((|M| + |h * P.sinAngle| + 1) / (h * P.cosAngle)) with hN
  have hN0 : N < 0 := by rw [hN, neg_lt_zero]; positivity
  obtain ⟨F, hF, hp⟩ := pouliquen_any hh N (Or.inl (lt_trans hN0 t0))
  have hr' : 0 < P.eps * P.cosAngle * h := by positivity
  have hs : 1e-10 ≤ Real.sqrt (P.eps * P.cosAngle * h) := by
    apply Real.le_sqrt_of_sq_le
    refine le_trans ?_ hr
    norm_num
  have hs0 : 0 < Real.sqrt (P.eps * P.cosAngle * h) := Real.sqrt_pos.2 hr'
  have hF' : F < -(8 / 100) := by norm_num at hF ⊢; linarith
  have hu0 : F * Real.sqrt (P.eps * P.cosAngle * h) < 0 :=
    mul_neg_of_neg_of_pos (by linarith) hs0
  refine ⟨F * Real.sqrt (P.eps * P.cosAngle * h) * h, mul_neg_of_neg_of_pos hu0 hh,
    h * P.sinAngle - h * N * (-1) * P.cosAngle, ?_, ?_⟩
  · have ef : friction1 P h (F * Real.sqrt (P.eps * P.cosAngle * h) * h) = some N := by
      unfold friction1
      rw [if_neg (not_lt.2 hd.le)]
      simp only []
      rw [if_neg (not_le.2 hr'), ← hp]
      congr 1
      field_simp
    unfold source1
    simp only [ef, Option.map_some]
    rw [if_pos hd, mul_div_assoc, div_self hh.ne', mul_one, sign, if_neg, if_pos hu0]
    rw [abs_of_neg hu0, not_lt]
    norm_num at hs ⊢
    nlinarith
  · have : h * N * (-1) * P.cosAngle = |M| + |h * P.sinAngle| + 1 := by
      rw [hN]; field_simp
    rw [this]
    have := neg_abs_le M
    have := le_abs_self (h * P.sinAngle)
    linarith

/-- At rest there is no friction: material at rest on a slope is set in motion however
small the slope, in one dimension and in two. -/
theorem rest_moves (P : Chute) (h : ℝ) (hd : P.dry < h) (hh : 0 < h) (he : 0 < P.eps)
    (hc : 0 < P.cosAngle) (hs : 0 < P.sinAngle) :
    source1 P h 0 = some (h * P.sinAngle) ∧ source2 P h 0 0 = some (h * P.sinAngle, 0) ∧
      0 < h * P.sinAngle := by
  obtain ⟨m1, e1, -⟩ := friction1_partial P h 0 hd.le hh (by positivity) le_rfl
  obtain ⟨m2, e2, -⟩ := friction2_bounds P h 0 0 hd.le hh (by positivity)
  refine ⟨?_, ?_, by positivity⟩
  · have hz : sign (0 : ℝ) = 0 := by rw [sign, if_pos]; norm_num
    unfold source1
    simp [e1, hz]
  · unfold source2
    simp only [e2, Option.map_some, zero_div, ite_self, mul_zero, add_zero]
    simp

/-! ## C160: outflow -/

/-- Supercritical outflow is the physical flux, in every program. -/
theorem outflow_supercritical {m : ℕ} (P : Params)
    (F : (Fin (m + 2) → ℝ) → Option (Fin (m + 2) → ℝ)) (inflow w f : Fin (m + 2) → ℝ)
    (normal : ℝ) (hn : 0 < normal) (hw : 0 < w 0) (hg : 0 ≤ P.eps * P.cosAngle)
    (hf : F w = some f) (hu : Real.sqrt (P.eps * P.cosAngle * w 0) ≤ w 1 / w 0) :
    boundaryFlux P F inflow w normal = some f := by
  have e : w 0 * P.cosAngle * P.eps = P.eps * P.cosAngle * w 0 := by ring
  unfold boundaryFlux
  rw [if_pos hn, if_neg hw.ne', e, root, if_neg (not_lt.2 (by positivity)), Option.bind_some,
    if_neg (not_lt.2 hu), Shallow.consistent1 P F w f 1 hf hg hw.le]
  simp

/-- Subcritical outflow with two variables: the state outside has height `1.35` and the
same outgoing Riemann invariant. -/
theorem outflow_subcritical (P : Params)
    (F : (Fin 2 → ℝ) → Option (Fin 2 → ℝ)) (inflow w : Fin 2 → ℝ)
    (normal : ℝ) (hn : 0 < normal) (hw : 0 < w 0) (hg : 0 ≤ P.eps * P.cosAngle)
    (hu : w 1 / w 0 < Real.sqrt (P.eps * P.cosAngle * w 0)) :
    ∃ s : Fin 2 → ℝ, boundaryFlux (m := 0) P F inflow w normal = hllc1 (m := 0) P F w s 1 ∧
      s 0 = 1.35 ∧
      s 1 / s 0 + 2 * Real.sqrt (P.eps * P.cosAngle * s 0)
        = w 1 / w 0 + 2 * Real.sqrt (P.eps * P.cosAngle * w 0) := by
  have e : w 0 * P.cosAngle * P.eps = P.eps * P.cosAngle * w 0 := by ring
  refine ⟨![1.35, 1.35 * (w 1 / w 0 + 2 * Real.sqrt (P.eps * P.cosAngle * w 0)
    - 2 * Real.sqrt (P.eps * P.cosAngle * 1.35))], ?_, rfl, ?_⟩
  · unfold boundaryFlux
    rw [if_pos hn, if_neg hw.ne', e, root, if_neg (not_lt.2 (by positivity)), Option.bind_some,
      if_pos hu]
    have : asState (m := 0) (outflowState P w) = some ![1.35, 1.35 * (w 1 / w 0 +
      2 * Real.sqrt (P.eps * P.cosAngle * w 0) - 2 * Real.sqrt (P.eps * P.cosAngle * 1.35))] := by
      unfold asState outflowState
      simp only [List.length_cons, List.length_nil, Nat.reduceAdd, dite_true]
      congr 1
      funext i
      match i with
      | 0 => rfl
      | 1 => rfl
    rw [this, Option.bind_some]
  · simp only [Matrix.cons_val_zero, Matrix.cons_val_one, Matrix.cons_val_fin_one]
    rw [mul_div_assoc, mul_comm, div_mul_cancel₀]
    · ring
    · norm_num

/-- A program with three variables, the one for two sizes of particles, fails there. -/
theorem outflow_bidispersed_wrong (P : Params)
    (F : (Fin 3 → ℝ) → Option (Fin 3 → ℝ)) (inflow w : Fin 3 → ℝ)
    (normal : ℝ) (hn : 0 < normal) (hw : 0 < w 0)
    (hu : w 1 / w 0 < Real.sqrt (P.eps * P.cosAngle * w 0)) :
    boundaryFlux (m := 1) P F inflow w normal = none := by
  have e : w 0 * P.cosAngle * P.eps = P.eps * P.cosAngle * w 0 := by ring
  unfold boundaryFlux
  rw [if_pos hn, if_neg hw.ne', e, root]
  split
  · rfl
  · rw [Option.bind_some, if_pos hu]
    rfl

/-- Material lower than `1.35` that is at rest at the outflow makes material come in. -/
theorem outflow_enters (P : Params) (alpha h : ℝ) (inflow : Fin 2 → ℝ) (normal : ℝ)
    (hn : 0 < normal) (hd : P.dry < h) (hd' : P.dry < 1.35) (h0 : 0 < h) (h1 : h < 1.35)
    (he : 0 < P.eps) (hc : 0 < P.cosAngle) :
    ∃ f, boundaryFlux (m := 0) P (basicFlux1 P alpha) inflow ![h, 0] normal = some f ∧
      f 0 < 0 := by
  have hg : 0 < P.eps * P.cosAngle := by positivity
  obtain ⟨s, e, s0, s1⟩ := outflow_subcritical P (basicFlux1 P alpha) inflow ![h, 0] normal hn
    (by simpa using h0) hg.le (by simp; positivity)
  simp only [Matrix.cons_val_zero, Matrix.cons_val_one, Matrix.cons_val_fin_one, zero_div,
    zero_add] at s1
  rw [e]
  have s0' : s 0 = 1.35 := s0
  have hlt : Real.sqrt (P.eps * P.cosAngle * h) < Real.sqrt (P.eps * P.cosAngle * s 0) := by
    apply Real.sqrt_lt_sqrt (by positivity)
    rw [s0']
    exact mul_lt_mul_of_pos_left h1 hg
  have hsp : 0 < s 0 := by rw [s0']; norm_num
  have hv : s 1 / s 0 < 0 := by linarith
  have hs1 : s 1 < 0 := by
    by_contra hneg
    have := div_nonneg (not_lt.1 hneg) hsp.le
    linarith
  have hcl : 0 < Real.sqrt (P.eps * P.cosAngle * h) := Real.sqrt_pos.2 (by positivity)
  unfold Shallow.hllc1 basicFlux1
  have g1 : (![h, 0] : Fin 2 → ℝ) 0 > -1e-16 := by
    simp only [Matrix.cons_val_zero]; norm_num; linarith
  have g2 : s 0 > -1e-16 := by norm_num; linarith
  rw [if_pos g1, if_pos g2]
  simp only [Option.bind_some, root]
  rw [if_neg (by simp only [Matrix.cons_val_zero]; exact not_lt.2 (by positivity)),
    if_neg (not_lt.2 (by positivity))]
  simp only [Option.bind_some, Option.some.injEq, exists_eq_left']
  have hd1 : P.dry < (![h, 0] : Fin 2 → ℝ) 0 := by simpa using hd
  have hd2 : P.dry < s 0 := by rw [s0']; exact hd'
  have ns1 : Shallow.normalSpeed1 (m := 0) P 1 ![h, 0] = 0 := by
    unfold Shallow.normalSpeed1
    rw [if_pos hd1]; simp
  have ns2 : Shallow.normalSpeed1 (m := 0) P 1 s = s 1 / s 0 := by
    unfold Shallow.normalSpeed1
    rw [if_pos hd2, one_mul]
  rw [ns1, ns2]
  simp only [Matrix.cons_val_zero]
  set cl := Real.sqrt (P.eps * P.cosAngle * h)
  set cr := Real.sqrt (P.eps * P.cosAngle * s 0)
  have hsl : min (0 - cl) (s 1 / s 0 - cr) < 0 := lt_of_le_of_lt (min_le_left _ _) (by linarith)
  have hsr : 0 < max (0 + cl) (s 1 / s 0 + cr) := lt_of_lt_of_le (by linarith) (le_max_left _ _)
  unfold Shallow.combine
  rw [if_neg (not_le.2 hsl), if_neg (not_le.2 hsr)]
  generalize min (0 - cl) (s 1 / s 0 - cr) = sl at hsl
  generalize max (0 + cl) (s 1 / s 0 + cr) = sr at hsr
  simp only [Matrix.cons_val_zero, Matrix.cons_val_one, Matrix.cons_val_fin_one, one_mul, mul_zero,
    zero_sub]
  apply div_neg_of_neg_of_pos _ (by linarith)
  have a1 : 0 < sl * s 1 := mul_pos_of_neg_of_neg hsl hs1
  have a2 : sl * sr * (s 0 - h) < 0 :=
    mul_neg_of_neg_of_pos (mul_neg_of_neg_of_pos hsl hsr) (by rw [s0']; linarith)
  linarith

/-! ## C161: conserved quantities and exact solutions -/

/-- The flux for two sizes of particles transports mass and momentum as the flow of one
size does, and the small particles with the flux of the documentation; a flow of small
particles only, or of none, stays one. -/
theorem bidispersed_flux (P : Params) (alpha : ℝ) (w : Fin 3 → ℝ) (hd : P.dry < w 0)
    (hw : 0 < w 0) :
    ∃ f g, bidispersedFlux P alpha w = some f ∧ basicFlux1 P 1 ![w 0, w 1] = some g ∧
      f 0 = g 0 ∧ f 1 = g 1 ∧ f 2 = Spec.smallFlux alpha (w 0) (w 1 / w 0) (w 2) ∧
      (w 2 = w 0 → f 2 = f 0) ∧ (w 2 = 0 → f 2 = 0) := by
  have hp : w 0 > -1e-16 := by norm_num; linarith
  refine ⟨![w 1, w 1 * (w 1 / w 0) + P.eps / 2 * P.cosAngle * w 0 * w 0,
        w 1 * (w 2 / w 0) * (alpha + (1 - alpha) * (w 2 / w 0))],
    ![w 1, w 1 * (w 1 / w 0) * 1 + P.eps / 2 * P.cosAngle * w 0 * w 0], ?_, ?_, ?_⟩
  · unfold bidispersedFlux
    rw [if_pos hp, if_pos hd]
  · unfold basicFlux1
    simp only [Matrix.cons_val_zero, Matrix.cons_val_one, Matrix.cons_val_fin_one]
    rw [if_pos hp, if_pos hd]
  · refine ⟨rfl, by simp, ?_, ?_, ?_⟩
    · simp only [Spec.smallFlux, Matrix.cons_val]
      field_simp
      ring
    · intro h
      simp only [Matrix.cons_val, h, div_self hw.ne']
      ring
    · intro h
      simp [h]

/-- In the channel of changing width a layer of constant height at rest is balanced:
the force by the walls is the change of the momentum flux, for every height, on both
parts of the channel. -/
theorem width_balance (P : Chute) (h x : ℝ) (hd : P.dry < h) (h0 : 0 < h) (he : 0 < P.eps)
    (hc : 0 < P.cosAngle) (hx : x ≠ 1) (hx' : x < 27 / 2) :
    ∃ s, widthSource P x (h * width x) 0 = some s ∧
      ∃ f : ℝ → ℝ × ℝ, (∀ y < (27 / 2 : ℝ), widthFlux P y (h * width y) 0 = some (f y)) ∧
        HasDerivAt (fun y => (f y).2) (s - h * width x * P.sinAngle) x := by
  have hw : ∀ y < (27 / 2 : ℝ), 0 < width y := by
    intro y hy
    unfold width
    split <;> linarith
  have hq : ∀ y < (27 / 2 : ℝ), h * width y / width y = h := fun y hy =>
    mul_div_cancel_right₀ h (hw y hy).ne'
  obtain ⟨mu, e, -⟩ := friction1_partial P h (h * 0) hd.le h0 (by positivity) (by simp)
  have hz : sign (0 : ℝ) = 0 := by rw [sign, if_pos]; norm_num
  refine ⟨h * width x * P.sinAngle + P.eps / 2 * P.cosAngle * h * h * widthDeriv x, ?_,
    fun y => (0, P.eps / 2 * P.cosAngle * h * h * width y), ?_, ?_⟩
  · unfold widthSource
    simp only [hq x hx', zero_div, ite_self, e, Option.map_some, hz]
    simp
  · intro y hy
    unfold widthFlux
    simp only [hq y hy, zero_div, ite_self]
    rw [if_pos (by norm_num; linarith)]
    simp
  · have key : HasDerivAt width (widthDeriv x) x := by
      rcases lt_or_gt_of_ne hx with h | h
      · have e1 : widthDeriv x = 0 := by rw [widthDeriv, if_neg (by linarith)]
        rw [e1]
        refine (hasDerivAt_const x (1 : ℝ)).congr_of_eventuallyEq ?_
        filter_upwards [Iio_mem_nhds h] with y hy
        rw [width, if_neg (by simp at hy; linarith)]
      · have e1 : widthDeriv x = -(2 * 1 / 25) := by
          rw [widthDeriv, if_pos h]; norm_num
        rw [e1]
        have h1 : HasDerivAt (fun y : ℝ => 1 - 2 * (y - 1) / 25) (-(2 * 1 / 25)) x :=
          ((((hasDerivAt_id' x).sub_const 1).const_mul 2).div_const 25).const_sub 1
        refine h1.congr_of_eventuallyEq ?_
        filter_upwards [Ioi_mem_nhds h] with y hy
        rw [width, if_pos (Set.mem_Ioi.1 hy)]
    have := key.const_mul (P.eps / 2 * P.cosAngle * h * h)
    have e2 : h * width x * P.sinAngle + P.eps / 2 * P.cosAngle * h * h * widthDeriv x
        - h * width x * P.sinAngle = P.eps / 2 * P.cosAngle * h * h * widthDeriv x := by ring
    rw [e2]
    exact this

/-- The solution of the convergence test satisfies the equations with the test's source
exactly, at every point and time: time derivative plus divergence of the flux. -/
theorem test_exact (P : Params) (hd : P.dry < 0.9) (x y t : ℝ) :
    ∃ f : ℝ → ℝ → Fin 6 → ℝ, (∀ a b, basicFlux2 P (testSolution a b t) = some (f a b)) ∧
      ∀ i : Fin 3, ∃ dt dx dy : ℝ,
        HasDerivAt (fun s => testSolution x y s i) dt t ∧
        HasDerivAt (fun s => f s y (Shallow.entry i 0)) dx x ∧
        HasDerivAt (fun s => f x s (Shallow.entry i 1)) dy y ∧
        dt + dx + dy = testSource P x y t i := by
  have hpos : ∀ a b, 0.9 ≤ testHeight a b t := by
    intro a b
    have k : |Real.sin (2 * Real.pi * a) * Real.sin (2 * Real.pi * b)
        * Real.cos (2 * Real.pi * t)| ≤ 1 := by
      rw [abs_mul, abs_mul]
      have h1 := Real.abs_sin_le_one (2 * Real.pi * a)
      have h2 := Real.abs_sin_le_one (2 * Real.pi * b)
      have h3 := Real.abs_cos_le_one (2 * Real.pi * t)
      have := mul_le_one₀ h1 (abs_nonneg _) h2
      exact mul_le_one₀ this (abs_nonneg _) h3
    have := (abs_le.1 k).1
    unfold testHeight
    nlinarith
  set g := P.eps / 2 * P.cosAngle with hg
  refine ⟨fun a b => ![testHeight a b t, testHeight a b t,
      testHeight a b t + g * testHeight a b t * testHeight a b t, testHeight a b t,
      testHeight a b t, testHeight a b t + g * testHeight a b t * testHeight a b t], ?_, ?_⟩
  · intro a b
    have hp := hpos a b
    have h9 : (0 : ℝ) < testHeight a b t := lt_of_lt_of_le (by norm_num) hp
    unfold basicFlux2 testSolution
    simp only [Matrix.cons_val_zero, Matrix.cons_val_one, Matrix.cons_val, mul_one]
    rw [if_pos (by norm_num; linarith), if_pos (by linarith)]
    simp only [div_self h9.ne', mul_one, hg]
  -- derivatives of the height
  have hlin : ∀ z : ℝ, HasDerivAt (fun s : ℝ => 2 * Real.pi * s) (2 * Real.pi) z := fun z => by
    simpa using (hasDerivAt_id' z).const_mul (2 * Real.pi)
  have ht : HasDerivAt (fun s => testHeight x y s)
      (0.1 * Real.sin (2 * Real.pi * x) * Real.sin (2 * Real.pi * y)
        * (-Real.sin (2 * Real.pi * t) * (2 * Real.pi))) t := by
    unfold testHeight
    exact ((hlin t).cos.const_mul _).const_add 1
  have hx : HasDerivAt (fun s => testHeight s y t)
      (0.1 * (Real.cos (2 * Real.pi * x) * (2 * Real.pi)) * Real.sin (2 * Real.pi * y)
        * Real.cos (2 * Real.pi * t)) x := by
    unfold testHeight
    exact ((((hlin x).sin.const_mul _).mul_const _).mul_const _).const_add 1
  have hy : HasDerivAt (fun s => testHeight x s t)
      (0.1 * Real.sin (2 * Real.pi * x) * (Real.cos (2 * Real.pi * y) * (2 * Real.pi))
        * Real.cos (2 * Real.pi * t)) y := by
    unfold testHeight
    exact (((hlin y).sin.const_mul _).mul_const _).const_add 1
  have hxx := hx.add ((hx.const_mul g).mul hx)
  have hyy := hy.add ((hy.const_mul g).mul hy)
  intro i
  fin_cases i
  · refine ⟨_, _, _, ht, hx, hy, ?_⟩
    simp only [testSource]
    norm_num
    ring
  · refine ⟨_, _, _, by simpa [testSolution] using ht, hxx, hy, ?_⟩
    simp only [testSource, testHeight, hg]
    norm_num
    ring
  · refine ⟨_, _, _, by simpa [testSolution] using ht, hx, hyy, ?_⟩
    simp only [testSource, testHeight, hg]
    norm_num
    ring

/-- The chute used in the examples. -/
noncomputable def exampleChute : Chute := ⟨⟨1, 4 / 5, 1e-5⟩, 3 / 5⟩

/-- Examples: the chute meets the hypotheses. -/
example : ∃ mu, friction2 exampleChute 1 3 4 = some mu ∧ tanDeg 17.518 < mu ∧
    mu < tanDeg 29.712 :=
  friction2_bounds exampleChute 1 3 4 (by norm_num [exampleChute]) (by norm_num)
    (by norm_num [exampleChute])

example : ∃ hu < (0 : ℝ), friction1 exampleChute 1 hu = some (-5) :=
  friction1_wrong exampleChute 1 (by norm_num [exampleChute]) (by norm_num)
    (by norm_num [exampleChute]) _ (Or.inl (lt_trans (by norm_num)
      (tanDeg_pos (a := 17.518) (by norm_num) (by norm_num))))

example : boundaryFlux (m := 1) exampleChute.toParams
    (bidispersedFlux exampleChute.toParams (1 / 2)) ![0, 0, 0] ![1, 0, 1 / 2] 1 = none :=
  outflow_bidispersed_wrong _ _ _ _ _ one_pos (by simp) (by simp [exampleChute])

end Verif.Granular
