import Verif.NavierStokes.Spec
import Verif.Euler.Lemmas
import Mathlib.Analysis.Calculus.Deriv.Inv
import Mathlib.Analysis.Calculus.Deriv.Add
import Mathlib.Analysis.Calculus.Deriv.Mul

set_option linter.all false

namespace Verif.NavierStokes

open Verif.Euler (State)
open Verif.Euler.Spec Spec

variable {d : ℕ}

/-- The change of the velocity for a change `x` of the state. -/
noncomputable def gv (v : State d) (x : Mat d) (i m : Fin d) : ℝ :=
  (x (.mom i) m - v.mom i * x .rho m) * (1 / v.rho)

/-- The change of the internal energy. -/
noncomputable def ge (v : State d) (x : Mat d) (m : Fin d) : ℝ :=
  (x .en m - v.en * x .rho m) * (1 / v.rho) - ∑ j, v.mom j * gv v x j m

/-- One term of the sum for the stress. -/
noncomputable def tm (mu : ℝ) (v : State d) (x : Mat d) (j k m : Fin d) : ℝ :=
  mu * ((if m = k then gv v x j k else 0) + (if m = j then gv v x k j else 0) -
    2 / 3 * if j = k then gv v x m m else 0)

/-- Off the diagonal both cases have the same form. -/
theorem tensor_off (mu ka : ℝ) (v : State d) {k m : Fin d} (h : k ≠ m) (r c : Var d) :
    computeEllipticTensor mu ka v k m r c = upper mu v k m r c * (1 / v.rho) := by
  have hm : m ≠ k := fun e => h e.symm
  unfold computeEllipticTensor
  rw [if_neg h]
  split_ifs with hlt
  · norm_num
  · norm_num
    left
    cases r with
    | rho => cases c <;> rfl
    | mom j =>
      cases c with
      | rho =>
        simp only [upper, lower]
        by_cases h1 : j = k
        · subst h1; simp [h, hm]
        · by_cases h2 : j = m
          · subst h2; simp [h, hm]
          · simp [h1, h2]
      | mom l =>
        simp only [upper, lower]
        by_cases h1 : j = k
        · subst h1
          by_cases h2 : l = m
          · subst h2; simp [h, hm]
          · simp [h, hm, h2]
        · by_cases h2 : j = m
          · subst h2
            by_cases h3 : l = k
            · subst h3; simp [h, hm]
            · simp [h1, h3]
          · simp [h1, h2]
      | en => rfl
    | en =>
      cases c with
      | rho => simp only [upper, lower]; ring
      | mom l =>
        simp only [upper, lower]
        by_cases h1 : l = k
        · subst h1; simp [h, hm]
        · by_cases h2 : l = m
          · subst h2; simp [h, hm]
          · simp [h1, h2]
      | en => rfl

theorem tensor_diag (mu ka : ℝ) (v : State d) (k : Fin d) (r c : Var d) :
    computeEllipticTensor mu ka v k k r c = diagonal mu ka v k r c * (1 / v.rho) := by
  unfold computeEllipticTensor
  rw [if_pos rfl]

theorem sum_single {f : Fin d → ℝ} (k : Fin d) (h : ∀ i, i ≠ k → f i = 0) : ∑ i, f i = f k :=
  Finset.sum_eq_single k (fun i _ hi => h i hi) (fun h => absurd (Finset.mem_univ _) h)

theorem sum_two {f : Fin d → ℝ} (k m : Fin d) (hkm : k ≠ m)
    (h : ∀ i, i ≠ k → i ≠ m → f i = 0) : ∑ i, f i = f k + f m := by
  have hs : ∑ i ∈ ({k, m} : Finset (Fin d)), f i = ∑ i, f i := by
    apply Finset.sum_subset (Finset.subset_univ _)
    intro i _ hi
    simp only [Finset.mem_insert, Finset.mem_singleton, not_or] at hi
    exact h i hi.1 hi.2
  rw [← hs, Finset.sum_pair hkm]

theorem row_rho (mu ka : ℝ) (v : State d) (x : Mat d) (k m : Fin d) :
    sumVars (fun w => computeEllipticTensor mu ka v k m .rho w * x w m) = 0 := by
  have e : ∀ w, computeEllipticTensor mu ka v k m .rho w = 0 := by
    intro w
    by_cases h : k = m
    · subst h; rw [tensor_diag]; simp [diagonal]
    · rw [tensor_off mu ka v h]; simp [upper]
  simp [sumVars, e]

theorem row_mom (mu ka : ℝ) (v : State d) (x : Mat d) (j k m : Fin d) :
    sumVars (fun w => computeEllipticTensor mu ka v k m (.mom j) w * x w m) = tm mu v x j k m := by
  unfold sumVars
  by_cases h : k = m
  · subst h
    simp only [tensor_diag]
    rw [sum_single j (by intro i hi; simp [diagonal, Ne.symm hi])]
    simp only [diagonal, tm, gv, if_true]
    by_cases hj : j = k
    · subst hj; simp; ring
    · simp [hj, Ne.symm hj]; ring
  · have h' : m ≠ k := fun e => h e.symm
    simp only [tensor_off mu ka v h]
    rw [sum_two k m h (by
      intro i h1 h2
      simp only [upper]
      rw [if_neg (by tauto), if_neg (by tauto)]; ring)]
    simp only [upper, tm, gv]
    by_cases hj : j = k
    · subst hj
      simp [h, h']
      ring
    · by_cases hjm : j = m
      · subst hjm
        simp [h, h']
        ring
      · simp [hj, hjm, h, h', Ne.symm hjm]

theorem row_en (mu ka : ℝ) (v : State d) (x : Mat d) (k m : Fin d) :
    sumVars (fun w => computeEllipticTensor mu ka v k m .en w * x w m) =
      ∑ j, v.mom j * tm mu v x j k m + if m = k then ka * ge v x k else 0 := by
  unfold sumVars
  by_cases h : k = m
  · subst h
    simp only [tensor_diag, diagonal, if_true]
    have e1 : ∑ j, v.mom j * tm mu v x j k k =
        mu * (∑ j, v.mom j * gv v x j k) + 1 / 3 * mu * v.mom k * gv v x k k := by
      have : ∀ j, v.mom j * tm mu v x j k k = mu * (v.mom j * gv v x j k) +
          if j = k then 1 / 3 * mu * v.mom k * gv v x k k else 0 := by
        intro j
        unfold tm
        by_cases hj : j = k
        · subst hj; simp; ring
        · simp [hj, Ne.symm hj]; ring
      rw [Finset.sum_congr rfl fun j _ => this j, Finset.sum_add_distrib, ← Finset.mul_sum]
      simp
    have e2 : ∑ j, v.mom j * gv v x j k = ((∑ j, v.mom j * x (.mom j) k) -
        (∑ j, v.mom j * v.mom j) * x .rho k) * (1 / v.rho) := by
      rw [Finset.sum_mul, ← Finset.sum_sub_distrib, Finset.sum_mul]
      exact Finset.sum_congr rfl fun j _ => by unfold gv; ring
    have e3 : ∑ i, (mu * (if i = k then (4 : ℝ) / 3 else 1) + -ka) * v.mom i * (1 / v.rho) *
        x (.mom i) k = (mu - ka) * (∑ j, v.mom j * x (.mom j) k) * (1 / v.rho) +
          1 / 3 * mu * v.mom k * x (.mom k) k * (1 / v.rho) := by
      have : ∀ i, (mu * (if i = k then (4 : ℝ) / 3 else 1) + -ka) * v.mom i * (1 / v.rho) *
          x (.mom i) k = (mu - ka) * (v.mom i * x (.mom i) k) * (1 / v.rho) +
          if i = k then 1 / 3 * mu * v.mom k * x (.mom k) k * (1 / v.rho) else 0 := by
        intro i
        by_cases hi : i = k
        · subst hi; simp; ring
        · simp [hi]; ring
      rw [Finset.sum_congr rfl fun j _ => this j, Finset.sum_add_distrib, ← Finset.sum_mul,
        ← Finset.mul_sum]
      simp
    rw [e1, e3]
    unfold ge
    rw [e2]
    unfold gv
    ring
  · have h' : m ≠ k := fun e => h e.symm
    simp only [tensor_off mu ka v h]
    rw [sum_two k m h (by
      intro i h1 h2
      simp only [upper]
      rw [if_neg (by tauto), if_neg (by tauto)]; ring)]
    rw [sum_two (f := fun j => v.mom j * tm mu v x j k m) k m h (by
      intro i h1 h2
      unfold tm
      simp [h', h1, Ne.symm h2])]
    simp only [upper, tm, gv]
    simp [h, h']
    ring

/-- The contraction, for any matrix. -/
theorem contraction_eq (mu ka : ℝ) (v : State d) (x : Mat d) (k : Fin d) :
    ofVars (fun w => contraction (computeEllipticTensor mu ka v) x w k) =
      viscousFlux mu ka v.mom (gv v x) (ge v x) k := by
  have hm : ∀ j, ∑ m, tm mu v x j k m = stress mu (gv v x) j k := by
    intro j
    unfold tm stress
    rw [← Finset.mul_sum]
    congr 1
    rw [Finset.sum_sub_distrib, Finset.sum_add_distrib, ← Finset.mul_sum]
    by_cases h : j = k
    · subst h; simp
    · simp [h]
  unfold ofVars contraction viscousFlux
  congr 1
  · simp only [row_rho]; simp
  · funext j
    simp only [row_mom]
    exact hm j
  · simp only [row_en]
    rw [Finset.sum_add_distrib, Finset.sum_comm]
    simp only [← Finset.mul_sum, hm]
    simp

/-! ### The fast contraction -/

theorem fastDiag_eq (mu ka : ℝ) (v : State d) (x : Mat d) (k : Fin d) (r : Var d) (k' : Fin d) :
    fastDiagonal (computeEllipticTensor mu ka v) x k r k' =
      if k' = k then sumVars (fun w => computeEllipticTensor mu ka v k k r w * x w k) else 0 := by
  unfold fastDiagonal
  rw [Pi.add_apply, Pi.add_apply, Finset.sum_apply, Finset.sum_apply]
  by_cases hk : k' = k
  · subst hk
    rw [if_pos rfl]
    cases r with
    | rho => rw [row_rho]; simp [single]
    | mom j =>
      rw [row_mom]
      rw [sum_single j (by intro i hi; simp [single, Ne.symm hi])]
      simp only [single, Pi.add_apply, and_self, if_true]
      simp only [tensor_diag, diagonal, tm, gv, if_true]
      by_cases hj : j = k'
      · subst hj; simp; ring
      · simp [hj, Ne.symm hj]; ring
    | en => simp [single]
  · simp [single, hk]

theorem fastOff_eq (mu ka : ℝ) (v : State d) (x : Mat d) {k m : Fin d} (h : k ≠ m) (r : Var d)
    (k' : Fin d) :
    fastOff (computeEllipticTensor mu ka v) x k m r k' =
      if k' = k then sumVars (fun w => computeEllipticTensor mu ka v k m r w * x w m) else 0 := by
  have h' : m ≠ k := fun e => h e.symm
  unfold fastOff
  simp only [Pi.add_apply]
  by_cases hk : k' = k
  · subst hk
    rw [if_pos rfl]
    cases r with
    | rho => rw [row_rho]; simp [single]
    | mom j =>
      rw [row_mom]
      simp only [tensor_off mu ka v h, upper, tm, gv, single]
      by_cases hj : j = k'
      · subst hj
        simp [h, h']
        ring
      · by_cases hjm : j = m
        · subst hjm
          simp [h, h']
          ring
        · simp [hj, hjm, h, h', Ne.symm hjm]
    | en => simp [single]
  · simp [single, hk]

theorem fast_eq (mu ka : ℝ) (v : State d) (x : Mat d) :
    contractionFast (computeEllipticTensor mu ka v) x =
      contraction (computeEllipticTensor mu ka v) x := by
  set a := computeEllipticTensor mu ka v with ha
  funext r k'
  set p : Fin d → Fin d → ℝ := fun k m =>
    if k' = k then sumVars (fun w => a k m r w * x w m) else 0 with hp
  have hd : ∀ k, fastDiagonal a x k r k' = p k k := fun k => fastDiag_eq mu ka v x k r k'
  have ho : ∀ k m, k ≠ m → fastOff a x k m r k' = p k m :=
    fun k m h => fastOff_eq mu ka v x h r k'
  have hl : contractionFast a x r k' =
      ∑ k, p k k + ∑ k, ∑ m ∈ Finset.univ.filter (fun m => k < m), (p k m + p m k) := by
    unfold contractionFast
    rw [Pi.add_apply, Pi.add_apply, Finset.sum_apply, Finset.sum_apply, Finset.sum_apply,
      Finset.sum_apply]
    congr 1
    · exact Finset.sum_congr rfl fun k _ => hd k
    · refine Finset.sum_congr rfl fun k _ => ?_
      rw [Finset.sum_apply, Finset.sum_apply]
      refine Finset.sum_congr rfl fun m hm => ?_
      have hlt := (Finset.mem_filter.mp hm).2
      rw [Pi.add_apply, Pi.add_apply, ho k m (ne_of_lt hlt), ho m k (ne_of_gt hlt)]
  have hr : contraction a x r k' = ∑ k, ∑ m, p k m := by
    rw [sum_single (f := fun k => ∑ m, p k m) k' (by
      intro k hk
      exact Finset.sum_eq_zero fun m _ => by rw [hp]; exact if_neg (Ne.symm hk))]
    unfold contraction
    exact Finset.sum_congr rfl fun m _ => by rw [hp]; exact (if_pos rfl).symm
  rw [hl, hr]
  clear_value p
  have split : ∀ k, ∑ m, p k m = p k k + ∑ m ∈ Finset.univ.filter (fun m => k < m), p k m +
      ∑ m ∈ Finset.univ.filter (fun m => m < k), p k m := by
    intro k
    simp only [Finset.sum_filter]
    have : p k k = ∑ m, if m = k then p k m else 0 := by simp
    rw [this, ← Finset.sum_add_distrib, ← Finset.sum_add_distrib]
    refine Finset.sum_congr rfl fun m _ => ?_
    rcases lt_trichotomy k m with h | h | h
    · simp [h, h.le, not_lt_of_gt h, ne_of_gt h]
    · subst h; simp
    · simp [h, h.le, not_lt_of_gt h, ne_of_lt h]
  rw [Finset.sum_congr rfl fun k _ => split k, Finset.sum_add_distrib, Finset.sum_add_distrib,
    add_assoc]
  congr 1
  simp only [Finset.sum_add_distrib]
  congr 1
  simp only [Finset.sum_filter]
  rw [Finset.sum_comm]

end Verif.NavierStokes
