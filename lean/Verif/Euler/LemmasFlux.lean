import Verif.Euler.LemmasWaves
import Mathlib.Analysis.Calculus.Deriv.Inv
import Mathlib.Analysis.Calculus.Deriv.Add
import Mathlib.Analysis.Calculus.Deriv.Mul
import Mathlib.Analysis.Calculus.Deriv.Pow

set_option linter.all false

namespace Verif.Euler

open Spec

variable {d : ℕ}

theorem half_mul (x y : ℝ) : 0.5 * x * y = x * y / 2 := by norm_num; ring

theorem press_ne {g : ℝ} {ql qr : State d} (hg : 1 < g) (hl : Physical g ql)
    (hr : Physical g qr) : Defined g ql qr := by
  refine ⟨hl.1, hr.1, ?_⟩
  rw [average_eq g ql qr hl.1 hr.1]
  have gap := mean_gap g hg ql qr hl hr
  have : (Avg.mk (meanVel ql qr) (meanEnt g ql qr)).alpha =
      dot (meanVel ql qr) (meanVel ql qr) / 2 := by
    simp only [Avg.alpha, dot]; norm_num; ring
  simp only [Avg.a2, this]
  rw [abs_of_pos gap]
  exact ne_of_gt gap

theorem area_pos {n : Fin d → ℝ} (h : n ≠ 0) : 0 < Real.sqrt (∑ i, n i * n i) := by
  apply Real.sqrt_pos.mpr
  have : ∃ i, n i ≠ 0 := by
    by_contra hc; push Not at hc; exact h (funext hc)
  obtain ⟨i, hi⟩ := this
  exact Finset.sum_pos' (fun i _ => mul_self_nonneg _) ⟨i, Finset.mem_univ _, mul_self_pos.mpr hi⟩

theorem unit_dot {n : Fin d → ℝ} (h : n ≠ 0) :
    dot (fun i => n i / Real.sqrt (∑ i, n i * n i)) (fun i => n i / Real.sqrt (∑ i, n i * n i)) = 1 := by
  have hp := area_pos h
  set a := Real.sqrt (∑ i, n i * n i) with ha
  rw [dot_div, dot_comm, dot_div, div_div]
  have : dot n n = a * a := (Real.mul_self_sqrt (dot_self_nonneg n)).symm
  rw [this]
  exact div_self (by positivity)

theorem roe_eq {g : ℝ} {ql qr : State d} {n : Fin d → ℝ} (hg : 1 < g) (hl : Physical g ql)
    (hr : Physical g qr) (hn : n ≠ 0) :
    roe g ql qr n = some (scale (Real.sqrt (∑ i, n i * n i) / 2)
      (twiceRoe g ql qr fun i => n i / Real.sqrt (∑ i, n i * n i))) := by
  have hp := area_pos hn
  unfold roe
  dsimp only
  rw [if_pos ⟨ne_of_gt hp, press_ne hg hl hr⟩]
  congr 1
  apply plus_ext
  · simp only [scale, half_mul]; ring
  · intro i; simp only [scale, half_mul]; ring
  · simp only [scale, half_mul]; ring

theorem roeUnit_eq {g : ℝ} {ql qr : State d} {n : Fin d → ℝ} (hg : 1 < g) (hl : Physical g ql)
    (hr : Physical g qr) :
    roeUnit g ql qr n = some (scale (1 / 2) (twiceRoe g ql qr n)) := by
  unfold roeUnit
  rw [if_pos (press_ne hg hl hr)]
  dsimp only
  congr 1
  apply plus_ext
  · simp only [scale]; norm_num
  · intro i; simp only [scale]; norm_num
  · simp only [scale]; norm_num

theorem flux_scale (g : ℝ) (q : State d) (n : Fin d → ℝ) (c : ℝ) :
    flux g q (fun i => c * n i) = scale c (flux g q n) := by
  have h : ∀ m, dot m (fun i => c * n i) = c * dot m n := by
    intro m; rw [dot_comm, dot_smul, dot_comm]
  apply plus_ext
  · simp only [flux, scale, h]
  · intro i; simp only [flux, scale, h]; ring
  · simp only [flux, scale, h]; ring

theorem flux_unit (g : ℝ) (q : State d) {n : Fin d → ℝ} (hn : n ≠ 0) :
    scale (Real.sqrt (∑ i, n i * n i)) (flux g q fun i => n i / Real.sqrt (∑ i, n i * n i)) =
      flux g q n := by
  have hp := area_pos hn
  rw [← flux_scale]
  congr 1
  funext i
  exact mul_div_cancel₀ _ (ne_of_gt hp)

theorem twice_same (g : ℝ) (hg : 1 < g) (q : State d) (n : Fin d → ℝ) (h : Physical g q) :
    twiceRoe g q q n = scale 2 (flux g q n) := by
  rw [twiceRoe_waves g hg q q n h h]
  have z : q.sub q = ⟨0, fun _ => 0, 0⟩ := by
    apply plus_ext <;> simp [State.sub]
  have zd : ∀ u : Fin d → ℝ, dot u (fun _ => 0) = 0 := by intro u; simp [dot]
  have zw : ∀ u h a, wave g u h n ⟨0, fun _ => 0, 0⟩ a = ⟨0, fun _ => 0, 0⟩ := by
    intro u h a
    apply plus_ext <;> simp [wave, zd, scale]
  rw [z]
  simp only [zw]
  apply plus_ext
  · simp only [plus, scale, State.sub]; ring
  · intro i; simp only [plus, scale, State.sub]; ring
  · simp only [plus, scale, State.sub]; ring

theorem mean_comm (ql qr : State d) (x y : ℝ) : mean qr ql y x = mean ql qr x y := by
  unfold mean; rw [add_comm, add_comm (Real.sqrt qr.rho)]

theorem wave_turn (g : ℝ) (u : Fin d → ℝ) (h : ℝ) (n : Fin d → ℝ) (ql qr : State d) (a : ℝ) :
    wave g u h (fun i => -n i) (ql.sub qr) a = scale (-1) (wave g u h n (qr.sub ql) (-a)) := by
  have e1 : dot u (ql.sub qr).mom = -dot u (qr.sub ql).mom := by
    rw [← dot_neg']; congr 1; funext i; simp only [State.sub]; ring
  have e2 : dot (fun i => -n i) (ql.sub qr).mom = dot n (qr.sub ql).mom := by
    rw [dot_neg, ← dot_neg']; congr 1; funext i; simp only [State.sub]; ring
  have e3 : dot u (fun i => -n i) = -dot u n := dot_neg' _ _
  unfold wave
  dsimp only
  rw [e1, e2, e3]
  apply plus_ext
  · simp only [scale, State.sub]; ring
  · intro i; simp only [scale, State.sub]; ring
  · simp only [scale, State.sub]; ring

theorem twice_turn (g : ℝ) (hg : 1 < g) (ql qr : State d) (n : Fin d → ℝ) (hl : Physical g ql)
    (hr : Physical g qr) :
    twiceRoe g qr ql (fun i => -n i) = scale (-1) (twiceRoe g ql qr n) := by
  rw [twiceRoe_waves g hg ql qr n hl hr, twiceRoe_waves g hg qr ql _ hr hl]
  have hu : meanVel qr ql = meanVel ql qr := by
    funext i; exact mean_comm _ _ _ _
  have hh : meanEnt g qr ql = meanEnt g ql qr := mean_comm _ _ _ _
  have fl : ∀ q, flux g q (fun i => -n i) = scale (-1) (flux g q n) := by
    intro q; rw [← flux_scale]; congr 1; funext i; ring
  rw [hu, hh]
  set u := meanVel ql qr
  set h := meanEnt g ql qr
  set a := sound g u h
  rw [wave_turn, wave_turn, fl, fl, neg_neg, dot_neg',
    show -dot u n + a = -(dot u n - a) by ring, show -dot u n - a = -(dot u n + a) by ring,
    size_neg, size_neg, size_neg]
  generalize wave g u h n (qr.sub ql) a = w1
  generalize wave g u h n (qr.sub ql) (-a) = w2
  apply plus_ext
  · simp only [plus, scale, State.sub]; ring
  · intro i; simp only [plus, scale, State.sub]; ring
  · simp only [plus, scale, State.sub]; ring

/-- All waves run one way: the jump times its speed. -/
theorem waves_sum (g : ℝ) (u : Fin d → ℝ) (h : ℝ) (n : Fin d → ℝ) (w : State d) (a : ℝ)
    (hn : dot n n = 1) (ha : a ^ 2 = (g - 1) * (h - dot u u / 2)) (h0 : a ≠ 0) :
    let w1 := wave g u h n w a
    let w2 := wave g u h n w (-a)
    let w3 := (w.sub w1).sub w2
    plus (plus (scale (dot u n + a) w1) (scale (dot u n - a) w2)) (scale (dot u n) w3) =
      jacobian g u h n w := by
  intro w1 w2 w3
  rw [← wave_eigen g u h n w a hn ha, show dot u n - a = dot u n + -a by ring,
    ← wave_eigen g u h n w (-a) hn (by rw [neg_sq, ha]), ← rest_eigen g u h n w a hn ha h0]
  have lin : ∀ c : Fin d → ℝ, dot c w3.mom = dot c w.mom - dot c w1.mom - dot c w2.mom := by
    intro c
    simp only [w3, State.sub]
    rw [dot_sub, dot_sub]
  change plus (plus (jacobian g u h n w1) (jacobian g u h n w2)) (jacobian g u h n w3) = _
  apply plus_ext
  · simp only [plus, jacobian]; rw [lin]; ring
  · intro i
    simp only [plus, jacobian]; rw [lin, lin]
    simp only [w3, State.sub]; ring
  · simp only [plus, jacobian]; rw [lin, lin]
    simp only [w3, State.sub]; ring

theorem size_big {x : ℝ} (h : 1 / 100 ≤ x) : size x = x := by
  unfold size
  rw [abs_of_nonneg (by linarith), if_neg (not_lt.mpr h)]

theorem size_small {x : ℝ} (h : x ≤ -(1 / 100)) : size x = -x := by
  rw [← size_neg, size_big (by linarith)]

end Verif.Euler
