import Verif.Euler.Lemmas

set_option linter.all false

namespace Verif.Euler

open Spec

variable {d : ℕ}

theorem plus_ext {a b : State d} (h1 : a.rho = b.rho) (h2 : ∀ i, a.mom i = b.mom i)
    (h3 : a.en = b.en) : a = b := by
  cases a; cases b; simp_all; funext i; exact h2 i

/-- The two sound waves and the rest. -/
noncomputable def wave (g : ℝ) (u : Fin d → ℝ) (h : ℝ) (n : Fin d → ℝ) (w : State d) (a : ℝ) :
    State d :=
  let dp := (g - 1) * (dot u u / 2 * w.rho - dot u w.mom + w.en)
  let dm := dot n w.mom - dot u n * w.rho
  scale ((dp + a * dm) / (2 * a ^ 2)) ⟨1, fun i => u i + a * n i, h + a * dot u n⟩

theorem wave_eigen (g : ℝ) (u : Fin d → ℝ) (h : ℝ) (n : Fin d → ℝ) (w : State d) (a : ℝ)
    (hn : dot n n = 1) (ha : a ^ 2 = (g - 1) * (h - dot u u / 2)) :
    jacobian g u h n (wave g u h n w a) = scale (dot u n + a) (wave g u h n w a) := by
  unfold wave
  dsimp only
  generalize ((g - 1) * (dot u u / 2 * w.rho - dot u w.mom + w.en) +
    a * (dot n w.mom - dot u n * w.rho)) / (2 * a ^ 2) = c
  have e1 : dot n (fun i => c * (u i + a * n i)) = c * (dot u n + a) := by
    have : (fun i => c * (u i + a * n i)) = fun i => c * u i + (c * a) * n i := by
      funext i; ring
    rw [this, dot_lin', hn, dot_comm n u]; ring
  have e2 : dot u (fun i => c * (u i + a * n i)) = c * (dot u u + a * dot u n) := by
    have : (fun i => c * (u i + a * n i)) = fun i => c * u i + (c * a) * n i := by
      funext i; ring
    rw [this, dot_lin']; ring
  apply plus_ext
  · simp only [jacobian, scale, e1]; ring
  · intro i
    simp only [jacobian, scale, e1, e2]
    linear_combination (-(c * n i)) * ha
  · simp only [jacobian, scale, e1, e2]
    linear_combination (-(c * dot u n)) * ha

theorem rest_eigen (g : ℝ) (u : Fin d → ℝ) (h : ℝ) (n : Fin d → ℝ) (w : State d) (a : ℝ)
    (hn : dot n n = 1) (ha : a ^ 2 = (g - 1) * (h - dot u u / 2)) (h0 : a ≠ 0) :
    let w3 := (w.sub (wave g u h n w a)).sub (wave g u h n w (-a))
    jacobian g u h n w3 = scale (dot u n) w3 := by
  intro w3
  set D4 := (g - 1) * (dot u u / 2 * w.rho - dot u w.mom + w.en) with hD4
  set D5 := dot n w.mom - dot u n * w.rho with hD5
  have r0 : w3.rho = w.rho - D4 / a ^ 2 := by
    simp only [w3, State.sub, wave, scale, ← hD4, ← hD5]; field_simp; ring
  have rm : ∀ i, w3.mom i = w.mom i - (D4 / a ^ 2 * u i + D5 * n i) := by
    intro i
    simp only [w3, State.sub, wave, scale, ← hD4, ← hD5]; field_simp; ring
  have re : w3.en = w.en - (D4 / a ^ 2 * h + D5 * dot u n) := by
    simp only [w3, State.sub, wave, scale, ← hD4, ← hD5]; field_simp; ring
  have rm' : w3.mom = fun i => w.mom i - (D4 / a ^ 2 * u i + D5 * n i) := funext rm
  have e1 : dot n w3.mom = dot n w.mom - (D4 / a ^ 2 * dot u n + D5) := by
    rw [rm', dot_sub, dot_lin', hn, dot_comm n u]; ring
  have e2 : dot u w3.mom = dot u w.mom - (D4 / a ^ 2 * dot u u + D5 * dot u n) := by
    rw [rm', dot_sub, dot_lin']
  have z5 : dot n w3.mom - dot u n * w3.rho = 0 := by
    rw [e1, r0, hD5]; ring
  have z4 : (g - 1) * (dot u u / 2 * w3.rho - dot u w3.mom + w3.en) = 0 := by
    rw [e2, r0, re]
    have hk : (g - 1) * (dot u u / 2 * (w.rho - D4 / a ^ 2) -
        (dot u w.mom - (D4 / a ^ 2 * dot u u + D5 * dot u n)) +
        (w.en - (D4 / a ^ 2 * h + D5 * dot u n))) =
        (g - 1) * (dot u u / 2 * w.rho - dot u w.mom + w.en) -
        D4 / a ^ 2 * ((g - 1) * (h - dot u u / 2)) := by ring
    rw [hk, ← hD4, ← ha]
    field_simp
    ring
  apply plus_ext
  · simp only [jacobian, scale]; linarith
  · intro i
    simp only [jacobian, scale]
    rw [z5, z4]; ring
  · simp only [jacobian, scale]
    rw [z5, z4]; ring

/-- The code's dissipation is the sum over the waves. -/
theorem twiceRoe_waves (g : ℝ) (hg : 1 < g) (ql qr : State d) (n : Fin d → ℝ)
    (hl : Physical g ql) (hr : Physical g qr) :
    let u := meanVel ql qr
    let h := meanEnt g ql qr
    let a := sound g u h
    let w := qr.sub ql
    let w1 := wave g u h n w a
    let w2 := wave g u h n w (-a)
    let w3 := (w.sub w1).sub w2
    twiceRoe g ql qr n = (plus (flux g ql n) (flux g qr n)).sub
      (plus (plus (scale (size (dot u n + a)) w1) (scale (size (dot u n - a)) w2))
        (scale (size (dot u n)) w3)) := by
  intro u h a w w1 w2 w3
  have gap := mean_gap g hg ql qr hl hr
  have ha : a ^ 2 = (g - 1) * (h - dot u u / 2) := Real.sq_sqrt gap.le
  have hpos : 0 < a := Real.sqrt_pos.mpr gap
  have h0 : a ≠ 0 := ne_of_gt hpos
  have nl := ne_of_gt hl.1
  have nr := ne_of_gt hr.1
  have alpha_eq : (Avg.mk u h).alpha = dot u u / 2 := by
    simp only [Avg.alpha, dot]; norm_num; ring
  have un_eq : (Avg.mk u h).un n = dot u n := rfl
  have a2_eq : (Avg.mk u h).a2 g = a ^ 2 := by
    simp only [Avg.a2, alpha_eq]; rw [abs_of_pos gap, ha]
  have sa : Real.sqrt (a ^ 2) = a := Real.sqrt_sq hpos.le
  have s1 : ∑ i, -u i * w.mom i = -dot u w.mom := dot_neg _ _
  have s2 : ∑ i, n i * w.mom i = dot n w.mom := rfl
  have s3 : ∑ i, ql.mom i * n i = dot ql.mom n := rfl
  have s4 : ∑ i, qr.mom i * n i = dot qr.mom n := rfl
  have d1 : dot (vel ql) n = dot ql.mom n / ql.rho := dot_div _ _ _
  have d2 : dot (vel qr) n = dot qr.mom n / qr.rho := dot_div _ _ _
  unfold twiceRoe
  have av : average g ql qr = ⟨u, h⟩ := average_eq g ql qr hl.1 hr.1
  have hw : qr.sub ql = w := rfl
  rw [av, hw]
  clear_value w
  dsimp only
  simp only [un_eq, a2_eq, sa, alpha_eq, correct_eq, pressure_eq g ql nl, pressure_eq g qr nr,
    s1, s2, s3, s4]
  generalize size (dot u n + a) = l1
  generalize size (dot u n - a) = l2
  generalize size (dot u n) = l3
  simp only [wave, w1, w2, w3, scale, State.sub, plus, flux, d1, d2]
  apply plus_ext
  · norm_num
    field_simp
    ring
  · intro i
    norm_num
    field_simp
    ring
  · norm_num
    field_simp
    ring

/-- The mean state of Roe: the derivative there maps the jump of the state to the
jump of the flux. -/
theorem jump (g : ℝ) (ql qr : State d) (n : Fin d → ℝ) (hl : 0 < ql.rho) (hr : 0 < qr.rho) :
    jacobian g (meanVel ql qr) (meanEnt g ql qr) n (qr.sub ql) =
      (flux g qr n).sub (flux g ql n) := by
  obtain ⟨a, ha, u, e1, e2, e3⟩ := param ql hl
  obtain ⟨b, hb, v, f1, f2, f3⟩ := param qr hr
  have hs : a + b ≠ 0 := by positivity
  have ha' : a ≠ 0 := ne_of_gt ha
  have hb' : b ≠ 0 := ne_of_gt hb
  have hv : meanVel ql qr = fun i => (a * u i + b * v i) / (a + b) := by
    funext i
    simp only [meanVel, mean, vel, e3, f3]
    rw [e1, e2, f1, f2]
    field_simp
  have hH : meanEnt g ql qr = (a * enthalpy g ql + b * enthalpy g qr) / (a + b) := by
    simp only [meanEnt, mean, e3, f3]
  have vl : vel ql = u := by
    funext i; simp only [vel]; rw [e1, e2]; field_simp
  have vr : vel qr = v := by
    funext i; simp only [vel]; rw [f1, f2]; field_simp
  have pl : press g ql = (g - 1) * (ql.en - a ^ 2 * dot u u / 2) := by
    unfold press; rw [e2, e1, dot_smul, dot_comm, dot_smul]; field_simp
  have pr : press g qr = (g - 1) * (qr.en - b ^ 2 * dot v v / 2) := by
    unfold press; rw [f2, f1, dot_smul, dot_comm, dot_smul]; field_simp
  have hm : (qr.sub ql).mom = fun i => b ^ 2 * v i + (-a ^ 2) * u i := by
    funext i; simp only [State.sub]; rw [e2, f2]; ring
  have mm : ∀ c, dot c (qr.sub ql).mom = b ^ 2 * dot c v + (-a ^ 2) * dot c u := by
    intro c; rw [hm, dot_lin']
  have mv : ∀ c, dot (meanVel ql qr) c = (a * dot u c + b * dot v c) / (a + b) := by
    intro c; rw [hv, dot_div, dot_lin]
  have mself : dot (meanVel ql qr) (meanVel ql qr) =
      (a ^ 2 * dot u u + 2 * a * b * dot u v + b ^ 2 * dot v v) / (a + b) ^ 2 := by
    rw [mv, dot_comm u, dot_comm v, mv, mv, dot_comm v u]; field_simp; ring
  have hd0 : (qr.sub ql).rho = b ^ 2 - a ^ 2 := by simp only [State.sub, e1, f1]
  have hde : (qr.sub ql).en = qr.en - ql.en := rfl
  have hml : dot ql.mom n = a ^ 2 * dot u n := by rw [e2, dot_smul]
  have hmr : dot qr.mom n = b ^ 2 * dot v n := by rw [f2, dot_smul]
  have hdm : dot n (qr.sub ql).mom = b ^ 2 * dot v n - a ^ 2 * dot u n := by
    rw [mm, dot_comm n u, dot_comm n v]; ring
  have hdu : dot (meanVel ql qr) (qr.sub ql).mom =
      (a * (b ^ 2 * dot u v - a ^ 2 * dot u u) + b * (b ^ 2 * dot v v - a ^ 2 * dot u v)) /
        (a + b) := by
    rw [mv, mm, mm, dot_comm v u]; ring
  have hdp : (g - 1) * (dot (meanVel ql qr) (meanVel ql qr) / 2 * (qr.sub ql).rho -
      dot (meanVel ql qr) (qr.sub ql).mom + (qr.sub ql).en) = press g qr - press g ql := by
    rw [mself, hdu, hd0, hde, pl, pr]
    field_simp
    ring
  have hEl : ql.en + press g ql = a ^ 2 * enthalpy g ql := by
    unfold enthalpy; rw [e1]; field_simp
  have hEr : qr.en + press g qr = b ^ 2 * enthalpy g qr := by
    unfold enthalpy; rw [f1]; field_simp
  apply plus_ext
  · simp only [jacobian]
    rw [hdm]
    simp only [State.sub, flux, hml, hmr]
  · intro i
    simp only [jacobian]
    rw [hdp, hdm, mv, hd0, hv, hm]
    simp only [State.sub, flux, vl, vr]
    generalize press g qr = p2
    generalize press g ql = p1
    rw [e2, f2]
    field_simp
    ring
  · simp only [jacobian]
    rw [hdp, hdm, mv, hd0, hH, hde]
    simp only [State.sub, flux, vl, vr]
    rw [hEl, hEr, show qr.en - ql.en + (press g qr - press g ql) =
      b ^ 2 * enthalpy g qr - a ^ 2 * enthalpy g ql by rw [← hEl, ← hEr]; ring]
    field_simp
    ring

end Verif.Euler
