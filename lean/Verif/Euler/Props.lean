import Verif.Euler.LemmasWall

/-!
# C68, C69: the flux of the compressible flow applications
-/

namespace Verif.Euler

open Spec

variable {d : ℕ}

/-- The linear map of the specification is the derivative of the physical flux:
along every line through a state with a density that is not zero. -/
theorem jacobian_is_derivative (g : ℝ) (q w : State d) (n : Fin d → ℝ) (hq : q.rho ≠ 0) :
    let f := fun t : ℝ => flux g (plus q (scale t w)) n
    let j := jacobian g (vel q) (enthalpy g q) n w
    HasDerivAt (fun t => (f t).rho) j.rho 0 ∧
      (∀ i, HasDerivAt (fun t => (f t).mom i) (j.mom i) 0) ∧
      HasDerivAt (fun t => (f t).en) j.en 0 := by
  intro f j
  have hm : ∀ t, (plus q (scale t w)).mom = fun i => 1 * q.mom i + t * w.mom i := by
    intro t; funext i; simp [plus, scale]
  have hr : ∀ t, (plus q (scale t w)).rho = q.rho + t * w.rho := fun _ => rfl
  have he : ∀ t, (plus q (scale t w)).en = q.en + t * w.en := fun _ => rfl
  have hmn : ∀ t, dot (plus q (scale t w)).mom n = dot q.mom n + t * dot w.mom n := by
    intro t; rw [hm, dot_lin]; ring
  have hvn : ∀ t, dot (vel (plus q (scale t w))) n =
      (dot q.mom n + t * dot w.mom n) / (q.rho + t * w.rho) := by
    intro t; rw [show dot (vel (plus q (scale t w))) n =
      dot (plus q (scale t w)).mom n / (plus q (scale t w)).rho from dot_div _ _ _, hmn, hr]
  have hp : ∀ t, press g (plus q (scale t w)) = (g - 1) * (q.en + t * w.en -
      (dot q.mom q.mom + 2 * t * dot q.mom w.mom + t ^ 2 * dot w.mom w.mom) /
        (2 * (q.rho + t * w.rho))) := by
    intro t
    unfold press
    rw [he, hr, hm, dot_lin, dot_lin', dot_lin', dot_comm w.mom q.mom]
    ring
  have lin : ∀ a b : ℝ, HasDerivAt (fun t : ℝ => a + t * b) b 0 := by
    intro a b
    simpa using ((hasDerivAt_id (0 : ℝ)).mul_const b).const_add a
  have quad : ∀ a b c : ℝ, HasDerivAt (fun t : ℝ => a + 2 * t * b + t ^ 2 * c) (2 * b) 0 := by
    intro a b c
    have h1 := (((hasDerivAt_id (0 : ℝ)).const_mul 2).mul_const b).const_add a
    have h2 := ((hasDerivAt_id (0 : ℝ)).pow 2).mul_const c
    refine (h1.add h2).congr_deriv ?_
    simp
  have dvn : HasDerivAt (fun t : ℝ => (dot q.mom n + t * dot w.mom n) / (q.rho + t * w.rho))
      ((dot w.mom n * q.rho - dot q.mom n * w.rho) / q.rho ^ 2) 0 := by
    refine ((lin (dot q.mom n) (dot w.mom n)).div (lin q.rho w.rho)
      (by simpa using hq)).congr_deriv ?_
    simp
  have dpr : HasDerivAt (fun t : ℝ => (g - 1) * (q.en + t * w.en -
      (dot q.mom q.mom + 2 * t * dot q.mom w.mom + t ^ 2 * dot w.mom w.mom) /
        (2 * (q.rho + t * w.rho)))) ((g - 1) * (w.en - (2 * dot q.mom w.mom * (2 * q.rho) -
          dot q.mom q.mom * (2 * w.rho)) / (2 * q.rho) ^ 2)) 0 := by
    refine (((lin q.en w.en).sub ((quad (dot q.mom q.mom) (dot q.mom w.mom)
      (dot w.mom w.mom)).div ((lin q.rho w.rho).const_mul 2)
      (by simpa using hq))).const_mul (g - 1)).congr_deriv ?_
    simp
  have vd : ∀ c, dot (vel q) c = dot q.mom c / q.rho := fun c => dot_div _ _ _
  have vv : dot q.mom (vel q) = dot q.mom q.mom / q.rho := by
    rw [dot_comm, vd]
  have nw : dot n w.mom = dot w.mom n := dot_comm _ _
  refine ⟨?_, ?_, ?_⟩
  · have : (fun t => (f t).rho) = fun t => dot q.mom n + t * dot w.mom n := by
      funext t; exact hmn t
    rw [this]
    have hj : j.rho = dot w.mom n := nw
    rw [hj]
    exact lin _ _
  · intro i
    have : (fun t => (f t).mom i) = fun t => (q.mom i + t * w.mom i) *
        ((dot q.mom n + t * dot w.mom n) / (q.rho + t * w.rho)) +
        (g - 1) * (q.en + t * w.en -
      (dot q.mom q.mom + 2 * t * dot q.mom w.mom + t ^ 2 * dot w.mom w.mom) /
        (2 * (q.rho + t * w.rho))) * n i := by
      funext t
      simp only [f, flux]
      rw [hvn, hp]
      rfl
    rw [this]
    refine (((lin (q.mom i) (w.mom i)).mul dvn).add (dpr.mul_const (n i))).congr_deriv ?_
    simp only [j, jacobian, vd, vv, nw, zero_mul, add_zero, mul_zero]
    norm_num
    simp only [vel]
    field_simp
    ring
  · have : (fun t => (f t).en) = fun t => ((q.en + t * w.en) +
        (g - 1) * (q.en + t * w.en -
      (dot q.mom q.mom + 2 * t * dot q.mom w.mom + t ^ 2 * dot w.mom w.mom) /
        (2 * (q.rho + t * w.rho)))) *
        ((dot q.mom n + t * dot w.mom n) / (q.rho + t * w.rho)) := by
      funext t
      simp only [f, flux]
      rw [hvn, hp, he]
    rw [this]
    refine (((lin q.en w.en).add dpr).mul dvn).congr_deriv ?_
    simp only [j, jacobian, vd, vv, nw, enthalpy, press, zero_mul, add_zero, mul_zero]
    norm_num
    field_simp
    ring

/-- **C68, consistency.**  Between two equal states the flux is the physical flux
through the face. -/
theorem consistent (g : ℝ) (hg : 1 < g) (q : State d) (normal : Fin d → ℝ) (hn : normal ≠ 0)
    (h : Physical g q) : roe g q q normal = some (flux g q normal) := by
  rw [roe_eq hg h h hn, twice_same g hg q _ h]
  congr 1
  rw [← flux_unit g q hn]
  apply plus_ext
  · simp only [scale]; ring
  · intro i; simp only [scale]; ring
  · simp only [scale]; ring

/-- **C68, both sides agree.**  With the sides exchanged and the normal turned the
flux is the opposite. -/
theorem opposite (g : ℝ) (hg : 1 < g) (ql qr : State d) (normal : Fin d → ℝ) (hn : normal ≠ 0)
    (hl : Physical g ql) (hr : Physical g qr) :
    ∃ f, roe g ql qr normal = some f ∧ roe g qr ql (fun i => -normal i) = some (scale (-1) f) := by
  have hn' : (fun i => -normal i) ≠ 0 := by
    intro h; apply hn; funext i; have := congrFun h i; simpa using this
  refine ⟨_, roe_eq hg hl hr hn, ?_⟩
  rw [roe_eq hg hr hl hn']
  have e : ∑ i, -normal i * -normal i = ∑ i, normal i * normal i := by
    simp only [neg_mul_neg]
  rw [e]
  have e2 : (fun i => -normal i / Real.sqrt (∑ i, normal i * normal i)) =
      fun i => -(fun i => normal i / Real.sqrt (∑ i, normal i * normal i)) i := by
    funext i; ring
  rw [e2, twice_turn g hg ql qr _ hl hr]
  congr 1
  apply plus_ext
  · simp only [scale]; ring
  · intro i; simp only [scale]; ring
  · simp only [scale]; ring

/-- **C68, the waves.**  For any two physical states the jump splits into three
parts, each of which is only multiplied by the derivative of the flux at the mean
state: two sound waves and the rest, with speeds `u n + a`, `u n - a` and `u n`.
The flux is the mean of the two physical fluxes minus half of each part times the
size of its speed. -/
theorem waves (g : ℝ) (hg : 1 < g) (ql qr : State d) (n : Fin d → ℝ) (hn : dot n n = 1)
    (hl : Physical g ql) (hr : Physical g qr) :
    let u := meanVel ql qr
    let h := meanEnt g ql qr
    let a := sound g u h
    ∃ w1 w2 w3 : State d,
      plus (plus w1 w2) w3 = qr.sub ql ∧
      jacobian g u h n w1 = scale (dot u n + a) w1 ∧
      jacobian g u h n w2 = scale (dot u n - a) w2 ∧
      jacobian g u h n w3 = scale (dot u n) w3 ∧
      roeUnit g ql qr n = some (scale (1 / 2) ((plus (flux g ql n) (flux g qr n)).sub
        (plus (plus (scale (size (dot u n + a)) w1) (scale (size (dot u n - a)) w2))
          (scale (size (dot u n)) w3)))) := by
  intro u h a
  have gap := mean_gap g hg ql qr hl hr
  have ha : a ^ 2 = (g - 1) * (h - dot u u / 2) := Real.sq_sqrt gap.le
  have h0 : a ≠ 0 := ne_of_gt (Real.sqrt_pos.mpr gap)
  refine ⟨wave g u h n (qr.sub ql) a, wave g u h n (qr.sub ql) (-a),
    ((qr.sub ql).sub (wave g u h n (qr.sub ql) a)).sub (wave g u h n (qr.sub ql) (-a)), ?_,
    wave_eigen g u h n _ a hn ha, ?_, rest_eigen g u h n _ a hn ha h0, ?_⟩
  · apply plus_ext
    · simp only [plus, State.sub]; ring
    · intro i; simp only [plus, State.sub]; ring
    · simp only [plus, State.sub]; ring
  · rw [show dot u n - a = dot u n + -a by ring]
    exact wave_eigen g u h n _ (-a) hn (by rw [neg_sq, ha])
  · rw [roeUnit_eq hg hl hr, twiceRoe_waves g hg ql qr n hl hr]

/-- **C68, the mean state.**  The derivative at the mean state maps the jump of the
states to the jump of the fluxes, so a single shock is kept as it is. -/
theorem mean_state (g : ℝ) (ql qr : State d) (n : Fin d → ℝ) (hl : 0 < ql.rho) (hr : 0 < qr.rho) :
    jacobian g (meanVel ql qr) (meanEnt g ql qr) n (qr.sub ql) =
      (flux g qr n).sub (flux g ql n) := jump g ql qr n hl hr

/-- The speeds used for damping are never smaller than the true ones, and no
division by zero happens: the speed of sound of the mean state is positive. -/
theorem damping (g : ℝ) (hg : 1 < g) (ql qr : State d) (hl : Physical g ql)
    (hr : Physical g qr) :
    0 < sound g (meanVel ql qr) (meanEnt g ql qr) ∧ ∀ x, |x| ≤ size x :=
  ⟨Real.sqrt_pos.mpr (mean_gap g hg ql qr hl hr), size_ge⟩

/-- **C68, upwinding.**  If the mean state is supersonic (by at least the margin of
the entropy correction) the flux is that of the state upstream. -/
theorem supersonic (g : ℝ) (hg : 1 < g) (ql qr : State d) (n : Fin d → ℝ) (hn : dot n n = 1)
    (hl : Physical g ql) (hr : Physical g qr) :
    let u := meanVel ql qr
    let a := sound g u (meanEnt g ql qr)
    (1 / 100 ≤ dot u n - a → roeUnit g ql qr n = some (flux g ql n)) ∧
    (dot u n + a ≤ -(1 / 100) → roeUnit g ql qr n = some (flux g qr n)) := by
  intro u a
  set h := meanEnt g ql qr
  have gap := mean_gap g hg ql qr hl hr
  have ha : a ^ 2 = (g - 1) * (h - dot u u / 2) := Real.sq_sqrt gap.le
  have hpos : 0 < a := Real.sqrt_pos.mpr gap
  have h0 : a ≠ 0 := ne_of_gt hpos
  have hs := waves_sum g u h n (qr.sub ql) a hn ha h0
  dsimp only at hs
  have hj := jump g ql qr n hl.1 hr.1
  have key : roeUnit g ql qr n = some (scale (1 / 2) ((plus (flux g ql n) (flux g qr n)).sub
      (plus (plus (scale (size (dot u n + a)) (wave g u h n (qr.sub ql) a))
        (scale (size (dot u n - a)) (wave g u h n (qr.sub ql) (-a))))
        (scale (size (dot u n)) (((qr.sub ql).sub (wave g u h n (qr.sub ql) a)).sub
          (wave g u h n (qr.sub ql) (-a))))))) := by
    rw [roeUnit_eq hg hl hr, twiceRoe_waves g hg ql qr n hl hr]
  have hs' := hs.trans hj
  constructor
  · intro hc
    rw [key, size_big hc, size_big (show 1 / 100 ≤ dot u n + a by linarith),
      size_big (show 1 / 100 ≤ dot u n by linarith), hs']
    congr 1
    apply plus_ext
    · simp only [scale, plus, State.sub]; ring
    · intro i; simp only [scale, plus, State.sub]; ring
    · simp only [scale, plus, State.sub]; ring
  · intro hc
    rw [key, size_small hc, size_small (show dot u n - a ≤ -(1 / 100) by linarith),
      size_small (show dot u n ≤ -(1 / 100) by linarith)]
    have r := congrArg State.rho hs'
    have m := fun i => congrFun (congrArg State.mom hs') i
    have e := congrArg State.en hs'
    simp only [scale, plus, State.sub] at r m e
    congr 1
    apply plus_ext
    · simp only [scale, plus, State.sub]; linear_combination (1 / 2) * r
    · intro i; simp only [scale, plus, State.sub]; linear_combination (1 / 2) * m i
    · simp only [scale, plus, State.sub]; linear_combination (1 / 2) * e

/-- **C68, conservation.**  What one side of a face loses the other side gets: for
a test function that is the same on both sides the two integrands cancel. -/
theorem face_conserved (g : ℝ) (hg : 1 < g) (ql qr : State d) (normal : Fin d → ℝ)
    (hn : normal ≠ 0) (hl : Physical g ql) (hr : Physical g qr) (phi : ℝ) :
    ∃ a b, faceIntegrand g false ql qr normal phi = some a ∧
      faceIntegrand g true ql qr normal phi = some b ∧ plus a b = ⟨0, fun _ => 0, 0⟩ := by
  refine ⟨_, _, by unfold faceIntegrand; rw [roe_eq hg hl hr hn]; rfl,
    by unfold faceIntegrand; rw [roe_eq hg hl hr hn]; rfl, ?_⟩
  apply plus_ext
  · simp [plus]
  · intro i; simp [plus]
  · simp [plus]

/-- **C68, inside the elements.**  The integrand is the physical flux in the
direction of the gradient of the test function; states without positive pressure
are refused. -/
theorem element_flux (g : ℝ) (q : State d) (grad : Fin d → ℝ) (hq : 0 < q.rho) :
    elementIntegrand g q grad = if 0 < press g q then some (flux g q grad) else none := by
  have hp : (g - 1) * (q.en - 0.5 * (1.0 / q.rho) * ∑ i, q.mom i * q.mom i) = press g q := by
    unfold press dot
    norm_num
    left
    field_simp
  have vn : dot (vel q) grad = dot q.mom grad / q.rho := dot_div _ _ _
  unfold elementIntegrand
  dsimp only
  rw [hp]
  by_cases h : 0 < press g q
  · rw [if_pos h, if_neg (by push Not; exact ⟨ne_of_gt hq, h⟩)]
    congr 1
    apply plus_ext
    · rfl
    · intro i
      simp only [flux, vn]
      rw [← Finset.mul_sum, ← Finset.sum_mul]
      norm_num
      left; rfl
    · simp only [flux, vn]
      rw [← Finset.mul_sum, ← Finset.sum_mul]
      norm_num
      left; rfl
  · rw [if_neg h, if_pos (Or.inr h)]

/-- **C69, the wall is closed.**  Neither mass nor energy goes through a wall.  Missing:
the force on the wall, which is wrong (`wall_wrong`, `wall_slide`). -/
theorem wall_closed_partial (g : ℝ) (hg : 1 < g) (q : State d) (normal : Fin d → ℝ) (hn : normal ≠ 0)
    (h : Physical g q) : ∃ f, wall g q normal = some f ∧ f.rho = 0 ∧ f.en = 0 := by
  refine ⟨_, roe_eq hg (turned_physical h) h hn, ?_, ?_⟩
  · have := congrArg State.rho (twice_turned g hg q _ h (unit_dot hn))
    simp only [turned] at this
    simp only [scale]
    rw [this]; simp
  · have := congrArg State.en (twice_turned g hg q _ h (unit_dot hn))
    simp only [turned] at this
    simp only [scale]
    rw [this]; simp

/-- **C69, the force on the wall.**  For a normal of length one the flux of normal
momentum at a wall is the pressure plus `(m n)² / rho` minus the size of the speed
of sound (of the gas at rest with the same enthalpy) times the momentum towards the
wall. -/
theorem wall_force (g : ℝ) (hg : 1 < g) (q : State d) (n : Fin d → ℝ) (hn : dot n n = 1)
    (h : Physical g q) :
    ∃ f, wall g q n = some f ∧ dot f.mom n = press g q + dot q.mom n ^ 2 / q.rho -
      size (Real.sqrt ((g - 1) * enthalpy g q)) * dot q.mom n := by
  have hn0 : n ≠ 0 := by
    rintro rfl; simp [dot] at hn
  have area : Real.sqrt (∑ i, n i * n i) = 1 := by
    rw [show ∑ i, n i * n i = 1 from hn, Real.sqrt_one]
  have e : (fun i => n i / Real.sqrt (∑ i, n i * n i)) = n := by
    funext i; rw [area, div_one]
  refine ⟨_, roe_eq hg (turned_physical h) h hn0, ?_⟩
  rw [e, area]
  have := congrArg State.mom (twice_turned g hg q _ h hn)
  simp only [turned] at this
  simp only [scale]
  rw [this]
  have vn : dot (vel q) n = dot q.mom n / q.rho := dot_div _ _ _
  have : (fun i => 1 / 2 * (2 * (dot (vel q) n * q.mom i + press g q * n i) -
      (2 * size 0 * q.mom i + 2 * (size (Real.sqrt ((g - 1) * enthalpy g q)) - size 0) *
        dot q.mom n * n i))) = fun i => (dot (vel q) n - size 0) * q.mom i +
      (press g q - (size (Real.sqrt ((g - 1) * enthalpy g q)) - size 0) * dot q.mom n) * n i := by
    funext i; ring
  rw [this, dot_lin, hn, vn]
  ring

/-- **C69 fails: the force on a wall.**  If gas runs into a wall (slower than sound)
the force on the wall is *less* than the pressure of the gas; with the two states
given to the flux in the order it asks for it would be more.  The code passes the
state behind the wall as the left state, although the normal points outward. -/
theorem wall_wrong (g : ℝ) (hg : 1 < g) (q : State d) (n : Fin d → ℝ) (hn : dot n n = 1)
    (h : Physical g q) (h0 : 0 < dot q.mom n)
    (h1 : dot q.mom n < q.rho * Real.sqrt ((g - 1) * enthalpy g q)) :
    (∃ f, wall g q n = some f ∧ dot f.mom n < press g q) ∧
    ∃ f, roe g q ⟨q.rho, fun i => -q.mom i, q.en⟩ n = some f ∧ press g q < dot f.mom n := by
  have hr := h.1
  have sz := (le_abs_self _).trans (size_ge (Real.sqrt ((g - 1) * enthalpy g q)))
  have sn : 0 ≤ Real.sqrt ((g - 1) * enthalpy g q) := Real.sqrt_nonneg _
  constructor
  · obtain ⟨f, e, hf⟩ := wall_force g hg q n hn h
    refine ⟨f, e, ?_⟩
    rw [hf]
    have : dot q.mom n ^ 2 / q.rho < Real.sqrt ((g - 1) * enthalpy g q) * dot q.mom n := by
      rw [div_lt_iff₀ hr]
      nlinarith
    nlinarith
  · obtain ⟨f, e, hf⟩ := wall_force g hg (turned q) n hn (turned_physical h)
    have t : wall g (turned q) n = roe g q ⟨q.rho, fun i => -q.mom i, q.en⟩ n := by
      change roe g (turned (turned q)) (turned q) n = _
      rw [turned_turned]; rfl
    refine ⟨f, t ▸ e, ?_⟩
    rw [hf]
    have e1 : press g (turned q) = press g q := by
      unfold press turned; dsimp only; rw [dot_neg, dot_neg', neg_neg]
    have e2 : enthalpy g (turned q) = enthalpy g q := by
      unfold enthalpy; rw [e1]; rfl
    have e3 : dot (turned q).mom n = -dot q.mom n := dot_neg _ _
    have e4 : (turned q).rho = q.rho := rfl
    rw [e1, e2, e3, e4]
    have : 0 < (-dot q.mom n) ^ 2 / q.rho := by rw [neg_sq]; positivity
    nlinarith

/-- **C69 fails: sliding along a wall.**  Gas moving along a wall is pushed forward
by it: besides the pressure the flux carries momentum against the motion out of the
element, at the rate of the entropy correction. -/
theorem wall_slide (g : ℝ) (hg : 1 < g) (q : State d) (n : Fin d → ℝ) (hn : dot n n = 1)
    (h : Physical g q) (h0 : dot q.mom n = 0) :
    ∃ f, wall g q n = some f ∧ ∀ i, f.mom i = press g q * n i - 1 / 200 * q.mom i := by
  have hn0 : n ≠ 0 := by
    rintro rfl; simp [dot] at hn
  have area : Real.sqrt (∑ i, n i * n i) = 1 := by
    rw [show ∑ i, n i * n i = 1 from hn, Real.sqrt_one]
  have e : (fun i => n i / Real.sqrt (∑ i, n i * n i)) = n := by
    funext i; rw [area, div_one]
  refine ⟨_, roe_eq hg (turned_physical h) h hn0, ?_⟩
  intro i
  rw [e, area]
  have := congrArg State.mom (twice_turned g hg q _ h hn)
  simp only [turned] at this
  simp only [scale]
  rw [this]
  have vn : dot (vel q) n = dot q.mom n / q.rho := dot_div _ _ _
  have s0 : size 0 = 1 / 200 := by norm_num [size]
  simp only [vn, h0, s0]
  ring

/-- A gas moving along and into a wall. -/
noncomputable def sample : State 2 := ⟨1, ![1, 1 / 2], 4⟩

theorem sample_physical : Physical (7 / 5) sample := by
  constructor
  · norm_num [sample]
  · norm_num [press, sample, dot, Fin.sum_univ_two]

/-- The statements above say something about this gas between two different
states, and it runs into a wall with the normal `(1, 0)` slower than sound. -/
example : Physical (7 / 5) sample ∧ Physical (7 / 5) (⟨1 / 2, ![-1, 0], 5⟩ : State 2) ∧
    0 < dot sample.mom ![1, 0] ∧
    dot sample.mom ![1, 0] < sample.rho * Real.sqrt ((7 / 5 - 1) * enthalpy (7 / 5) sample) := by
  refine ⟨sample_physical, ?_, ?_, ?_⟩
  · constructor
    · norm_num
    · norm_num [press, dot, Fin.sum_univ_two]
  · norm_num [dot, sample, Fin.sum_univ_two]
  · have : (1 : ℝ) < Real.sqrt ((7 / 5 - 1) * enthalpy (7 / 5) sample) := by
      apply Real.lt_sqrt_of_sq_lt
      norm_num [enthalpy, press, sample, dot, Fin.sum_univ_two]
    simpa [dot, sample, Fin.sum_univ_two] using this

/-- Gas moving along a wall: the hypotheses of `wall_slide` are met. -/
example : Physical (7 / 5) (⟨1, ![0, 1], 4⟩ : State 2) ∧
    dot (⟨1, ![0, 1], 4⟩ : State 2).mom ![1, 0] = 0 ∧ dot (![1, 0] : Fin 2 → ℝ) ![1, 0] = 1 := by
  refine ⟨⟨by norm_num, ?_⟩, ?_, ?_⟩
  · norm_num [press, dot, Fin.sum_univ_two]
  · norm_num [dot, Fin.sum_univ_two]
  · norm_num [dot, Fin.sum_univ_two]

/-- A supersonic pair of states: the hypothesis of `supersonic` is met. -/
example : Physical (7 / 5) (⟨1, ![10], 60⟩ : State 1) ∧
    1 / 100 ≤ dot (meanVel (⟨1, ![10], 60⟩ : State 1) ⟨1, ![10], 60⟩) ![1] -
      sound (7 / 5) (meanVel (⟨1, ![10], 60⟩ : State 1) ⟨1, ![10], 60⟩)
        (meanEnt (7 / 5) (⟨1, ![10], 60⟩ : State 1) ⟨1, ![10], 60⟩) := by
  have e : sound (7 / 5) (meanVel (⟨1, ![10], 60⟩ : State 1) ⟨1, ![10], 60⟩)
        (meanEnt (7 / 5) (⟨1, ![10], 60⟩ : State 1) ⟨1, ![10], 60⟩) ≤ 9 := by
    unfold sound
    apply Real.sqrt_le_iff.mpr
    refine ⟨by norm_num, ?_⟩
    norm_num [meanVel, meanEnt, mean, vel, enthalpy, press, dot]
  refine ⟨⟨by norm_num, by norm_num [press, dot]⟩, ?_⟩
  have e2 : dot (meanVel (⟨1, ![10], 60⟩ : State 1) ⟨1, ![10], 60⟩) ![1] = 10 := by
    norm_num [meanVel, mean, vel, dot]
  rw [e2]; linarith

end Verif.Euler
