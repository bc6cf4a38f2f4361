import Verif.HEulerExact.Spec
import Mathlib.Analysis.Real.Pi.Bounds
import Mathlib.Analysis.SpecialFunctions.Sqrt
import Mathlib.Tactic.FieldSimp
import Mathlib.Tactic.Ring
import Mathlib.Tactic.LinearCombination
import Mathlib.Tactic.Linarith

/-!
# The exact solutions solve the equations
-/

namespace Verif.HEulerExact

open Real

set_option linter.all false

theorem Pi_pos : 0 < Pi := by rw [Pi]; norm_num

theorem lin (c d : ℝ) (x : ℝ) : HasDerivAt (fun a => c * a + d) c x := by
  simpa using ((hasDerivAt_id x).const_mul c).add_const d

theorem cos_lin (c d x y : ℝ) (h : y = -c * sin (c * x + d)) :
    HasDerivAt (fun a => cos (c * a + d)) y x := by
  subst h
  convert (lin c d x).cos using 1
  ring

theorem sin_lin (c d x y : ℝ) (h : y = c * cos (c * x + d)) :
    HasDerivAt (fun a => sin (c * a + d)) y x := by
  subst h
  convert (lin c d x).sin using 1
  ring

/-- A derivative of a combination of `cos` and `sin` of the same linear function. -/
theorem comb (c d A B C x : ℝ) :
    HasDerivAt (fun a => A * cos (c * a + d) + B * sin (c * a + d) + C)
      (c * (-A * sin (c * x + d) + B * cos (c * x + d))) x := by
  exact HasDerivAt.congr_deriv
    ((((cos_lin c d x _ rfl).const_mul A).add ((sin_lin c d x _ rfl).const_mul B)).add_const C) (by ring)

/-- Rewriting into the form of `comb`. -/
theorem comb' (f : ℝ → ℝ) (c d A B C x y : ℝ)
    (hf : ∀ a, f a = A * cos (c * a + d) + B * sin (c * a + d) + C)
    (hy : y = c * (-A * sin (c * x + d) + B * cos (c * x + d))) : HasDerivAt f y x := by
  have : f = fun a => A * cos (c * a + d) + B * sin (c * a + d) + C := funext hf
  rw [this, hy]
  exact comb c d A B C x

/-! ### Compressible flow -/

/-- The periodic solution satisfies the compressible equations. -/
theorem periodic_solves : Momentum 0 periodicU periodicV periodicW periodicP ∧
    Continuity periodicP periodicU periodicV periodicW := by
  have e : ∀ t x : ℝ, 2 * Pi * (t - x) = -(2 * Pi) * x + 2 * Pi * t := by intros; ring
  have e' : ∀ t x : ℝ, 2 * Pi * (t - x) = (2 * Pi) * t + -(2 * Pi * x) := by intros; ring
  have hx : ∀ t x C, HasDerivAt (fun a => cos (2 * Pi * (t - a)) + C) (2 * Pi * sin (2 * Pi * (t - x))) x := by
    intro t x C
    exact comb' _ (-(2 * Pi)) (2 * Pi * t) 1 0 C x _ (by intro a; rw [e]; ring) (by rw [e]; ring)
  have ht : ∀ t x C, HasDerivAt (fun a => cos (2 * Pi * (a - x)) + C) (-(2 * Pi * sin (2 * Pi * (t - x)))) t := by
    intro t x C
    exact comb' _ (2 * Pi) (-(2 * Pi * x)) 1 0 C t _ (by intro a; rw [e']; ring) (by rw [e']; ring)
  have hx0 : ∀ t x, HasDerivAt (fun a => cos (2 * Pi * (t - a))) (2 * Pi * sin (2 * Pi * (t - x))) x := by
    intro t x; simpa using hx t x 0
  have ht0 : ∀ t x, HasDerivAt (fun a => cos (2 * Pi * (a - x))) (-(2 * Pi * sin (2 * Pi * (t - x)))) t := by
    intro t x; simpa using ht t x 0
  refine ⟨?_, fun x y z t => 2 * Pi * sin (2 * Pi * (t - x)) + 2 * Pi * sin (2 * Pi * (t - y)) +
    2 * Pi * sin (2 * Pi * (t - z)), ?_, ?_⟩
  · intro x y z t
    refine ⟨2 * Pi * sin (2 * Pi * (t - x)), 2 * Pi * sin (2 * Pi * (t - y)),
      2 * Pi * sin (2 * Pi * (t - z)), ?_, ?_, ?_, ?_, ?_, ?_⟩
    · exact ((hx0 t x).add_const _).add_const _
    · exact ((hx0 t y).const_add _).add_const _
    · exact (hx0 t z).const_add _
    · exact HasDerivAt.congr_deriv (ht0 t x) (by ring)
    · exact HasDerivAt.congr_deriv (ht0 t y) (by ring)
    · exact ht0 t z
  · intro x y z t
    exact ⟨_, _, _, hx0 t x, hx0 t y, hx0 t z, rfl⟩
  · intro x y z t
    exact HasDerivAt.congr_deriv (((ht0 t x).add (ht0 t y)).add (ht0 t z)) (by ring)

/-- The solution between walls satisfies the compressible equations, and no fluid passes the walls at 0. -/
theorem walls_solves : Momentum 0 wallsU wallsV wallsW wallsP ∧
    Continuity wallsP wallsU wallsV wallsW ∧
    ∀ a b t, wallsU 0 a b t = 0 ∧ wallsV a 0 b t = 0 ∧ wallsW a b 0 t = 0 := by
  have hx : ∀ K x, HasDerivAt (fun a => K * sin (2 * Pi * a)) (2 * Pi * K * cos (2 * Pi * x)) x := by
    intro K x
    exact comb' _ (2 * Pi) 0 0 K 0 x _ (by intro a; simp only [add_zero]; ring) (by simp only [add_zero]; ring)
  have hp : ∀ K x, HasDerivAt (fun a => cos (2 * Pi * a) * K) (-(2 * Pi * K * sin (2 * Pi * x))) x := by
    intro K x
    exact comb' _ (2 * Pi) 0 K 0 0 x _ (by intro a; simp only [add_zero]; ring) (by simp only [add_zero]; ring)
  have ht : ∀ K t, HasDerivAt (fun a => -cos (2 * Pi * a) * K) (2 * Pi * K * sin (2 * Pi * t)) t := by
    intro K x
    exact comb' _ (2 * Pi) 0 (-K) 0 0 x _ (by intro a; simp only [add_zero]; ring) (by simp only [add_zero]; ring)
  refine ⟨?_, ⟨fun x y z t => 2 * Pi * -cos (2 * Pi * t) * cos (2 * Pi * x) +
    2 * Pi * -cos (2 * Pi * t) * cos (2 * Pi * y) + 2 * Pi * -cos (2 * Pi * t) * cos (2 * Pi * z), ?_, ?_⟩, ?_⟩
  · intro x y z t
    refine ⟨_, _, _, ((hp (sin (2 * Pi * t)) x).add_const _).add_const _,
      ((hp (sin (2 * Pi * t)) y).const_add _).add_const _, (hp (sin (2 * Pi * t)) z).const_add _, ?_, ?_, ?_⟩
    · exact HasDerivAt.congr_deriv (ht (sin (2 * Pi * x)) t) (by ring)
    · exact HasDerivAt.congr_deriv (ht (sin (2 * Pi * y)) t) (by ring)
    · exact HasDerivAt.congr_deriv (ht (sin (2 * Pi * z)) t) (by ring)
  · intro x y z t
    exact ⟨_, _, _, hx _ x, hx _ y, hx _ z, rfl⟩
  · intro x y z t
    refine comb' _ (2 * Pi) 0 0 (cos (2 * Pi * x) + cos (2 * Pi * y) + cos (2 * Pi * z)) 0 t _ ?_ ?_
    · intro a; simp only [wallsP, add_zero]; ring
    · simp only [add_zero]; ring
  · intro a b t
    simp [wallsU, wallsV, wallsW]

/-- The constant `Pi` of the code is too small for the far wall: fluid passes it, and the periodic solution is
not periodic. -/
theorem far_wall_leaks (a b : ℝ) : wallsU 1 a b 0 ≠ 0 ∧ periodicU 1 a b 0 ≠ periodicU 0 a b 0 := by
  have h1 : 2 * Pi < 2 * π := by
    have := Real.pi_gt_d20
    rw [Pi]
    norm_num at this ⊢
    linarith
  have h2 : π < 2 * Pi := by
    have := Real.pi_lt_d2
    rw [Pi]
    norm_num at this ⊢
    linarith
  have hs : sin (2 * Pi) < 0 := by
    have := Real.sin_pos_of_pos_of_lt_pi (x := 2 * π - 2 * Pi) (by linarith) (by linarith)
    rw [Real.sin_two_pi_sub] at this
    linarith
  constructor
  · simp only [wallsU, mul_zero, Real.cos_zero, mul_one]
    intro h
    linarith
  · simp only [periodicU]
    intro h
    have h3 : cos (2 * Pi) = 1 := by
      rw [← Real.cos_neg]
      simpa using h
    have h4 := Real.sin_sq_add_cos_sq (2 * Pi)
    rw [h3] at h4
    nlinarith

/-! ### Incompressible flow -/

/-- The plane wave satisfies the incompressible equations with rotation 1. -/
theorem wave_solves : Momentum 1 waveU waveV waveW waveP ∧ Divergence waveU waveV waveW (fun _ _ _ _ => 0) := by
  have hP : Pi ≠ 0 := Pi_pos.ne'
  have h3 : √3 * √3 = (3 : ℝ) := Real.mul_self_sqrt (by norm_num)
  have ex : ∀ x y z t, phase x y z t = (2 * Pi) * x + (2 * Pi * (y + z) + √3 * t / 3) := by
    intros; rw [phase]; ring
  have ey : ∀ x y z t, phase x y z t = (2 * Pi) * y + (2 * Pi * (x + z) + √3 * t / 3) := by
    intros; rw [phase]; ring
  have ez : ∀ x y z t, phase x y z t = (2 * Pi) * z + (2 * Pi * (x + y) + √3 * t / 3) := by
    intros; rw [phase]; ring
  have et : ∀ x y z t, phase x y z t = (√3 / 3) * t + 2 * Pi * (x + y + z) := by
    intros; rw [phase]; ring
  constructor
  · intro x y z t
    refine ⟨-(sin (phase x y z t) / Pi), -(sin (phase x y z t) / Pi), -(sin (phase x y z t) / Pi),
      ?_, ?_, ?_, ?_, ?_, ?_⟩
    · refine comb' _ (2 * Pi) (2 * Pi * (y + z) + √3 * t / 3) (2 / (4 * Pi * Pi)) 0 0 x _ ?_ ?_
      · intro a; rw [waveP, ex]; ring
      · rw [← ex]; field_simp; ring
    · refine comb' _ (2 * Pi) (2 * Pi * (x + z) + √3 * t / 3) (2 / (4 * Pi * Pi)) 0 0 y _ ?_ ?_
      · intro a; rw [waveP, ey]; ring
      · rw [← ey]; field_simp; ring
    · refine comb' _ (2 * Pi) (2 * Pi * (x + y) + √3 * t / 3) (2 / (4 * Pi * Pi)) 0 0 z _ ?_ ?_
      · intro a; rw [waveP, ez]; ring
      · rw [← ez]; field_simp; ring
    · refine comb' _ (√3 / 3) (2 * Pi * (x + y + z)) (√3 / Pi / 2) (3 / Pi / 2) 0 t _ ?_ ?_
      · intro a; rw [waveU, et]; ring
      · rw [← et, waveV]
        linear_combination (sin (phase x y z t) / Pi / 6) * h3
    · refine comb' _ (√3 / 3) (2 * Pi * (x + y + z)) (√3 / Pi / 2) (-3 / Pi / 2) 0 t _ ?_ ?_
      · intro a; rw [waveV, et]; ring
      · rw [← et, waveU]
        linear_combination (sin (phase x y z t) / Pi / 6) * h3
    · refine comb' _ (√3 / 3) (2 * Pi * (x + y + z)) (-(2 * √3) / Pi / 2) 0 0 t _ ?_ ?_
      · intro a; rw [waveW, et]; ring
      · rw [← et]
        linear_combination -(sin (phase x y z t) / Pi / 3) * h3
  · intro x y z t
    refine ⟨2 * Pi * (-(√3 / Pi / 2) * sin (phase x y z t) + (3 / Pi / 2) * cos (phase x y z t)),
      2 * Pi * (-(√3 / Pi / 2) * sin (phase x y z t) + (-3 / Pi / 2) * cos (phase x y z t)),
      2 * Pi * (-(-(2 * √3) / Pi / 2) * sin (phase x y z t) + 0 * cos (phase x y z t)), ?_, ?_, ?_, ?_⟩
    · refine comb' _ (2 * Pi) (2 * Pi * (y + z) + √3 * t / 3) (√3 / Pi / 2) (3 / Pi / 2) 0 x _ ?_ ?_
      · intro a; rw [waveU, ex]; ring
      · rw [← ex]
    · refine comb' _ (2 * Pi) (2 * Pi * (x + z) + √3 * t / 3) (√3 / Pi / 2) (-3 / Pi / 2) 0 y _ ?_ ?_
      · intro a; rw [waveV, ey]; ring
      · rw [← ey]
    · refine comb' _ (2 * Pi) (2 * Pi * (x + y) + √3 * t / 3) (-(2 * √3) / Pi / 2) 0 0 z _ ?_ ?_
      · intro a; rw [waveW, ez]; ring
      · rw [← ez]
    · ring

theorem sigma_sq (k l : ℝ) : sigmaOf k l * sigmaOf k l * (k * k + l * l + 1) = 1 ∧ sigmaOf k l ≠ 0 := by
  have hpos : 0 < k * k + l * l + 1 := by nlinarith [mul_self_nonneg k, mul_self_nonneg l]
  have hs : 0 < √(k * k + l * l + 1) := Real.sqrt_pos.2 hpos
  have hq : √(k * k + l * l + 1) * √(k * k + l * l + 1) = k * k + l * l + 1 := Real.mul_self_sqrt hpos.le
  constructor
  · rw [sigmaOf, div_mul_div_comm, hq, one_mul, one_div, inv_mul_cancel₀ hpos.ne']
  · rw [sigmaOf]; positivity

/-- The amplitude of `u` simplifies. -/
theorem amp (k l s : ℝ) (hk : k ≠ 0) (hs : s ≠ 0) (h : s * s * (k * k + l * l + 1) = 1) :
    k * (s * s * s) / (1 - s * s) * (1 + (l * l) / (s * k * s * k)) = s * (1 + l * l) / k := by
  have h1 : 1 - s * s = s * s * (k * k + l * l) := by linarith
  have hkl : k * k + l * l ≠ 0 := by
    have : 0 < k * k := mul_self_pos.2 hk
    nlinarith [mul_self_nonneg l]
  rw [h1]
  field_simp
  have h' : s ^ 2 * (k ^ 2 + l ^ 2 + 1) = 1 := by linear_combination h
  first
    | linear_combination (l ^ 2) * h'
    | linear_combination (-(l ^ 2)) * h'
    | nlinarith [h']

/-- The solution that is periodic in one direction satisfies the momentum equations in a box of height
`2 Pi`. Its divergence is given exactly for every height; it vanishes for the height `2 Pi`. -/
theorem third_partial (k l lz : ℝ) (hk : k ≠ 0) (hlz : lz ≠ 0) :
    (lz = 2 * Pi → Momentum 1 (thirdU k l (sigmaOf k l) lz) (thirdV k l (sigmaOf k l) lz)
      (thirdW k l (sigmaOf k l) lz) (thirdP k l (sigmaOf k l) lz)) ∧
    Divergence (thirdU k l (sigmaOf k l) lz) (thirdV k l (sigmaOf k l) lz) (thirdW k l (sigmaOf k l) lz)
      (fun x y z t => (2 * Pi / lz - 1) * sigmaOf k l * (cos (k * x) + l / (k * sigmaOf k l) * sin (k * x)) *
        sin (l * y - sigmaOf k l * t) * cos (2 * Pi * z / lz)) := by
  obtain ⟨h, hs⟩ := sigma_sq k l
  generalize sigmaOf k l = s at h hs
  have hA := amp k l s hk hs h
  have hkx : k * s ≠ 0 := mul_ne_zero hk hs
  have ey : ∀ y t : ℝ, l * y - s * t = l * y + -(s * t) := by intros; ring
  have et : ∀ y t : ℝ, l * y - s * t = (-s) * t + l * y := by intros; ring
  have ez : ∀ z : ℝ, 2 * Pi * z / lz = (2 * Pi / lz) * z + 0 := by intros; ring
  have ex : ∀ x : ℝ, k * x = k * x + 0 := by intros; ring
  constructor
  · intro hz x y z t
    have hm : 2 * Pi / lz = 1 := by rw [hz]; exact div_self (by have := Pi_pos; positivity)
    have ez1 : ∀ z : ℝ, 2 * Pi * z / lz = 1 * z + 0 := by intro z; rw [ez, hm]
    refine ⟨-s * s * (-k * sin (k * x) + l / s * cos (k * x)) * cos (l * y - s * t) * cos (2 * Pi * z / lz),
      s * s * l * (cos (k * x) + l / (k * s) * sin (k * x)) * sin (l * y - s * t) * cos (2 * Pi * z / lz),
      s * s * (cos (k * x) + l / (k * s) * sin (k * x)) * cos (l * y - s * t) * sin (2 * Pi * z / lz),
      ?_, ?_, ?_, ?_, ?_, ?_⟩
    · refine comb' _ k 0 (-s * s * cos (l * y - s * t) * cos (2 * Pi * z / lz))
        (-s * s * (l / (k * s)) * cos (l * y - s * t) * cos (2 * Pi * z / lz)) 0 x _ ?_ ?_
      · intro a; rw [thirdP, add_zero]; ring
      · rw [add_zero]; field_simp; ring
    · refine comb' _ l (-(s * t)) (-s * s * (cos (k * x) + l / (k * s) * sin (k * x)) * cos (2 * Pi * z / lz))
        0 0 y _ ?_ ?_
      · intro a; rw [thirdP, ey]; ring
      · rw [← ey]; ring
    · refine comb' _ 1 0 (-s * s * (cos (k * x) + l / (k * s) * sin (k * x)) * cos (l * y - s * t))
        0 0 z _ ?_ ?_
      · intro a; rw [thirdP, ez1]; ring
      · rw [← ez1]; ring
    · refine comb' _ (-s) (l * y) 0 (-(s * (1 + l * l) / k) * sin (k * x) * cos (2 * Pi * z / lz)) 0 t _ ?_ ?_
      · intro a; rw [thirdU, hA, et]; ring
      · rw [← et, thirdV]
        field_simp
        have h' : s ^ 2 * (k ^ 2 + l ^ 2 + 1) = 1 := by linear_combination h
        first
          | linear_combination (-(sin (k * x) * cos (l * y - s * t) * cos (2 * Pi * z / lz))) * h'
          | linear_combination (-(sin (k * x))) * h'
          | linear_combination (sin (k * x)) * h'
    · refine comb' _ (-s) (l * y) ((-l * s * cos (k * x) + 1 / k * sin (k * x)) * cos (2 * Pi * z / lz)) 0 0 t
        _ ?_ ?_
      · intro a; rw [thirdV, et]; ring
      · rw [← et, thirdU, hA]
        field_simp
        ring
    · refine comb' _ (-s) (l * y) 0 (s * (cos (k * x) + l / (k * s) * sin (k * x)) * sin (2 * Pi * z / lz)) 0 t
        _ ?_ ?_
      · intro a; rw [thirdW, et]; ring
      · rw [← et]; ring
  · intro x y z t
    refine ⟨s * (1 + l * l) / k * k * cos (k * x) * (-sin (l * y - s * t)) * cos (2 * Pi * z / lz),
      (-l * s * cos (k * x) + 1 / k * sin (k * x)) * (-l * sin (l * y - s * t)) * cos (2 * Pi * z / lz),
      s * (cos (k * x) + l / (k * s) * sin (k * x)) * sin (l * y - s * t) *
        (2 * Pi / lz * cos (2 * Pi * z / lz)), ?_, ?_, ?_, ?_⟩
    · refine comb' _ k 0 0 (s * (1 + l * l) / k * (-sin (l * y - s * t)) * cos (2 * Pi * z / lz)) 0 x _ ?_ ?_
      · intro a; rw [thirdU, hA, add_zero]; ring
      · rw [add_zero]; ring
    · refine comb' _ l (-(s * t)) ((-l * s * cos (k * x) + 1 / k * sin (k * x)) * cos (2 * Pi * z / lz))
        0 0 y _ ?_ ?_
      · intro a; rw [thirdV, ey]; ring
      · rw [← ey]; ring
    · refine comb' _ (2 * Pi / lz) 0 0 (s * (cos (k * x) + l / (k * s) * sin (k * x)) * sin (l * y - s * t)) 0 z
        _ ?_ ?_
      · intro a; rw [thirdW, ez]; ring
      · rw [← ez]; ring
    · field_simp
      ring

/-- In a box of height `2 Pi` the velocity has no divergence. -/
theorem third_no_divergence (k l : ℝ) (hk : k ≠ 0) :
    Divergence (thirdU k l (sigmaOf k l) (2 * Pi)) (thirdV k l (sigmaOf k l) (2 * Pi))
      (thirdW k l (sigmaOf k l) (2 * Pi)) (fun _ _ _ _ => 0) := by
  have hP : (2 * Pi) ≠ 0 := by have := Pi_pos; positivity
  have := (third_partial k l (2 * Pi) hk hP).2
  rw [div_self hP, sub_self] at this
  simpa using this

/-- In a box of unit height it has one. -/
theorem third_unit_height : ¬ Divergence (thirdU 1 1 (sigmaOf 1 1) 1) (thirdV 1 1 (sigmaOf 1 1) 1)
    (thirdW 1 1 (sigmaOf 1 1) 1) (fun _ _ _ _ => 0) := by
  intro h
  have h' := (third_partial 1 1 1 one_ne_zero one_ne_zero).2
  obtain ⟨a, b, c, ha, hb, hc, e⟩ := h 0 (π / 2) 0 0
  obtain ⟨a', b', c', ha', hb', hc', e'⟩ := h' 0 (π / 2) 0 0
  rw [ha.unique ha', hb.unique hb', hc.unique hc', ← e'] at e
  have hs := (sigma_sq 1 1).2
  simp at e
  rcases e with e | e
  · rw [Pi] at e; norm_num at e
  · exact hs e

end Verif.HEulerExact
