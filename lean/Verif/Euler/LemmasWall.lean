import Verif.Euler.LemmasFlux

set_option linter.all false

namespace Verif.Euler

open Spec

variable {d : ℕ}

/-- A state with the velocity turned around. -/
def turned (q : State d) : State d := ⟨q.rho, fun i => -q.mom i, q.en⟩

theorem turned_physical {g : ℝ} {q : State d} (h : Physical g q) : Physical g (turned q) := by
  refine ⟨h.1, ?_⟩
  have : press g (turned q) = press g q := by
    unfold press turned; dsimp only; rw [dot_neg, dot_neg', neg_neg]
  rw [this]; exact h.2

theorem turned_turned (q : State d) : turned (turned q) = q := by
  apply plus_ext <;> simp [turned]

theorem turned_mean (g : ℝ) (q : State d) (h : Physical g q) :
    meanVel (turned q) q = (fun _ => 0) ∧ meanEnt g (turned q) q = enthalpy g q := by
  have hz := Real.sqrt_pos.mpr h.1
  constructor
  · funext i
    simp only [meanVel, mean, vel, turned]; ring
  · have : enthalpy g (turned q) = enthalpy g q := by
      unfold enthalpy press turned; dsimp only; rw [dot_neg, dot_neg', neg_neg]
    simp only [meanEnt, mean, this]
    have : Real.sqrt (turned q).rho = Real.sqrt q.rho := rfl
    rw [this]
    field_simp

/-- The flux between a state and the same state turned around. -/
theorem twice_turned (g : ℝ) (hg : 1 < g) (q : State d) (n : Fin d → ℝ) (h : Physical g q)
    (hn : dot n n = 1) :
    let a := Real.sqrt ((g - 1) * enthalpy g q)
    twiceRoe g (turned q) q n = ⟨0,
      fun i => 2 * (dot (vel q) n * q.mom i + press g q * n i) -
        (2 * size 0 * q.mom i + 2 * (size a - size 0) * dot q.mom n * n i), 0⟩ := by
  intro a
  obtain ⟨hu, hh⟩ := turned_mean g q h
  rw [twiceRoe_waves g hg _ q n (turned_physical h) h]
  rw [hu, hh]
  have gap := mean_gap g hg _ q (turned_physical h) h
  rw [hu, hh] at gap
  have z : ∀ w : Fin d → ℝ, dot (fun _ => 0) w = 0 := by intro w; simp [dot]
  rw [z] at gap
  have ea : sound g (fun _ => (0:ℝ) : Fin d → ℝ) (enthalpy g q) = a := by
    unfold sound; rw [z]; simp [a]
  have ha : a ^ 2 = (g - 1) * enthalpy g q := by
    apply Real.sq_sqrt; simpa using gap.le
  have hpos : 0 < a := by apply Real.sqrt_pos.mpr; simpa using gap
  have h0 : a ≠ 0 := ne_of_gt hpos
  rw [ea, z, zero_add, zero_sub, size_neg]
  have hm : (q.sub (turned q)).mom = fun i => 2 * q.mom i := by
    funext i; simp only [State.sub, turned]; ring
  have h1 : (q.sub (turned q)).rho = 0 := by simp [State.sub, turned]
  have h2 : (q.sub (turned q)).en = 0 := by simp [State.sub, turned]
  have e1 : dot n (fun i => 2 * q.mom i) = 2 * dot q.mom n := by
    rw [dot_comm, dot_smul]
  have vn : dot (vel q) n = dot q.mom n / q.rho := dot_div _ _ _
  have vt : dot (vel (turned q)) n = -(dot q.mom n / q.rho) := by
    rw [show vel (turned q) = fun i => -vel q i by funext i; simp only [vel, turned]; ring,
      dot_neg, vn]
  have pt : press g (turned q) = press g q := by
    unfold press turned; dsimp only; rw [dot_neg, dot_neg', neg_neg]
  have w1 : ∀ b, b ≠ 0 → wave g (fun _ => 0) (enthalpy g q) n (q.sub (turned q)) b =
      ⟨dot q.mom n / b, fun i => dot q.mom n * n i, dot q.mom n / b * enthalpy g q⟩ := by
    intro b hb
    unfold wave
    dsimp only
    rw [h1, h2, hm, e1, z, z, z]
    apply plus_ext
    · simp only [scale]; field_simp; ring
    · intro i; simp only [scale]; field_simp; ring
    · simp only [scale]; field_simp; ring
  rw [w1 a h0, w1 (-a) (neg_ne_zero.mpr h0)]
  have nr := ne_of_gt h.1
  apply plus_ext
  · simp only [plus, scale, State.sub, flux, h1]
    have : dot (turned q).mom n = -dot q.mom n := dot_neg _ _
    rw [this]
    simp only [turned]
    field_simp
    ring
  · intro i
    simp only [plus, scale, State.sub, flux, vt, vn, pt]
    simp only [turned]
    ring
  · simp only [plus, scale, State.sub, flux, vt, vn, pt]
    simp only [turned]
    field_simp
    ring

end Verif.Euler
