import Verif.Shallow.Lemmas
import Mathlib.Tactic.NormNum

/-!
# C67: numerical fluxes of the shallow flow application

The flux between two states agrees with the physical flux when the states agree,
is the opposite when looked at from the other side, takes the upwind side when
all waves run one way, lets nothing through a wall, and keeps heights from
becoming negative.
-/

namespace Verif.Shallow

/-- **Consistency.**  Between two equal states the numerical flux is the physical
flux in the direction of the normal, whatever the physical flux is. -/
theorem consistent1 {m : ℕ} (P : Params) (F : (Fin (m + 2) → ℝ) → Option (Fin (m + 2) → ℝ))
    (u f : Fin (m + 2) → ℝ) (n : ℝ) (hf : F u = some f) (hg : 0 ≤ P.eps * P.cosAngle)
    (hu : 0 ≤ u 0) : hllc1 P F u u n = some fun i => n * f i := by
  rw [hllc1_eq hf hf hg hu hu, combine_same]

/-- Consistency in two dimensions. -/
theorem consistent2 (P : Params) (F : (Fin 3 → ℝ) → Option (Fin 6 → ℝ))
    (u : Fin 3 → ℝ) (f : Fin 6 → ℝ) (n : Fin 2 → ℝ) (hf : F u = some f)
    (hg : 0 ≤ P.eps * P.cosAngle) (hu : 0 ≤ u 0) :
    hllc2 P F u u n = some ![f 0 * n 0 + f 1 * n 1, f 2 * n 0 + f 3 * n 1,
      f 4 * n 0 + f 5 * n 1] := by
  rw [hllc2_eq hf hf hg hu hu, combine_same]
  congr 1
  funext i
  fin_cases i <;> rfl

/-- The other numerical flux is consistent as well. -/
theorem laxFriedrichs_consistent1 {m : ℕ} (P : Params)
    (F : (Fin (m + 2) → ℝ) → Option (Fin (m + 2) → ℝ)) (u f : Fin (m + 2) → ℝ)
    (hf : F u = some f) (hg : 0 ≤ P.eps) : laxFriedrichs1 P F u u = some f := by
  simp only [laxFriedrichs1, root_nonneg (mul_nonneg hg (le_max_left 0 (u 0))),
    Option.bind_some, hf]
  congr 1
  funext i
  norm_num
  ring

/-- The other numerical flux in two dimensions. -/
theorem laxFriedrichs_consistent2 (P : Params) (F : (Fin 3 → ℝ) → Option (Fin 6 → ℝ))
    (u : Fin 3 → ℝ) (f : Fin 6 → ℝ) (n : Fin 2 → ℝ) (hf : F u = some f)
    (hg : 0 ≤ P.eps * P.cosAngle) (hu : 0 ≤ u 0) :
    laxFriedrichs2 P F u u n = some ![f 0 * n 0 + f 1 * n 1, f 2 * n 0 + f 3 * n 1,
      f 4 * n 0 + f 5 * n 1] := by
  simp only [laxFriedrichs2, root_nonneg (mul_nonneg hg hu), Option.bind_some, hf]
  congr 1
  funext i
  fin_cases i <;> (simp [normalFlux2, entry]; norm_num; ring)

/-- **Both sides agree.**  Exchanging the sides and turning the normal gives the
opposite flux: what one element loses the other gains, whichever of them is
called left.  (At least one layer is not empty.) -/
theorem opposite1 {m : ℕ} (P : Params) (F : (Fin (m + 2) → ℝ) → Option (Fin (m + 2) → ℝ))
    (ul ur fl fr : Fin (m + 2) → ℝ) (n : ℝ) (hl : F ul = some fl) (hr : F ur = some fr)
    (hg : 0 < P.eps * P.cosAngle) (pl : 0 ≤ ul 0) (pr : 0 ≤ ur 0) (hne : 0 < ul 0 ∨ 0 < ur 0) :
    ∃ f, hllc1 P F ul ur n = some f ∧ hllc1 P F ur ul (-n) = some fun i => -f i := by
  refine ⟨_, hllc1_eq hl hr hg.le pl pr n, ?_⟩
  rw [hllc1_eq hr hl hg.le pr pl]
  simp only [normalSpeed1_neg]
  rw [(swap_speeds _ _ _ _).1, (swap_speeds _ _ _ _).2, ← combine_swap]
  · simp only [neg_mul]
  · apply speeds_not_zero (Real.sqrt_nonneg _) (Real.sqrt_nonneg _)
    rcases hne with h | h
    · exact Or.inl (Real.sqrt_pos.mpr (mul_pos hg h))
    · exact Or.inr (Real.sqrt_pos.mpr (mul_pos hg h))
  · exact speeds_le (Real.sqrt_nonneg _) (Real.sqrt_nonneg _)

/-- Both sides agree, in two dimensions. -/
theorem opposite2 (P : Params) (F : (Fin 3 → ℝ) → Option (Fin 6 → ℝ))
    (ul ur : Fin 3 → ℝ) (fl fr : Fin 6 → ℝ) (n : Fin 2 → ℝ) (hl : F ul = some fl)
    (hr : F ur = some fr) (hg : 0 < P.eps * P.cosAngle) (pl : 0 ≤ ul 0) (pr : 0 ≤ ur 0)
    (hne : 0 < ul 0 ∨ 0 < ur 0) :
    ∃ f, hllc2 P F ul ur n = some f ∧ hllc2 P F ur ul (-n) = some fun i => -f i := by
  refine ⟨_, hllc2_eq hl hr hg.le pl pr n, ?_⟩
  rw [hllc2_eq hr hl hg.le pr pl]
  simp only [normalSpeed2_neg, normalFlux2_neg]
  rw [(swap_speeds _ _ _ _).1, (swap_speeds _ _ _ _).2, ← combine_swap]
  · apply speeds_not_zero (Real.sqrt_nonneg _) (Real.sqrt_nonneg _)
    rcases hne with h | h
    · exact Or.inl (Real.sqrt_pos.mpr (mul_pos hg h))
    · exact Or.inr (Real.sqrt_pos.mpr (mul_pos hg h))
  · exact speeds_le (Real.sqrt_nonneg _) (Real.sqrt_nonneg _)

/-- **Upwinding.**  If all waves of both states run along the normal, the flux is
that of the left state; if they all run against it, that of the right state. -/
theorem upwind1 {m : ℕ} (P : Params) (F : (Fin (m + 2) → ℝ) → Option (Fin (m + 2) → ℝ))
    (ul ur fl fr : Fin (m + 2) → ℝ) (n : ℝ) (hl : F ul = some fl) (hr : F ur = some fr)
    (hg : 0 < P.eps * P.cosAngle) (pl : 0 < ul 0) (pr : 0 < ur 0) :
    ((0 ≤ Spec.slow (P.eps * P.cosAngle) (n * Spec.velocity P.dry (ul 0) (ul 1)) (ul 0) ∧
      0 ≤ Spec.slow (P.eps * P.cosAngle) (n * Spec.velocity P.dry (ur 0) (ur 1)) (ur 0)) →
      hllc1 P F ul ur n = some fun i => n * fl i) ∧
    ((Spec.fast (P.eps * P.cosAngle) (n * Spec.velocity P.dry (ul 0) (ul 1)) (ul 0) ≤ 0 ∧
      Spec.fast (P.eps * P.cosAngle) (n * Spec.velocity P.dry (ur 0) (ur 1)) (ur 0) ≤ 0) →
      hllc1 P F ul ur n = some fun i => n * fr i) := by
  have hcl := Real.sqrt_pos.mpr (mul_pos hg pl)
  have hcr := Real.sqrt_pos.mpr (mul_pos hg pr)
  rw [hllc1_eq hl hr hg.le pl.le pr.le]
  simp only [normalSpeed1_eq, Spec.slow, Spec.fast]
  constructor
  · rintro ⟨h1, h2⟩
    rw [combine, if_pos (le_min h1 h2)]
  · rintro ⟨h1, h2⟩
    rw [combine, if_neg, if_pos (max_le h1 h2)]
    exact not_le.mpr (lt_of_le_of_lt (min_le_left _ _) (by linarith))

/-- Upwinding in two dimensions. -/
theorem upwind2 (P : Params) (F : (Fin 3 → ℝ) → Option (Fin 6 → ℝ))
    (ul ur : Fin 3 → ℝ) (fl fr : Fin 6 → ℝ) (n : Fin 2 → ℝ) (hl : F ul = some fl)
    (hr : F ur = some fr) (hg : 0 < P.eps * P.cosAngle) (pl : 0 < ul 0) (pr : 0 < ur 0) :
    let speed := fun u : Fin 3 → ℝ => Spec.velocity P.dry (u 0) (u 1) * n 0 +
      Spec.velocity P.dry (u 0) (u 2) * n 1
    let along := fun f : Fin 6 → ℝ => ![f 0 * n 0 + f 1 * n 1, f 2 * n 0 + f 3 * n 1,
      f 4 * n 0 + f 5 * n 1]
    ((0 ≤ Spec.slow (P.eps * P.cosAngle) (speed ul) (ul 0) ∧
      0 ≤ Spec.slow (P.eps * P.cosAngle) (speed ur) (ur 0)) →
      hllc2 P F ul ur n = some (along fl)) ∧
    ((Spec.fast (P.eps * P.cosAngle) (speed ul) (ul 0) ≤ 0 ∧
      Spec.fast (P.eps * P.cosAngle) (speed ur) (ur 0) ≤ 0) →
      hllc2 P F ul ur n = some (along fr)) := by
  intro speed along
  have hcl := Real.sqrt_pos.mpr (mul_pos hg pl)
  have ha : ∀ f, normalFlux2 f n = along f := by
    intro f; funext i; fin_cases i <;> rfl
  have hs : ∀ u, normalSpeed2 P n u = speed u := fun _ => rfl
  rw [hllc2_eq hl hr hg.le pl.le pr.le]
  simp only [ha, hs, Spec.slow, Spec.fast]
  constructor
  · rintro ⟨h1, h2⟩
    rw [combine, if_pos (le_min h1 h2)]
  · rintro ⟨h1, h2⟩
    rw [combine, if_neg, if_pos (max_le h1 h2)]
    exact not_le.mpr (lt_of_le_of_lt (min_le_left _ _) (by linarith))

/-- **Conservation.**  A test function that has the same value on both sides gets
opposite contributions from the two integrands of a face. -/
theorem conserved1 {m : ℕ} (P : Params) (F : (Fin (m + 2) → ℝ) → Option (Fin (m + 2) → ℝ))
    (ul ur : Fin (m + 2) → ℝ) (n phi : ℝ) (a : (Fin (m + 2) → ℝ) × (Fin (m + 2) → ℝ))
    (h : integrands1 P F ul ur n phi phi = some a) (i : Fin (m + 2)) : a.1 i + a.2 i = 0 := by
  obtain ⟨f, -, rfl⟩ := Option.map_eq_some_iff.mp h
  ring

/-- Conservation in two dimensions. -/
theorem conserved2 (P : Params) (F : (Fin 3 → ℝ) → Option (Fin 6 → ℝ))
    (ul ur : Fin 3 → ℝ) (n : Fin 2 → ℝ) (phi : ℝ) (a : (Fin 3 → ℝ) × (Fin 3 → ℝ))
    (h : integrands2 P F ul ur n phi phi = some a) (i : Fin 3) : a.1 i + a.2 i = 0 := by
  obtain ⟨f, -, rfl⟩ := Option.map_eq_some_iff.mp h
  ring

/-- The contribution of a face in two dimensions has the right size and sign:
where both sides agree it is minus the outward physical flux times the test
function, for the left and for the right element. -/
theorem contribution2 (P : Params) (F : (Fin 3 → ℝ) → Option (Fin 6 → ℝ))
    (u : Fin 3 → ℝ) (f : Fin 6 → ℝ) (n : Fin 2 → ℝ) (phiL phiR : ℝ) (hf : F u = some f)
    (hg : 0 ≤ P.eps * P.cosAngle) (hu : 0 ≤ u 0) :
    integrands2 P F u u n phiL phiR = some
      (![-(f 0 * n 0 + f 1 * n 1) * phiL, -(f 2 * n 0 + f 3 * n 1) * phiL,
          -(f 4 * n 0 + f 5 * n 1) * phiL],
        ![-(f 0 * -n 0 + f 1 * -n 1) * phiR, -(f 2 * -n 0 + f 3 * -n 1) * phiR,
          -(f 4 * -n 0 + f 5 * -n 1) * phiR]) := by
  simp only [integrands2, consistent2 P F u f n hf hg hu, Option.map_some]
  congr 1
  refine Prod.ext ?_ ?_
  · funext i; fin_cases i <;> simp
  · funext i
    fin_cases i
    · change (f 0 * n 0 + f 1 * n 1) * phiR = -(f 0 * -n 0 + f 1 * -n 1) * phiR; ring
    · change (f 2 * n 0 + f 3 * n 1) * phiR = -(f 2 * -n 0 + f 3 * -n 1) * phiR; ring
    · change (f 4 * n 0 + f 5 * n 1) * phiR = -(f 4 * -n 0 + f 5 * -n 1) * phiR; ring

/-- In one dimension the same holds for faces whose normal is `1`.  (The
statement for the normal `-1` is false, see `contribution1_wrong`.) -/
theorem contribution1_partial {m : ℕ} (P : Params)
    (F : (Fin (m + 2) → ℝ) → Option (Fin (m + 2) → ℝ)) (u f : Fin (m + 2) → ℝ)
    (phiL phiR : ℝ) (hf : F u = some f) (hg : 0 ≤ P.eps * P.cosAngle) (hu : 0 ≤ u 0) :
    integrands1 P F u u 1 phiL phiR =
      some (fun i => -(f i * 1) * phiL, fun i => -(f i * -1) * phiR) := by
  simp only [integrands1, consistent1 P F u f 1 hf hg hu, Option.map_some]
  congr 1
  refine Prod.ext ?_ ?_ <;> (funext i; simp)

/-- For a face whose left element lies on its right (normal `-1`) the contribution
has the wrong sign: the normal is multiplied in twice.  For every state with a
flux that is not zero the integrand is not minus the outward flux. -/
theorem contribution1_wrong {m : ℕ} (P : Params)
    (F : (Fin (m + 2) → ℝ) → Option (Fin (m + 2) → ℝ)) (u f : Fin (m + 2) → ℝ)
    (phiL phiR : ℝ) (hf : F u = some f) (hg : 0 ≤ P.eps * P.cosAngle) (hu : 0 ≤ u 0)
    (i : Fin (m + 2)) (hi : f i ≠ 0) (hphi : phiL ≠ 0) :
    ∃ a, integrands1 P F u u (-1) phiL phiR = some a ∧
      a.1 i = (f i * -1) * phiL ∧ a.1 i ≠ -(f i * -1) * phiL := by
  refine ⟨_, by simp only [integrands1, consistent1 P F u f (-1) hf hg hu, Option.map_some]; rfl,
    ?_, ?_⟩
  · simp
  · intro h
    have h2 : f i * phiL = 0 := by linear_combination (-1 / 2) * h
    rcases mul_eq_zero.mp h2 with h3 | h3
    · exact hi h3
    · exact hphi h3

/-- **Walls.**  For a layer that is not dry the flux through a solid wall with a
unit normal carries no mass and no momentum along the wall. -/
theorem wall_closed (P : Params) (u : Fin 3 → ℝ) (n : Fin 2 → ℝ)
    (hg : 0 < P.eps * P.cosAngle) (hd : 0 ≤ P.dry) (hu : P.dry < u 0)
    (hn : n 0 ^ 2 + n 1 ^ 2 = 1) :
    ∃ f, wallFlux P (basicFlux2 P) u n = some f ∧ f 0 = 0 ∧ f 1 * -n 1 + f 2 * n 0 = 0 := by
  have h0 : 0 < u 0 := lt_of_le_of_lt hd hu
  have hne : u 0 ≠ 0 := ne_of_gt h0
  have hb : ∀ w : Fin 3 → ℝ, w 0 = u 0 → basicFlux2 P w = some ![w 1, w 2,
      w 1 * (w 1 / w 0) + P.eps / 2 * P.cosAngle * w 0 * w 0, w 1 * (w 2 / w 0),
      w 1 * (w 2 / w 0), w 2 * (w 2 / w 0) + P.eps / 2 * P.cosAngle * w 0 * w 0] := by
    intro w hw
    have h1 : P.dry < w 0 := by rw [hw]; exact hu
    have h2 : w 0 > -1e-16 := by rw [hw]; norm_num; linarith
    simp only [basicFlux2, if_pos h1, if_pos h2]
  set v := u 1 / u 0 * n 0 + u 2 / u 0 * n 1 with hv
  set r : Fin 3 → ℝ := ![u 0, (u 1 / u 0 - 2 * v * n 0) * u 0,
    (u 2 / u 0 - 2 * v * n 1) * u 0] with hr
  have hr0 : r 0 = u 0 := rfl
  have hr1 : r 1 = (u 1 / u 0 - 2 * v * n 0) * u 0 := rfl
  have hr2 : r 2 = (u 2 / u 0 - 2 * v * n 1) * u 0 := rfl
  have hw : wallFlux P (basicFlux2 P) u n = hllc2 P (basicFlux2 P) u r n := by
    simp only [wallFlux, reflection, if_neg hne, Option.bind_some]
    rfl
  rw [hw, hllc2_eq (hb u rfl) (hb r hr0) hg.le h0.le (by rw [hr0]; exact h0.le)]
  have hc := Real.sqrt_pos.mpr (mul_pos hg h0)
  set c := √(P.eps * P.cosAngle * u 0)
  have s1 : normalSpeed2 P n u = v := by simp only [normalSpeed2, if_pos hu]; rfl
  have s2 : normalSpeed2 P n r = -v := by
    simp only [normalSpeed2, hr0, if_pos hu, hr1, hr2, mul_div_cancel_right₀ _ hne]
    have : v * (n 0 ^ 2 + n 1 ^ 2) = v := by rw [hn, mul_one]
    rw [hv] at this ⊢
    linear_combination (-2) * this
  rw [hr0, s1, s2]
  have e1 : min (v - c) (-v - c) = -(|v| + c) := by
    rcases abs_cases v with ⟨h, h'⟩ | ⟨h, h'⟩ <;> rw [h]
    · rw [min_eq_right (by linarith)]; ring
    · rw [min_eq_left (by linarith)]; ring
  have e2 : max (v + c) (-v + c) = |v| + c := by
    rcases abs_cases v with ⟨h, h'⟩ | ⟨h, h'⟩ <;> rw [h]
    · rw [max_eq_left (by linarith)]
    · rw [max_eq_right (by linarith)]
  rw [e1, e2]
  set s := |v| + c with hs
  have hspos : 0 < s := by have := abs_nonneg v; linarith
  refine ⟨_, rfl, ?_, ?_⟩
  · rw [combine, if_neg (by linarith), if_neg (by linarith)]
    have m1 : normalFlux2 ![u 1, u 2, u 1 * (u 1 / u 0) + P.eps / 2 * P.cosAngle * u 0 * u 0,
        u 1 * (u 2 / u 0), u 1 * (u 2 / u 0),
        u 2 * (u 2 / u 0) + P.eps / 2 * P.cosAngle * u 0 * u 0] n 0 = u 0 * v := by
      simp only [normalFlux2, entry, hv]
      change u 1 * n 0 + u 2 * n 1 = _
      field_simp
    have m2 : normalFlux2 ![r 1, r 2, r 1 * (r 1 / u 0) + P.eps / 2 * P.cosAngle * u 0 * u 0,
        r 1 * (r 2 / u 0), r 1 * (r 2 / u 0),
        r 2 * (r 2 / u 0) + P.eps / 2 * P.cosAngle * u 0 * u 0] n 0 = u 0 * -v := by
      simp only [normalFlux2, entry]
      change r 1 * n 0 + r 2 * n 1 = _
      rw [hr1, hr2]
      have : v * (n 0 ^ 2 + n 1 ^ 2) = v := by rw [hn, mul_one]
      linear_combination (-2 * u 0) * this - u 0 * hv
    rw [m1, m2, hr0]
    have : s - -s ≠ 0 := by linarith
    field_simp
    ring
  · rw [combine, if_neg (by linarith), if_neg (by linarith)]
    have key : ∀ w : Fin 3 → ℝ, w 0 = u 0 →
        normalFlux2 ![w 1, w 2, w 1 * (w 1 / u 0) + P.eps / 2 * P.cosAngle * u 0 * u 0,
        w 1 * (w 2 / u 0), w 1 * (w 2 / u 0),
        w 2 * (w 2 / u 0) + P.eps / 2 * P.cosAngle * u 0 * u 0] n 1 * -n 1 +
        normalFlux2 ![w 1, w 2, w 1 * (w 1 / u 0) + P.eps / 2 * P.cosAngle * u 0 * u 0,
        w 1 * (w 2 / u 0), w 1 * (w 2 / u 0),
        w 2 * (w 2 / u 0) + P.eps / 2 * P.cosAngle * u 0 * u 0] n 2 * n 0 =
        (w 1 / u 0 * n 0 + w 2 / u 0 * n 1) * (w 1 * -n 1 + w 2 * n 0) := by
      intro w hw
      simp only [normalFlux2, entry]
      change ((w 1 * (w 1 / u 0) + P.eps / 2 * P.cosAngle * u 0 * u 0) * n 0 +
          w 1 * (w 2 / u 0) * n 1) * -n 1 +
        (w 1 * (w 2 / u 0) * n 0 +
          (w 2 * (w 2 / u 0) + P.eps / 2 * P.cosAngle * u 0 * u 0) * n 1) * n 0 = _
      field_simp
      ring
    have t : r 1 * -n 1 + r 2 * n 0 = u 1 * -n 1 + u 2 * n 0 := by
      rw [hr1, hr2]; field_simp; ring
    have vr : r 1 / u 0 * n 0 + r 2 / u 0 * n 1 = -v := by
      rw [hr1, hr2, mul_div_cancel_right₀ _ hne, mul_div_cancel_right₀ _ hne]
      have : v * (n 0 ^ 2 + n 1 ^ 2) = v := by rw [hn, mul_one]
      rw [hv] at this ⊢
      linear_combination (-2) * this
    have k1 := key u rfl
    have k2 := key r hr0
    rw [vr, t] at k2
    rw [← hv] at k1
    have hss : s - -s ≠ 0 := by linarith
    have e : ∀ x y : ℝ, x / (s - -s) * -n 1 + y / (s - -s) * n 0 =
        (x * -n 1 + y * n 0) / (s - -s) := by intros; ring
    rw [e, div_eq_zero_iff]
    left
    linear_combination s * k1 + s * k2 - s * s * t

/-- **Heights stay positive.**  Cells with one value each, the physical flux of
the basic application, an explicit Euler step: if no height is negative, thin
layers are at rest, and twice the largest wave speed times the step is at most
the cell length, then the new height is not negative. -/
theorem height_stays (P : Params) (alpha dt dx S : ℝ) (w u e : Fin 2 → ℝ)
    (hg : 0 ≤ P.eps * P.cosAngle) (hd : 0 ≤ P.dry) (hdt : 0 ≤ dt) (hdx : 0 < dx)
    (hcfl : 2 * S * dt ≤ dx)
    (hstate : ∀ q ∈ [w, u, e], 0 ≤ q 0 ∧ (q 0 ≤ P.dry → q 1 = 0) ∧
      Spec.fast (P.eps * P.cosAngle) |Spec.velocity P.dry (q 0) (q 1)| (q 0) ≤ S) :
    ∃ h, stepHeight P (basicFlux1 P alpha) dt dx w u e = some h ∧ 0 ≤ h := by
  have hF : ∀ q : Fin 2 → ℝ, 0 ≤ q 0 → (q 0 ≤ P.dry → q 1 = 0) →
      ∃ f, basicFlux1 P alpha q = some f ∧ f 0 = q 0 * Spec.velocity P.dry (q 0) (q 1) := by
    intro q hq hq2
    have : q 0 > -1e-16 := by norm_num; linarith
    refine ⟨_, by simp only [basicFlux1, if_pos this]; rfl, ?_⟩
    change q 1 = _
    unfold Spec.velocity
    by_cases hc : P.dry < q 0
    · rw [if_pos hc]
      have : q 0 ≠ 0 := ne_of_gt (lt_of_le_of_lt hd hc)
      field_simp
    · rw [if_neg hc, hq2 (not_lt.mp hc), mul_zero]
  have hflux : ∀ l ∈ [w, u, e], ∀ r ∈ [w, u, e], ∃ f a b, 0 ≤ a ∧ a ≤ S ∧ 0 ≤ b ∧ b ≤ S ∧
      hllc1 P (basicFlux1 P alpha) l r 1 = some f ∧ f 0 = a * l 0 - b * r 0 := by
    intro l hl r hr
    obtain ⟨l0, l1, l2⟩ := hstate l hl
    obtain ⟨r0, r1, r2⟩ := hstate r hr
    obtain ⟨fl, el, fl0⟩ := hF l l0 l1
    obtain ⟨fr, er, fr0⟩ := hF r r0 r1
    simp only [Spec.fast] at l2 r2
    have cl := Real.sqrt_nonneg (P.eps * P.cosAngle * l 0)
    have cr := Real.sqrt_nonneg (P.eps * P.cosAngle * r 0)
    have al := neg_abs_le (Spec.velocity P.dry (l 0) (l 1))
    have al2 := le_abs_self (Spec.velocity P.dry (l 0) (l 1))
    have ar := neg_abs_le (Spec.velocity P.dry (r 0) (r 1))
    have ar2 := le_abs_self (Spec.velocity P.dry (r 0) (r 1))
    have al3 := abs_nonneg (Spec.velocity P.dry (l 0) (l 1))
    have nl : normalSpeed1 P 1 l = Spec.velocity P.dry (l 0) (l 1) := by
      rw [normalSpeed1_eq, one_mul]
    have nr : normalSpeed1 P 1 r = Spec.velocity P.dry (r 0) (r 1) := by
      rw [normalSpeed1_eq, one_mul]
    obtain ⟨a, b, ha, ha', hb, hb', hab⟩ := combine_amounts
      (min (normalSpeed1 P 1 l - √(P.eps * P.cosAngle * l 0))
            (normalSpeed1 P 1 r - √(P.eps * P.cosAngle * r 0)))
      (max (normalSpeed1 P 1 l + √(P.eps * P.cosAngle * l 0))
            (normalSpeed1 P 1 r + √(P.eps * P.cosAngle * r 0)))
      (fun i => 1 * fl i) (fun i => 1 * fr i) l r
      (Spec.velocity P.dry (l 0) (l 1)) (Spec.velocity P.dry (r 0) (r 1)) S
      (by simpa using fl0) (by simpa using fr0)
      (le_trans (min_le_left _ _) (by rw [nl]; linarith))
      (le_trans (min_le_right _ _) (by rw [nr]; linarith))
      (le_trans (by rw [nl]; linarith) (le_max_left _ _))
      (le_trans (by rw [nr]; linarith) (le_max_right _ _))
      (max_le (by rw [nl]; linarith) (by rw [nr]; linarith))
      (le_min (by rw [nl]; linarith) (by rw [nr]; linarith))
      (by linarith)
    exact ⟨_, a, b, ha, ha', hb, hb', hllc1_eq el er hg l0 r0 1, hab⟩
  obtain ⟨f, a, b, ha, ha', hb, hb', ef, hf⟩ := hflux w (by simp) u (by simp)
  obtain ⟨g, c, d, hc, hc', hd', hd'', eg, hgg⟩ := hflux u (by simp) e (by simp)
  obtain ⟨w0, -, -⟩ := hstate w (by simp)
  obtain ⟨u0, -, -⟩ := hstate u (by simp)
  obtain ⟨e0, -, -⟩ := hstate e (by simp)
  refine ⟨_, by simp only [stepHeight, integrands1, ef, eg, Option.map_some, Option.bind_some]; rfl, ?_⟩
  rw [hf, hgg]
  have : u 0 + dt * ((-(a * w 0 - b * u 0) * (1 * -1) + -(c * u 0 - d * e 0) * (1 * 1)) / dx) =
      ((dx - dt * (b + c)) * u 0 + dt * a * w 0 + dt * d * e 0) / dx := by
    field_simp; ring
  rw [this]
  apply div_nonneg _ hdx.le
  have h1 : 0 ≤ dx - dt * (b + c) := by nlinarith
  have := mul_nonneg h1 u0
  have := mul_nonneg (mul_nonneg hdt ha) w0
  have := mul_nonneg (mul_nonneg hdt hd') e0
  linarith

/-- The bound on the step is needed and the hypotheses of `height_stays` are met
by states that move: a layer of height 1 flowing at speed 1 next to an empty cell
on either side, with `g = 1`. -/
example : ∃ h, stepHeight ⟨1, 1, 1e-5⟩ (basicFlux1 ⟨1, 1, 1e-5⟩ 1) 1 4
    ![0, 0] ![1, 1] ![1, -1] = some h ∧ 0 ≤ h := by
  apply height_stays (S := 2) <;> norm_num [Spec.fast, Spec.velocity]

/-- The other flux in two dimensions uses a number `alpha` that is said to be the
largest wave speed.  It is not: for a flow along the diagonal the wave in the
direction of the normal is faster. -/
theorem alpha2_too_small (P : Params) (h v : ℝ) (hd : 0 ≤ P.dry) (hh : P.dry < h) (hv : 0 < v) :
    let u : Fin 3 → ℝ := ![h, h * v, h * v]
    let n : Fin 2 → ℝ := ![√2 / 2, √2 / 2]
    n 0 ^ 2 + n 1 ^ 2 = 1 ∧
      alpha2 P u u < Spec.fast (P.eps * P.cosAngle)
        (Spec.velocity P.dry (u 0) (u 1) * n 0 + Spec.velocity P.dry (u 0) (u 2) * n 1) (u 0) := by
  intro u n
  have h2 : (√2 : ℝ) ^ 2 = 2 := Real.sq_sqrt (by norm_num)
  have hne : h ≠ 0 := ne_of_gt (lt_of_le_of_lt hd hh)
  constructor
  · change (√2 / 2) ^ 2 + (√2 / 2) ^ 2 = (1 : ℝ)
    linear_combination (1 / 2) * h2
  · have u0 : u 0 = h := rfl
    have u1 : u 1 = h * v := rfl
    have u2 : u 2 = h * v := rfl
    have n0 : n 0 = √2 / 2 := rfl
    have n1 : n 1 = √2 / 2 := rfl
    simp only [alpha2, Spec.fast, Spec.velocity, u0, u1, u2, n0, n1, if_pos hh]
    rw [mul_div_cancel_left₀ _ hne]
    have hc := Real.sqrt_nonneg (P.eps * P.cosAngle * h)
    set c := √(P.eps * P.cosAngle * h)
    have e : max |v + c| |v - c| = v + c := by
      rw [abs_of_nonneg (by linarith)]
      exact max_eq_left (abs_le.mpr ⟨by linarith, by linarith⟩)
    rw [e, max_self, max_self, max_self]
    have : (1 : ℝ) < √2 := by
      rw [show (1 : ℝ) = √1 by simp]; exact Real.sqrt_lt_sqrt (by norm_num) (by norm_num)
    nlinarith

end Verif.Shallow
