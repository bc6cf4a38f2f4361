import Verif.OldViscous.Lemmas

/-!
# Theorems about the viscous tensor of the older Navier-Stokes application

C190: momentum; C191: energy.
-/

namespace Verif.OldViscous

open scoped BigOperators

variable {d : ℕ}

/-- The tensor exists for every state with density. -/
theorem tensor_isSome (g : Gas) (p : Prim d) (mu : ℝ) :
    (tensor g p mu).isSome ↔ p.rho ≠ 0 ∧ g.prandtl ≠ 0 := by
  unfold tensor
  split
  · simp; tauto
  · simp; tauto

/-- **C190.** The fast contraction, which visits only some entries, is the full contraction. -/
theorem fast_eq_naive {g : Gas} {p : Prim d} {mu : ℝ} {t : Fin d → Fin d → Mat d} (ht : tensor g p mu = some t)
    (m : Var d → Fin d → ℝ) (v : Var d) (a : Fin d) :
    fast t m v a = ∑ b, (t a b v .rho * m .rho b + (∑ i, t a b v (.mom i) * m (.mom i) b)
      + t a b v .en * m .en b) := by
  rw [fast_naive ht]
  rfl

/-- **C190.** No viscous mass flux. -/
theorem mass_zero (t : Fin d → Fin d → Mat d) (m : Var d → Fin d → ℝ) (a : Fin d) : fast t m .rho a = 0 := rfl

/-- **C190.** With the gradient of the conserved variables of any flow, the momentum part of the viscous flux is the
Newtonian stress, in any number of dimensions. -/
theorem momentum_stress {g : Gas} {f : Flow d} {x : Fin d → ℝ} {mu : ℝ} {t : Fin d → Fin d → Mat d}
    (ht : tensor g (f.at x) mu = some t) {dr : Fin d → ℝ} {du : Fin d → Fin d → ℝ} {de : Fin d → ℝ}
    {m : Var d → Fin d → ℝ} (hr : ∀ b, Partial f.rho (dr b) x b) (hu : ∀ k b, Partial (f.u k) (du k b) x b)
    (he : ∀ b, Partial f.en (de b) x b) (hm : ∀ v b, Partial (f.conserved v) (m v b) x b) (k a : Fin d) :
    fast t m (.mom k) a = g.reynolds * stress mu du k a := by
  rw [grad_of_flow hr hu he hm, mom_eq ht]

/-- **C190.** The viscous flux of momentum is symmetric. -/
theorem momentum_symmetric {g : Gas} {f : Flow d} {x : Fin d → ℝ} {mu : ℝ} {t : Fin d → Fin d → Mat d}
    (ht : tensor g (f.at x) mu = some t) {dr : Fin d → ℝ} {du : Fin d → Fin d → ℝ} {de : Fin d → ℝ}
    {m : Var d → Fin d → ℝ} (hr : ∀ b, Partial f.rho (dr b) x b) (hu : ∀ k b, Partial (f.u k) (du k b) x b)
    (he : ∀ b, Partial f.en (de b) x b) (hm : ∀ v b, Partial (f.conserved v) (m v b) x b) (k a : Fin d) :
    fast t m (.mom k) a = fast t m (.mom a) k := by
  rw [momentum_stress ht hr hu he hm, momentum_stress ht hr hu he hm]
  unfold stress
  by_cases h : k = a
  · subst h; rfl
  · rw [if_neg h, if_neg (Ne.symm h), add_comm]

/-- **C191, what the code computes.** The energy part is the work of the stress and the conduction of heat, and a
third term, because one term of the tensor lacks the viscosity. -/
theorem energy_exact {g : Gas} {f : Flow d} {x : Fin d → ℝ} {mu : ℝ} {t : Fin d → Fin d → Mat d}
    (ht : tensor g (f.at x) mu = some t) {dr : Fin d → ℝ} {du : Fin d → Fin d → ℝ} {de : Fin d → ℝ}
    {m : Var d → Fin d → ℝ} (hr : ∀ b, Partial f.rho (dr b) x b) (hu : ∀ k b, Partial (f.u k) (du k b) x b)
    (he : ∀ b, Partial f.en (de b) x b) (hm : ∀ v b, Partial (f.conserved v) (m v b) x b) (a : Fin d) :
    fast t m .en a = g.reynolds * ((∑ k, stress mu du k a * f.u k x)
      + g.gamma / g.prandtl * (de a - ∑ k, f.u k x * du k a)
      + (mu - 1) / 3 * (f.u a x) ^ 2 * dr a / f.rho x) := by
  rw [grad_of_flow hr hu he hm, en_eq ht]
  rfl

/-- **C191, partial.** The energy part is the work of the stress and the conduction of heat (the gradient of the
internal energy) if the scaled viscosity is one, or the density does not change in that direction, or nothing moves
in that direction. Missing: all other flows (`energy_spurious`). -/
theorem energy_partial {g : Gas} {f : Flow d} {x : Fin d → ℝ} {mu : ℝ} {t : Fin d → Fin d → Mat d}
    (ht : tensor g (f.at x) mu = some t) {dr : Fin d → ℝ} {du : Fin d → Fin d → ℝ} {de : Fin d → ℝ}
    {m : Var d → Fin d → ℝ} (hr : ∀ b, Partial f.rho (dr b) x b) (hu : ∀ k b, Partial (f.u k) (du k b) x b)
    (he : ∀ b, Partial f.en (de b) x b) (hm : ∀ v b, Partial (f.conserved v) (m v b) x b) (a : Fin d)
    (h : mu = 1 ∨ dr a = 0 ∨ f.u a x = 0) :
    fast t m .en a = g.reynolds * ((∑ k, stress mu du k a * f.u k x)
      + g.gamma / g.prandtl * (de a - ∑ k, f.u k x * du k a)) := by
  rw [energy_exact ht hr hu he hm]
  rcases h with h | h | h <;> rw [h] <;> simp

/-- **C191, negation.** In a flow with uniform velocity and internal energy there is no stress and no conduction,
but where the density changes along the flow the energy flux is not zero unless the scaled viscosity is one. -/
theorem energy_spurious {g : Gas} {f : Flow d} {x : Fin d → ℝ} {mu : ℝ} {t : Fin d → Fin d → Mat d}
    (ht : tensor g (f.at x) mu = some t) {dr : Fin d → ℝ} {m : Var d → Fin d → ℝ}
    (hr : ∀ b, Partial f.rho (dr b) x b) (hu : ∀ k b, Partial (f.u k) 0 x b)
    (he : ∀ b, Partial f.en 0 x b) (hm : ∀ v b, Partial (f.conserved v) (m v b) x b) (a : Fin d)
    (hg : g.reynolds ≠ 0) (hua : f.u a x ≠ 0) (hra : dr a ≠ 0) (hmu : mu ≠ 1) :
    fast t m .en a ≠ 0 ∧ ∀ k, fast t m (.mom k) a = 0 := by
  constructor
  · rw [energy_exact (du := fun _ _ => 0) ht hr hu he hm]
    have hrho : f.rho x ≠ 0 := ((tensor_isSome g (f.at x) mu).1 (by rw [ht]; rfl)).1
    simp only [stress]
    simp only [add_zero, mul_zero, Finset.sum_const_zero, ite_self, sub_zero, zero_mul, zero_add]
    have : mu - 1 ≠ 0 := sub_ne_zero.2 hmu
    positivity
  · intro k
    rw [momentum_stress (du := fun _ _ => 0) ht hr hu he hm]
    simp [stress]

/-- A case of `energy_spurious`: density `1 + x` and velocity one, at the origin of a line. -/
def ramp : Flow 1 := ⟨fun x => 1 + x 0, fun _ _ => 1, fun _ => 3⟩

example : ∃ t, tensor ⟨1.4, 0.7, 1⟩ (ramp.at 0) 2 = some t ∧ (∀ b, Partial ramp.rho 1 0 b)
    ∧ (∀ k b, Partial (ramp.u k) 0 0 b) ∧ (∀ b, Partial ramp.en 0 0 b)
    ∧ (∀ v b, Partial (ramp.conserved v)
      ((fun v _ => match v with | .rho => 1 | .mom _ => 1 | .en => 3 : Var 1 → Fin 1 → ℝ) v b) 0 b) := by
  have hr : ∀ b, Partial ramp.rho 1 0 b := by
    intro b
    obtain rfl : b = 0 := Subsingleton.elim _ _
    have := (hasDerivAt_id (0 : ℝ)).const_add 1
    simpa [Partial, HasLineDerivAt, ramp] using this
  have hu : ∀ k b, Partial (ramp.u k) 0 0 b := fun k b => hasDerivAt_const _ _
  have he : ∀ b, Partial ramp.en 0 0 b := fun b => hasDerivAt_const _ _
  have hs : (tensor ⟨1.4, 0.7, 1⟩ (ramp.at 0) 2).isSome :=
    (tensor_isSome _ _ _).2 ⟨by simp [ramp, Flow.at], by norm_num⟩
  obtain ⟨t, ht⟩ := Option.isSome_iff_exists.1 hs
  refine ⟨t, ht, hr, hu, he, ?_⟩
  intro v b
  cases v with
  | rho => exact hr b
  | mom k => simpa [Flow.conserved, ramp] using partial_mul (hr b) (hu k b)
  | en => simpa [Flow.conserved, ramp] using partial_mul (hr b) (he b)

end Verif.OldViscous
