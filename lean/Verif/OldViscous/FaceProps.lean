import Verif.OldViscous.Face
import Verif.OldViscous.Lemmas
import Mathlib.Tactic.Positivity

/-!
# Theorems about the viscous face terms

C194.
-/

namespace Verif.OldViscous

variable {d : ℕ}

/-- C194. The fluxes exist for states with density. -/
theorem faces_isSome (g : Gas) (muL muR : ℝ) (ql qr : Var d → ℝ) (normal : Fin d → ℝ) (hg : g.prandtl ≠ 0)
    (hl : ql .rho ≠ 0) (hr : qr .rho ≠ 0) :
    (innerFluxes g muL muR ql qr normal).isSome ∧ (boundaryFlux g muL muR ql qr normal).isSome := by
  simp [innerFluxes, boundaryFlux, tensor, partialState, hg, hl, hr]

theorem jump_grad (ql qr qp : Var d → ℝ) (normal : Fin d → ℝ) (c : ℝ) (hp : qp .rho ≠ 0) :
    (fun v b => c * (ql v - qr v) * normal b) = grad (partialState qp) (fun b => c * (ql .rho - qr .rho) * normal b)
      (fun k b => c * ((ql (.mom k) - qr (.mom k)) - (ql .rho - qr .rho) * (qp (.mom k) / qp .rho)) / qp .rho * normal b)
      (fun b => c * ((ql .en - qr .en) - (ql .rho - qr .rho) * (qp .en / qp .rho)) / qp .rho * normal b) := by
  funext v b
  cases v <;> simp only [grad, partialState, d10] <;> field_simp <;> ring

/-- **C194.** At an internal face the momentum part of the two terms is the stress for half the jump of the velocity
in the direction of the normal, times the ratio of the density across to the own one. -/
theorem inner_jump {g : Gas} {muL muR : ℝ} {ql qr : Var d → ℝ} {normal : Fin d → ℝ}
    {fl fr : Var d → Fin d → ℝ} (h : innerFluxes g muL muR ql qr normal = some (fl, fr)) (k a : Fin d) :
    fl (.mom k) a = g.reynolds * (qr .rho / ql .rho) * stress muL
      (fun j b => (ql (.mom j) / ql .rho - qr (.mom j) / qr .rho) / 2 * normal b) k a
    ∧ fr (.mom k) a = g.reynolds * (ql .rho / qr .rho) * stress muR
      (fun j b => (ql (.mom j) / ql .rho - qr (.mom j) / qr .rho) / 2 * normal b) k a := by
  unfold innerFluxes at h
  cases hl : tensor g (partialState ql) muL with
  | none => simp [hl] at h
  | some tl =>
  cases hr : tensor g (partialState qr) muR with
  | none => simp [hl, hr] at h
  | some tr =>
  simp only [hl, hr, Option.bind_eq_bind, Option.bind_some, Option.some.injEq, Prod.mk.injEq] at h
  have h1 : ql .rho ≠ 0 := by
    intro h0; simp [tensor, partialState, h0] at hl
  have h2 : qr .rho ≠ 0 := by
    intro h0; simp [tensor, partialState, h0] at hr
  obtain ⟨rfl, rfl⟩ := h
  have key : ∀ (mu c : ℝ) (e e' : Fin d → Fin d → ℝ), (∀ j b, e j b = c * e' j b) →
      stress mu e k a = c * stress mu e' k a := by
    intro mu c e e' he
    unfold stress
    simp only [he, ← Finset.mul_sum]
    split <;> ring
  constructor
  · rw [jump_grad ql qr ql normal 0.5 h1, mom_eq hl,
      key muL (qr .rho / ql .rho) _ (fun j b => (ql (.mom j) / ql .rho - qr (.mom j) / qr .rho) / 2 * normal b)]
    · ring
    · intro j b
      rw [show (0.5 : ℝ) = 1 / 2 by norm_num]
      field_simp
      ring
  · rw [jump_grad ql qr qr normal 0.5 h2, mom_eq hr,
      key muR (ql .rho / qr .rho) _ (fun j b => (ql (.mom j) / ql .rho - qr (.mom j) / qr .rho) / 2 * normal b)]
    · ring
    · intro j b
      rw [show (0.5 : ℝ) = 1 / 2 by norm_num]
      field_simp
      ring

/-- **C194, partial.** Equal velocities on both sides of an internal face: no momentum. Missing: the boundary, where
there is never any (`boundary_vanishes`). -/
theorem inner_partial {g : Gas} {muL muR : ℝ} {ql qr : Var d → ℝ} {normal : Fin d → ℝ}
    {fl fr : Var d → Fin d → ℝ} (h : innerFluxes g muL muR ql qr normal = some (fl, fr))
    (hv : ∀ k, ql (.mom k) / ql .rho = qr (.mom k) / qr .rho) (k a : Fin d) :
    fl (.mom k) a = 0 ∧ fr (.mom k) a = 0 := by
  obtain ⟨h1, h2⟩ := inner_jump h k a
  rw [h1, h2]
  simp [stress, hv]

theorem self_grad (q : Var d → ℝ) (normal : Fin d → ℝ) (c : ℝ) (hp : q .rho ≠ 0) :
    (fun v b => c * q v * normal b) = grad (partialState q) (fun b => c * q .rho * normal b) (fun _ _ => 0)
      (fun _ => 0) := by
  funext v b
  cases v <;> simp only [grad, partialState, d10] <;> field_simp <;> ring

/-- **C194, negation.** At a boundary the momentum part is zero whatever the velocities inside and at the boundary:
each tensor is applied to its own state, on which it vanishes. -/
theorem boundary_vanishes {g : Gas} {muL muB : ℝ} {ql qb : Var d → ℝ} {normal : Fin d → ℝ}
    {f : Var d → Fin d → ℝ} (h : boundaryFlux g muL muB ql qb normal = some f) (k a : Fin d) :
    f (.mom k) a = 0 := by
  unfold boundaryFlux at h
  cases hl : tensor g (partialState ql) muL with
  | none => simp [hl] at h
  | some tl =>
  cases hb : tensor g (partialState qb) muB with
  | none => simp [hl, hb] at h
  | some tb =>
  simp only [hl, hb, Option.bind_eq_bind, Option.bind_some, Option.some.injEq] at h
  have h1 : ql .rho ≠ 0 := by
    intro h0; simp [tensor, partialState, h0] at hl
  have h2 : qb .rho ≠ 0 := by
    intro h0; simp [tensor, partialState, h0] at hb
  have e1 : (fun v b => ql v * normal b) = fun v b => 1 * ql v * normal b := by simp
  have e2 : (fun v b => -qb v * normal b) = fun v b => (-1) * qb v * normal b := by simp
  rw [← h]
  simp only
  rw [e1, e2, self_grad ql normal 1 h1, self_grad qb normal (-1) h2, mom_eq hl, mom_eq hb]
  simp [stress]

/-- **C194, what the code computes.** The energy part at a boundary comes only from the term of C191: it is zero if the
scaled viscosities are one. -/
theorem boundary_energy {g : Gas} {muL muB : ℝ} {ql qb : Var d → ℝ} {normal : Fin d → ℝ}
    {f : Var d → Fin d → ℝ} (h : boundaryFlux g muL muB ql qb normal = some f) (a : Fin d) :
    f .en a = g.reynolds * ((muL - 1) / 3 * (ql (.mom a) / ql .rho) ^ 2
      - (muB - 1) / 3 * (qb (.mom a) / qb .rho) ^ 2) * normal a := by
  unfold boundaryFlux at h
  cases hl : tensor g (partialState ql) muL with
  | none => simp [hl] at h
  | some tl =>
  cases hb : tensor g (partialState qb) muB with
  | none => simp [hl, hb] at h
  | some tb =>
  simp only [hl, hb, Option.bind_eq_bind, Option.bind_some, Option.some.injEq] at h
  have h1 : ql .rho ≠ 0 := by
    intro h0; simp [tensor, partialState, h0] at hl
  have h2 : qb .rho ≠ 0 := by
    intro h0; simp [tensor, partialState, h0] at hb
  have e1 : (fun v b => ql v * normal b) = fun v b => 1 * ql v * normal b := by simp
  have e2 : (fun v b => -qb v * normal b) = fun v b => (-1) * qb v * normal b := by simp
  rw [← h]
  simp only
  rw [e1, e2, self_grad ql normal 1 h1, self_grad qb normal (-1) h2, en_eq hl, en_eq hb]
  simp only [stress, partialState, d10]
  simp only [mul_zero, add_zero, Finset.sum_const_zero, ite_self, sub_zero, zero_mul, zero_add]
  field_simp
  ring

/-- A case: shear across a face. The internal term sees it, the boundary term does not. -/
example : ∃ (g : Gas) (ql qr : Var 2 → ℝ) (normal : Fin 2 → ℝ) (fl fr f : Var 2 → Fin 2 → ℝ),
    innerFluxes g 1 1 ql qr normal = some (fl, fr) ∧ boundaryFlux g 1 1 ql qr normal = some f
    ∧ fl (.mom 0) 1 ≠ 0 ∧ f (.mom 0) 1 = 0 := by
  let ql : Var 2 → ℝ := fun v => match v with | .rho => 1 | .mom k => if k = 0 then 2 else 0 | .en => 5
  let qr : Var 2 → ℝ := fun v => match v with | .rho => 1 | .mom _ => 0 | .en => 5
  obtain ⟨h1, h2⟩ := faces_isSome ⟨1, 1, 1⟩ 1 1 ql qr ![0, 1] one_ne_zero one_ne_zero one_ne_zero
  obtain ⟨⟨fl, fr⟩, h1⟩ := Option.isSome_iff_exists.1 h1
  obtain ⟨f, h2⟩ := Option.isSome_iff_exists.1 h2
  refine ⟨_, ql, qr, ![0, 1], fl, fr, f, h1, h2, ?_, boundary_vanishes h2 _ _⟩
  rw [(inner_jump h1 0 1).1]
  simp [stress, ql, qr]

end Verif.OldViscous
