import Verif.Advection.Model
import Verif.Advection.Spec
import Mathlib.Tactic.Linarith
import Mathlib.Tactic.NormNum
import Mathlib.Tactic.LinearCombination

set_option linter.all false

/-!
# The tested right-hand side of advection
-/

namespace Verif.Advection

open DgMesh Spec

variable {d : ℕ} {E F G : Type}

/-- The value the program takes for the flux. -/
noncomputable def taken (A left right : ℝ) : ℝ :=
  open Classical in
  if A > tolerance then left
  else if A < -tolerance then right
  else if |A| < tolerance then (left + right) / 2 else 0

theorem dot_phiNormal (a : Fin d → ℝ) (p : InnerPoint d) (j : ℕ) :
    dot a (p.phiNormal .left j) = dot a p.normal * p.left.phi j ∧
    dot a (p.phiNormal .right j) = -dot a p.normal * p.right.phi j := by
  unfold dot InnerPoint.phiNormal
  constructor
  · rw [Finset.sum_mul]
    exact Finset.sum_congr rfl fun k _ => by ring
  · rw [neg_mul, Finset.sum_mul, ← Finset.sum_neg_distrib]
    exact Finset.sum_congr rfl fun k _ => by ring

theorem tol_pos : 0 < tolerance := by unfold tolerance; norm_num

theorem inner_form (a : Fin d → ℝ) (p : InnerPoint d) (n n' : ℕ) (vL vR uL uR : ℕ → ℝ) :
    form n n (innerIntegrand a p .left .left) vL uL +
    form n n' (innerIntegrand a p .left .right) vL uR +
    form n' n (innerIntegrand a p .right .left) vR uL +
    form n' n' (innerIntegrand a p .right .right) vR uR =
    -(through a p.normal * ((value n p.left vL - value n' p.right vR) *
      taken (through a p.normal) (value n p.left uL) (value n' p.right uR))) := by
  have hA : dot a p.normal = through a p.normal := rfl
  have key : ∀ s s', innerIntegrand a p s s' = fun j i =>
      (-(if s = .left then 1 else -1) * through a p.normal *
        (if through a p.normal > tolerance ∧ s' = .left then 1
        else if through a p.normal < -tolerance ∧ s' = .right then 1
        else if |through a p.normal| < tolerance then 1 / 2 else 0)) *
      ((p.trace s).phi j * (p.trace s').phi i) := by
    intro s s'
    funext j i
    unfold innerIntegrand
    have h := dot_phiNormal a p j
    have e : -dot a (p.phiNormal s j) * (p.trace s').phi i =
        -(if s = .left then 1 else -1) * through a p.normal *
          ((p.trace s).phi j * (p.trace s').phi i) := by
      cases s
      · rw [h.1, hA]; simp [InnerPoint.trace]; ring
      · rw [h.2, hA]; simp [InnerPoint.trace]; ring
    simp only [e, hA]
    split_ifs <;> ring
  simp only [key, form_mul]
  have v1 : ∀ (n : ℕ) (t : Trace d) (u : ℕ → ℝ), ∑ j ∈ Finset.range n, t.phi j * u j =
      value n t u := fun _ _ _ => rfl
  simp only [v1, InnerPoint.trace]
  have htol := tol_pos
  unfold taken
  rcases lt_trichotomy (through a p.normal) 0 with h | h | h
  · have n1 : ¬ through a p.normal > tolerance := by linarith
    by_cases h2 : through a p.normal < -tolerance
    · have h3 : ¬ |through a p.normal| < tolerance := by
        rw [abs_of_neg h]; linarith
      simp only [n1, h2, h3, false_and, true_and, reduceCtorEq, if_true, if_false]; ring
    · by_cases h3 : |through a p.normal| < tolerance
      · simp [n1, h2, h3]; ring
      · simp [n1, h2, h3]
  · simp [h]
  · have n1 : ¬ through a p.normal < -tolerance := by linarith
    by_cases h2 : through a p.normal > tolerance
    · have h2' : tolerance < through a p.normal := h2
      have h3 : ¬ |through a p.normal| < tolerance := by
        rw [abs_of_pos h]; linarith
      simp [n1, h2', h3]; ring
    · have h2' : ¬ tolerance < through a p.normal := h2
      by_cases h3 : |through a p.normal| < tolerance
      · simp [n1, h2', h3]; ring
      · simp [n1, h2', h3]

/-- At the boundary nothing comes in. -/
theorem boundary_form (a : Fin d → ℝ) (p : BoundaryPoint d) (n : ℕ) (v u : ℕ → ℝ) :
    form n n (boundaryIntegrand a p) v u =
    -(through a p.normal * (value n p.toTrace v *
      taken (through a p.normal) (value n p.toTrace u) 0)) := by
  have hA : dot a p.normal = through a p.normal := rfl
  have key : boundaryIntegrand a p = fun j i =>
      (-through a p.normal * (if through a p.normal > tolerance then 1
        else if |through a p.normal| < tolerance then 1 / 2 else 0)) * (p.phi j * p.phi i) := by
    funext j i
    unfold boundaryIntegrand
    have e : -dot a (p.phiNormal j) * p.phi i = -through a p.normal * (p.phi j * p.phi i) := by
      have : dot a (p.phiNormal j) = through a p.normal * p.phi j := by
        unfold dot BoundaryPoint.phiNormal through
        rw [Finset.sum_mul]
        exact Finset.sum_congr rfl fun k _ => by ring
      rw [this]; ring
    simp only [e, hA]
    split_ifs <;> ring
  rw [key, form_mul]
  have v1 : ∀ (u : ℕ → ℝ), ∑ j ∈ Finset.range n, p.phi j * u j = value n p.toTrace u :=
    fun _ => rfl
  simp only [v1]
  have htol := tol_pos
  unfold taken
  by_cases h1 : through a p.normal > tolerance
  · simp only [h1, if_true]; ring
  · by_cases h2 : through a p.normal < -tolerance
    · have h3 : ¬ |through a p.normal| < tolerance := by
        rw [abs_lt]; intro h; linarith [h.1]
      simp only [h1, h2, h3, if_true, if_false]; ring
    · simp only [h1, h2, if_false]
      split_ifs <;> ring

theorem elem_form (a : Fin d → ℝ) (p : ElemPoint d) (n : ℕ) (v u : ℕ → ℝ) :
    form n n (elementIntegrand a p) v u = value n p.toTrace u * along a n p.toTrace v := by
  have key : elementIntegrand a p = fun j i => dot a (p.grad j) * p.phi i := by
    funext j i; unfold elementIntegrand; ring
  rw [key, form_outer, mul_comm]
  congr 1
  unfold along gradient dot
  simp only [Finset.sum_mul, Finset.mul_sum]
  rw [Finset.sum_comm]
  exact Finset.sum_congr rfl fun k _ => Finset.sum_congr rfl fun i _ => by ring

variable [Fintype E] [Fintype F] [Fintype G] [DecidableEq E]

/-- The tested right-hand side. -/
theorem pair_rhs (a : Fin d → ℝ) (m : Mesh d E F G) (V U : Vec E) :
    pair m V (multiply m (integrands a) U) =
      (∑ e, ∑ q, (m.elem e q).weight * (value (m.nb e) (m.elem e q).toTrace (U e) *
        along a (m.nb e) (m.elem e q).toTrace (V e))) -
      (∑ f, ∑ q, (m.inner f q).weight * (through a (m.inner f q).normal *
        ((onLeft m V f q - onRight m V f q) *
          taken (through a (m.inner f q).normal) (onLeft m U f q) (onRight m U f q)))) -
      ∑ g, ∑ q, (m.boundary g q).weight * (through a (m.boundary g q).normal *
        (onBoundary m V g q * taken (through a (m.boundary g q).normal) (onBoundary m U g q) 0)) := by
  rw [pair_multiply]
  simp only [integrands, elem_form, inner_form, boundary_form, mul_neg, Finset.sum_neg_distrib]
  rfl

theorem byParts_sum {a : Fin d → ℝ} {m : Mesh d E F G} (h : ByParts a m) (V U : Vec E) :
    ∑ e, ∑ q, (m.elem e q).weight *
      (value (m.nb e) (m.elem e q).toTrace (V e) * along a (m.nb e) (m.elem e q).toTrace (U e) +
        value (m.nb e) (m.elem e q).toTrace (U e) * along a (m.nb e) (m.elem e q).toTrace (V e)) =
    (∑ f, ∑ q, (m.inner f q).weight * (through a (m.inner f q).normal *
        (onLeft m V f q * onLeft m U f q - onRight m V f q * onRight m U f q))) +
    ∑ g, ∑ q, (m.boundary g q).weight * (through a (m.boundary g q).normal *
        (onBoundary m V g q * onBoundary m U g q)) := by
  rw [Finset.sum_congr rfl fun e _ => h e (V e) (U e)]
  rw [Finset.sum_add_distrib, Finset.sum_comm, Finset.sum_comm (s := Finset.univ (α := E))]
  congr 1
  · refine Finset.sum_congr rfl fun f _ => ?_
    rw [Finset.sum_sub_distrib]
    rw [Finset.sum_eq_single (m.left f) (fun b _ hb => by rw [if_neg hb.symm]) (by simp),
      Finset.sum_eq_single (m.right f) (fun b _ hb => by rw [if_neg hb.symm]) (by simp),
      if_pos rfl, if_pos rfl, ← Finset.sum_sub_distrib]
    refine Finset.sum_congr rfl fun q _ => ?_
    unfold onLeft onRight
    ring
  · refine Finset.sum_congr rfl fun g _ => ?_
    rw [Finset.sum_eq_single (m.inside g) (fun b _ hb => by rw [if_neg hb.symm]) (by simp),
      if_pos rfl]
    rfl

end Verif.Advection
