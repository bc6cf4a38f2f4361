import Verif.DgMesh.Lemmas
import Verif.Poisson.Model
import Verif.Poisson.Spec
import Mathlib.Tactic.Linarith
import Mathlib.Tactic.NormNum
import Mathlib.Tactic.LinearCombination

set_option linter.all false

namespace Verif.Poisson

open DgMesh Spec

variable {d : ℕ} {E F G : Type}

theorem dot_comm (v w : Fin d → ℝ) : dot v w = dot w v :=
  Finset.sum_congr rfl fun k _ => mul_comm _ _

theorem dot_left (p : InnerPoint d) (i : ℕ) (v : Fin d → ℝ) :
    dot (p.phiNormal .left i) v = p.left.phi i * dot p.normal v ∧
    dot (p.phiNormal .right i) v = -(p.right.phi i * dot p.normal v) := by
  unfold dot InnerPoint.phiNormal
  constructor
  · rw [Finset.mul_sum]; exact Finset.sum_congr rfl fun k _ => by ring
  · rw [Finset.mul_sum, ← Finset.sum_neg_distrib]
    exact Finset.sum_congr rfl fun k _ => by ring

theorem dot_boundary (p : BoundaryPoint d) (i : ℕ) (v : Fin d → ℝ) :
    dot (p.phiNormal i) v = p.phi i * dot p.normal v := by
  unfold dot BoundaryPoint.phiNormal
  rw [Finset.mul_sum]; exact Finset.sum_congr rfl fun k _ => by ring

theorem sum_slope (n : ℕ) (t : Trace d) (normal : Fin d → ℝ) (u : ℕ → ℝ) :
    ∑ j ∈ Finset.range n, dot normal (t.grad j) * u j = normalDeriv n t normal u := by
  unfold dot normalDeriv gradient
  simp only [Finset.sum_mul, Finset.mul_sum]
  rw [Finset.sum_comm]
  exact Finset.sum_congr rfl fun k _ => Finset.sum_congr rfl fun i _ => by ring

/-- sign of a side -/
def sgn : Side → ℝ
  | .left => 1
  | .right => -1

theorem dot_side (p : InnerPoint d) (s : Side) (i : ℕ) (v : Fin d → ℝ) :
    dot (p.phiNormal s i) v = sgn s * ((p.trace s).phi i * dot p.normal v) := by
  cases s
  · rw [(dot_left p i v).1]; simp [sgn, InnerPoint.trace]
  · rw [(dot_left p i v).2]; simp [sgn, InnerPoint.trace]

theorem inner_one (P : ℝ) (p : InnerPoint d) (s s' : Side) (n n' : ℕ) (v u : ℕ → ℝ)
    (hn : dot p.normal p.normal = 1) :
    form n n' (innerIntegrand P p s s') v u =
      -(1 / 2) * sgn s' * (normalDeriv n (p.trace s) p.normal v * value n' (p.trace s') u) +
      -(1 / 2) * sgn s * (value n (p.trace s) v * normalDeriv n' (p.trace s') p.normal u) +
      P * sgn s * sgn s' * (value n (p.trace s) v * value n' (p.trace s') u) := by
  have key : innerIntegrand P p s s' = fun j i =>
      ((-(1 / 2) * sgn s') * (dot p.normal ((p.trace s).grad j) * (p.trace s').phi i) +
      (-(1 / 2) * sgn s) * ((p.trace s).phi j * dot p.normal ((p.trace s').grad i))) +
      (P * sgn s * sgn s') * ((p.trace s).phi j * (p.trace s').phi i) := by
    funext j i
    unfold innerIntegrand
    have h : dot p.normal (p.phiNormal s j) = sgn s * (p.trace s).phi j := by
      rw [dot_comm, dot_side, hn, mul_one]
    simp only [dot_side, h]
    ring
  rw [key, form_add, form_add, form_mul, form_mul, form_mul, sum_slope, sum_slope]
  rfl

theorem boundary_one (P fac : ℝ) (p : BoundaryPoint (d + 1)) (n : ℕ) (v u : ℕ → ℝ)
    (hn : dot p.normal p.normal = 1) :
    open Classical in
    form n n (boundaryIntegrand P fac p) v u = if Fixed p.position then
      -(normalDeriv n p.toTrace p.normal v * value n p.toTrace u +
        value n p.toTrace v * normalDeriv n p.toTrace p.normal u) +
      P * fac * (value n p.toTrace v * value n p.toTrace u) else 0 := by
  by_cases hD : isDirichlet p.position
  · have key : boundaryIntegrand P fac p = fun j i =>
        (-1 * (dot p.normal (p.grad j) * p.phi i) + -1 * (p.phi j * dot p.normal (p.grad i))) +
        (P * fac) * (p.phi j * p.phi i) := by
      funext j i
      unfold boundaryIntegrand
      rw [if_pos hD]
      have h : dot p.normal (p.phiNormal j) = p.phi j := by
        rw [dot_comm, dot_boundary, hn, mul_one]
      simp only [dot_boundary, h]
      ring
    rw [if_pos (show Fixed p.position from hD), key, form_add, form_add, form_mul, form_mul, form_mul,
      sum_slope n p.toTrace, sum_slope n p.toTrace]
    have : ∀ u, ∑ j ∈ Finset.range n, p.phi j * u j = value n p.toTrace u := fun _ => rfl
    simp only [this]
    ring
  · have key : boundaryIntegrand P fac p = fun _ _ => 0 := by
      funext j i
      unfold boundaryIntegrand
      rw [if_neg hD]
    rw [if_neg (show ¬ Fixed p.position from hD), key, form_zero]

theorem elem_one (p : ElemPoint d) (n : ℕ) (v u : ℕ → ℝ) :
    form n n (elementIntegrand p) v u =
      ∑ k, gradient n p.toTrace u k * gradient n p.toTrace v k := by
  have key : elementIntegrand p = fun j i => ∑ k, p.grad j k * p.grad i k := by
    funext j i
    unfold elementIntegrand dot
    exact Finset.sum_congr rfl fun k _ => mul_comm (p.grad i k) (p.grad j k)
  rw [key, form_fin_sum n n (fun k j i => p.grad j k * p.grad i k) v u]
  refine Finset.sum_congr rfl fun k _ => ?_
  rw [form_outer, mul_comm]
  rfl

variable [Fintype E] [Fintype F] [Fintype G] [DecidableEq E]

/-- The bilinear form of the interior penalty method. -/
theorem pair_stiffness (P fac : ℝ) {m : Mesh (d + 1) E F G} (hf : Faces m) (V U : Vec E) :
    open Classical in
    pair m V (multiply m (integrands P fac) U) =
      (∑ e, ∑ q, (m.elem e q).weight * ∑ k, gradient (m.nb e) (m.elem e q).toTrace (U e) k *
        gradient (m.nb e) (m.elem e q).toTrace (V e) k) +
      (∑ f, ∑ q, (m.inner f q).weight *
        (-((slopeLeft m U f q + slopeRight m U f q) / 2 * jump m V f q +
          (slopeLeft m V f q + slopeRight m V f q) / 2 * jump m U f q) +
          P * (jump m U f q * jump m V f q))) +
      ∑ g, ∑ q, (m.boundary g q).weight * (if Fixed (m.boundary g q).position then
        -(slope m U g q * trace m V g q + slope m V g q * trace m U g q) +
          P * fac * (trace m U g q * trace m V g q) else 0) := by
  classical
  have un : ∀ v : Fin (d + 1) → ℝ, ∑ k, v k ^ 2 = 1 → dot v v = 1 := by
    intro v h
    rw [← h]
    exact Finset.sum_congr rfl fun k _ => (pow_two _).symm
  rw [pair_multiply]
  simp only [integrands, elem_one]
  congr 1
  · congr 1
    refine Finset.sum_congr rfl fun f _ => Finset.sum_congr rfl fun q _ => ?_
    have h := un _ (hf.1 f q).1
    simp only [inner_one _ _ _ _ _ _ _ _ h]
    unfold jump slopeLeft slopeRight
    simp only [sgn, InnerPoint.trace]
    ring
  · refine Finset.sum_congr rfl fun g _ => Finset.sum_congr rfl fun q _ => ?_
    rw [boundary_one _ _ _ _ _ _ (un _ (hf.2 g q).1)]
    unfold slope trace
    split_ifs <;> ring

end Verif.Poisson
