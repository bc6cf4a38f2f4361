import Verif.Acoustic.Spec
import Mathlib.Tactic.Ring
import Mathlib.Tactic.LinearCombination

/-!
# Lemmas for acoustic waves: the right-hand side tested with a function
-/

namespace Verif.Acoustic

open Spec

set_option linter.all false

variable {d : ℕ} {E F G : Type}

/-- Testing a sum over points with an expansion. -/
theorem test_sum {n N : ℕ} (c : ℕ → ℝ) (phi : Fin N → ℕ → ℝ) (X : Fin N → ℝ) :
    ∑ i ∈ Finset.range n, c i * ∑ q, phi q i * X q = ∑ q, value n (phi q) c * X q := by
  simp only [Finset.mul_sum, value, Finset.sum_mul]
  rw [Finset.sum_comm]
  exact Finset.sum_congr rfl fun q _ => Finset.sum_congr rfl fun i _ => by ring

theorem elem_pair (m : Mesh d E F G) (U : Vec d E) (e : E) (c : Var d → ℕ → ℝ) :
    ∑ v, ∑ i ∈ Finset.range (m.nb e), c v i * elementRhs m U e v i =
      ∑ q, (m.elem e q).weight * (m.elem e q).jac *
        (value (m.nb e) (m.elem e q).phi (c none) * divergence (m.nb e) (m.elem e q).grad (U e) +
        ∑ k, value (m.nb e) (m.elem e q).phi (c (some k)) *
          gradient (m.nb e) (m.elem e q).grad (U e none) k) := by
  rw [Fintype.sum_option]
  have h0 : ∑ i ∈ Finset.range (m.nb e), c none i * elementRhs m U e none i =
      ∑ q, value (m.nb e) (m.elem e q).phi (c none) * ((m.elem e q).weight * (m.elem e q).jac *
        divergence (m.nb e) (m.elem e q).grad (U e)) := by
    rw [← test_sum]
    refine Finset.sum_congr rfl fun i _ => ?_
    congr 1
    exact Finset.sum_congr rfl fun q _ => by ring
  have hk : ∀ k, ∑ i ∈ Finset.range (m.nb e), c (some k) i * elementRhs m U e (some k) i =
      ∑ q, value (m.nb e) (m.elem e q).phi (c (some k)) * ((m.elem e q).weight *
        (m.elem e q).jac * gradient (m.nb e) (m.elem e q).grad (U e none) k) := by
    intro k
    rw [← test_sum]
    refine Finset.sum_congr rfl fun i _ => ?_
    congr 1
    exact Finset.sum_congr rfl fun q _ => by ring
  rw [h0, Finset.sum_congr rfl fun k _ => hk k, Finset.sum_comm, ← Finset.sum_add_distrib]
  refine Finset.sum_congr rfl fun q _ => ?_
  rw [mul_add, Finset.mul_sum]
  congr 1
  · ring
  · exact Finset.sum_congr rfl fun k _ => by ring

/-- The value of a variable on the left of a face. -/
def onLeft (m : Mesh d E F G) (U : Vec d E) (f : F) (q : Fin (m.innerPoints f)) (w : Var d) : ℝ :=
  value (m.nb (m.left f)) (m.inner f q).phiLeft (U (m.left f) w)

/-- The value of a variable on the right of a face. -/
def onRight (m : Mesh d E F G) (U : Vec d E) (f : F) (q : Fin (m.innerPoints f)) (w : Var d) : ℝ :=
  value (m.nb (m.right f)) (m.inner f q).phiRight (U (m.right f) w)

/-- The value of a variable at the boundary. -/
def onBoundary (m : Mesh d E F G) (U : Vec d E) (g : G) (q : Fin (m.boundaryPoints g))
    (w : Var d) : ℝ :=
  value (m.nb (m.inside g)) (m.boundary g q).phi (U (m.inside g) w)

theorem inner_pair (m : Mesh d E F G) (U : Vec d E) (f : F) (side : Side) (n : ℕ)
    (c : Var d → ℕ → ℝ) :
    ∑ v, ∑ i ∈ Finset.range n, c v i * innerRhs m U f side v i =
      -∑ q, (m.inner f q).weight * (1 / 2 *
        (value n ((m.inner f q).phi side) (c none) *
          (∑ k, (m.inner f q).normal k * (onLeft m U f q (some k) - onRight m U f q (some k))) +
        (∑ k, value n ((m.inner f q).phi side) (c (some k)) * (m.inner f q).normal k) *
          (onLeft m U f q none - onRight m U f q none))) := by
  rw [Fintype.sum_option]
  have h0 : ∑ i ∈ Finset.range n, c none i * innerRhs m U f side none i =
      ∑ q, value n ((m.inner f q).phi side) (c none) * ((m.inner f q).weight * (-(1 / 2) *
        ∑ k, (m.inner f q).normal k * (onLeft m U f q (some k) - onRight m U f q (some k)))) := by
    rw [← test_sum (phi := fun q => (m.inner f q).phi side)]
    refine Finset.sum_congr rfl fun i _ => ?_
    congr 1
    refine Finset.sum_congr rfl fun q _ => ?_
    simp only [onLeft, onRight]
    ring
  have hk : ∀ k, ∑ i ∈ Finset.range n, c (some k) i * innerRhs m U f side (some k) i =
      ∑ q, value n ((m.inner f q).phi side) (c (some k)) * ((m.inner f q).weight * (-(1 / 2) *
        ((m.inner f q).normal k * (onLeft m U f q none - onRight m U f q none)))) := by
    intro k
    rw [← test_sum (phi := fun q => (m.inner f q).phi side)]
    refine Finset.sum_congr rfl fun i _ => ?_
    congr 1
    refine Finset.sum_congr rfl fun q _ => ?_
    simp only [onLeft, onRight]
    ring
  rw [h0, Finset.sum_congr rfl fun k _ => hk k, Finset.sum_comm, ← Finset.sum_add_distrib,
    ← Finset.sum_neg_distrib]
  refine Finset.sum_congr rfl fun q _ => ?_
  have : ∑ k, value n ((m.inner f q).phi side) (c (some k)) * ((m.inner f q).weight * (-(1 / 2) *
        ((m.inner f q).normal k * (onLeft m U f q none - onRight m U f q none)))) =
      (∑ k, value n ((m.inner f q).phi side) (c (some k)) * (m.inner f q).normal k) *
        ((m.inner f q).weight * (-(1 / 2) * (onLeft m U f q none - onRight m U f q none))) := by
    rw [Finset.sum_mul]
    exact Finset.sum_congr rfl fun k _ => by ring
  rw [this]
  ring

theorem boundary_pair (m : Mesh d E F G) (U : Vec d E) (g : G) (c : Var d → ℕ → ℝ) :
    ∑ v, ∑ i ∈ Finset.range (m.nb (m.inside g)), c v i * boundaryRhs m U g v i =
      -∑ q, (m.boundary g q).weight * (value (m.nb (m.inside g)) (m.boundary g q).phi (c none) *
          ∑ k, (m.boundary g q).normal k * onBoundary m U g q (some k)) := by
  rw [Fintype.sum_option]
  have h0 : ∑ i ∈ Finset.range (m.nb (m.inside g)), c none i * boundaryRhs m U g none i =
      ∑ q, value (m.nb (m.inside g)) (m.boundary g q).phi (c none) *
        (-(m.boundary g q).weight * ∑ k, (m.boundary g q).normal k *
          onBoundary m U g q (some k)) := by
    rw [← test_sum]
    refine Finset.sum_congr rfl fun i _ => ?_
    congr 1
    refine Finset.sum_congr rfl fun q _ => ?_
    simp only [onBoundary]
    ring
  have hk : ∀ k, ∑ i ∈ Finset.range (m.nb (m.inside g)),
      c (some k) i * boundaryRhs m U g (some k) i = 0 := by
    intro k
    refine Finset.sum_eq_zero fun i _ => ?_
    simp [boundaryRhs]
  rw [h0, Finset.sum_congr rfl fun k _ => hk k, Finset.sum_const_zero, add_zero,
    ← Finset.sum_neg_distrib]
  exact Finset.sum_congr rfl fun q _ => by ring

variable [Fintype E] [Fintype F] [Fintype G] [DecidableEq E]

/-- A vector of coefficients tested with another. -/
def pair (m : Mesh d E F G) (V R : Vec d E) : ℝ :=
  ∑ e, ∑ v, ∑ i ∈ Finset.range (m.nb e), V e v i * R e v i

theorem pair_rhs (m : Mesh d E F G) (V U : Vec d E) :
    pair m V (rhs m U) =
      (∑ e, ∑ q, (m.elem e q).weight * (m.elem e q).jac *
        (value (m.nb e) (m.elem e q).phi (V e none) *
          divergence (m.nb e) (m.elem e q).grad (U e) +
        ∑ k, value (m.nb e) (m.elem e q).phi (V e (some k)) *
          gradient (m.nb e) (m.elem e q).grad (U e none) k)) -
      (∑ f, ∑ q, (m.inner f q).weight * (1 / 2 *
        ((onLeft m V f q none + onRight m V f q none) *
          (∑ k, (m.inner f q).normal k * (onLeft m U f q (some k) - onRight m U f q (some k))) +
        (∑ k, (onLeft m V f q (some k) + onRight m V f q (some k)) * (m.inner f q).normal k) *
          (onLeft m U f q none - onRight m U f q none)))) -
      ∑ g, ∑ q, (m.boundary g q).weight * (onBoundary m V g q none *
          ∑ k, (m.boundary g q).normal k * onBoundary m U g q (some k)) := by
  have expand : ∀ e, ∑ v, ∑ i ∈ Finset.range (m.nb e), V e v i * rhs m U e v i =
      (∑ v, ∑ i ∈ Finset.range (m.nb e), V e v i * elementRhs m U e v i) +
      (∑ f, ((if m.left f = e then ∑ v, ∑ i ∈ Finset.range (m.nb e),
          V e v i * innerRhs m U f .left v i else 0) +
        if m.right f = e then ∑ v, ∑ i ∈ Finset.range (m.nb e),
          V e v i * innerRhs m U f .right v i else 0)) +
      ∑ g, if m.inside g = e then ∑ v, ∑ i ∈ Finset.range (m.nb e),
          V e v i * boundaryRhs m U g v i else 0 := by
    intro e
    have a : ∀ (p : Prop) [Decidable p] (X : Var d → ℕ → ℝ),
        (if p then ∑ v, ∑ i ∈ Finset.range (m.nb e), V e v i * X v i else 0) =
        ∑ v, ∑ i ∈ Finset.range (m.nb e), V e v i * (if p then X v i else 0) := by
      intro p _ X
      by_cases h : p <;> simp [h]
    simp only [a]
    rw [Finset.sum_add_distrib]
    have sw : ∀ {ι : Type} [Fintype ι] (Y : ι → Var d → ℕ → ℝ),
        ∑ f, ∑ v, ∑ i ∈ Finset.range (m.nb e), V e v i * Y f v i =
        ∑ v, ∑ i ∈ Finset.range (m.nb e), V e v i * ∑ f, Y f v i := by
      intro ι _ Y
      rw [Finset.sum_comm]
      refine Finset.sum_congr rfl fun v _ => ?_
      rw [Finset.sum_comm]
      exact Finset.sum_congr rfl fun i _ => by rw [Finset.mul_sum]
    rw [sw, sw, sw]
    simp only [← Finset.sum_add_distrib]
    refine Finset.sum_congr rfl fun v _ => Finset.sum_congr rfl fun i _ => ?_
    unfold rhs
    rw [Finset.sum_add_distrib]
    ring
  unfold pair
  rw [Finset.sum_congr rfl fun e _ => expand e, Finset.sum_add_distrib, Finset.sum_add_distrib,
    Finset.sum_comm (s := (Finset.univ : Finset E)) (t := (Finset.univ : Finset F)),
    Finset.sum_comm (s := (Finset.univ : Finset E)) (t := (Finset.univ : Finset G))]
  rw [Finset.sum_congr rfl fun e _ => elem_pair m U e (V e)]
  simp only [Finset.sum_add_distrib, Finset.sum_ite_eq, Finset.mem_univ, if_true]
  rw [Finset.sum_congr rfl fun f _ => inner_pair m U f .left (m.nb (m.left f)) (V (m.left f)),
    Finset.sum_congr rfl fun f _ => inner_pair m U f .right (m.nb (m.right f)) (V (m.right f)),
    Finset.sum_congr rfl fun g _ => boundary_pair m U g (V (m.inside g))]
  rw [← Finset.sum_add_distrib, Finset.sum_neg_distrib, sub_eq_add_neg, sub_eq_add_neg]
  congr 1
  congr 1
  rw [← Finset.sum_neg_distrib]
  refine Finset.sum_congr rfl fun f _ => ?_
  rw [← neg_add, ← Finset.sum_add_distrib]
  congr 1
  refine Finset.sum_congr rfl fun q _ => ?_
  have s1 : (∑ k, (onLeft m V f q (some k) + onRight m V f q (some k)) * (m.inner f q).normal k) =
      (∑ k, onLeft m V f q (some k) * (m.inner f q).normal k) +
      ∑ k, onRight m V f q (some k) * (m.inner f q).normal k := by
    rw [← Finset.sum_add_distrib]
    exact Finset.sum_congr rfl fun k _ => by ring
  rw [s1]
  simp only [onLeft, onRight, InnerPoint.phi]
  ring

/-- Summing the assumption on integration by parts over all elements. -/
theorem byParts_sum (m : Mesh d E F G) (h : ByParts m) (W : Vec d E) :
    ∑ e, ∑ q, (m.elem e q).weight * (m.elem e q).jac *
      (value (m.nb e) (m.elem e q).phi (W e none) *
          divergence (m.nb e) (m.elem e q).grad (W e) +
        ∑ k, value (m.nb e) (m.elem e q).phi (W e (some k)) *
          gradient (m.nb e) (m.elem e q).grad (W e none) k) =
      (∑ f, ∑ q, (m.inner f q).weight *
        (onLeft m W f q none * (∑ k, (m.inner f q).normal k * onLeft m W f q (some k)) -
          onRight m W f q none * ∑ k, (m.inner f q).normal k * onRight m W f q (some k))) +
      ∑ g, ∑ q, (m.boundary g q).weight * (onBoundary m W g q none *
        ∑ k, (m.boundary g q).normal k * onBoundary m W g q (some k)) := by
  rw [Finset.sum_congr rfl fun e _ => h e (W e), Finset.sum_add_distrib,
    Finset.sum_comm (s := (Finset.univ : Finset E)) (t := (Finset.univ : Finset F)),
    Finset.sum_comm (s := (Finset.univ : Finset E)) (t := (Finset.univ : Finset G))]
  simp only [Finset.sum_sub_distrib, Finset.sum_ite_eq, Finset.mem_univ, if_true]
  congr 1
  rw [← Finset.sum_sub_distrib]
  refine Finset.sum_congr rfl fun f _ => ?_
  rw [← Finset.sum_sub_distrib]
  refine Finset.sum_congr rfl fun q _ => ?_
  simp only [sideFlux, onLeft, onRight]
  ring

end Verif.Acoustic
