import Verif.Acoustic.Lemmas
import Mathlib.Analysis.Calculus.MeanValue
import Mathlib.Analysis.Calculus.Deriv.Mul
import Mathlib.Analysis.Calculus.Deriv.Pow
import Mathlib.Analysis.SpecialFunctions.Trigonometric.Deriv
import Mathlib.Tactic.FieldSimp
import Mathlib.Tactic.NormNum
import Mathlib.Tactic.FinCases
import Mathlib.Tactic.Linarith

/-!
# Properties of the acoustic solver
-/

namespace Verif.Acoustic

open Spec

variable {d : ℕ} {E F G : Type}

section

variable [Fintype E] [Fintype F] [Fintype G] [DecidableEq E]

/-- The coefficients follow the equations the program hands to the time integrator:
the mass matrix times the derivative is the right-hand side (`computeTimeDerivative`,
`HpgemAPISimplified_Impl.h` 764-770). -/
def Evolves (cInv : ℝ) (m : Mesh d E F G) (U D : ℝ → Vec d E) : Prop :=
  ∀ t e v i, i < m.nb e → HasDerivAt (fun t => U t e v i) (D t e v i) t ∧
    ∑ j ∈ Finset.range (m.nb e), mass cInv m e v i j * D t e v j = rhs m (U t) e v i

theorem rhs_skew (m : Mesh d E F G) (h : ByParts m) (U : Vec d E) : pair m U (rhs m U) = 0 := by
  rw [pair_rhs, byParts_sum m h U]
  have e : ∀ f (q : Fin (m.innerPoints f)), (m.inner f q).weight * (1 / 2 *
      ((onLeft m U f q none + onRight m U f q none) *
        (∑ k, (m.inner f q).normal k * (onLeft m U f q (some k) - onRight m U f q (some k))) +
      (∑ k, (onLeft m U f q (some k) + onRight m U f q (some k)) * (m.inner f q).normal k) *
        (onLeft m U f q none - onRight m U f q none))) =
      (m.inner f q).weight *
        (onLeft m U f q none * (∑ k, (m.inner f q).normal k * onLeft m U f q (some k)) -
          onRight m U f q none * ∑ k, (m.inner f q).normal k * onRight m U f q (some k)) := by
    intro f q
    have a : ∑ k, (m.inner f q).normal k * (onLeft m U f q (some k) - onRight m U f q (some k)) =
        (∑ k, (m.inner f q).normal k * onLeft m U f q (some k)) -
        ∑ k, (m.inner f q).normal k * onRight m U f q (some k) := by
      rw [← Finset.sum_sub_distrib]
      exact Finset.sum_congr rfl fun k _ => by ring
    have b : ∑ k, (onLeft m U f q (some k) + onRight m U f q (some k)) * (m.inner f q).normal k =
        (∑ k, (m.inner f q).normal k * onLeft m U f q (some k)) +
        ∑ k, (m.inner f q).normal k * onRight m U f q (some k) := by
      rw [← Finset.sum_add_distrib]
      exact Finset.sum_congr rfl fun k _ => by ring
    rw [a, b]
    ring
  rw [Finset.sum_congr rfl fun f _ => Finset.sum_congr rfl fun q _ => e f q]
  ring

omit [Fintype F] [Fintype G] [DecidableEq E] in
theorem pair_mass (cInv : ℝ) (m : Mesh d E F G) (V D : Vec d E) :
    pair m V (fun e v i => ∑ j ∈ Finset.range (m.nb e), mass cInv m e v i j * D e v j) =
      ∑ e, ∑ q, (m.elem e q).weight * (m.elem e q).jac *
        (value (m.nb e) (m.elem e q).phi (V e none) * value (m.nb e) (m.elem e q).phi (D e none) +
        cInv * ∑ k, value (m.nb e) (m.elem e q).phi (V e (some k)) *
          value (m.nb e) (m.elem e q).phi (D e (some k))) := by
  unfold pair
  refine Finset.sum_congr rfl fun e _ => ?_
  have key : ∀ v, ∑ i ∈ Finset.range (m.nb e), V e v i *
      ∑ j ∈ Finset.range (m.nb e), mass cInv m e v i j * D e v j =
      ∑ q, (m.elem e q).weight * (m.elem e q).jac * ((if v ≠ none then cInv else 1) *
        (value (m.nb e) (m.elem e q).phi (V e v) * value (m.nb e) (m.elem e q).phi (D e v))) := by
    intro v
    have h1 : ∀ i, ∑ j ∈ Finset.range (m.nb e), mass cInv m e v i j * D e v j =
        ∑ q, (m.elem e q).phi i * ((m.elem e q).weight * (m.elem e q).jac *
          (if v ≠ none then cInv else 1) * value (m.nb e) (m.elem e q).phi (D e v)) := by
      intro i
      simp only [mass, value, Finset.sum_mul, Finset.mul_sum]
      rw [Finset.sum_comm]
      exact Finset.sum_congr rfl fun q _ => Finset.sum_congr rfl fun j _ => by ring
    simp only [h1]
    rw [test_sum]
    exact Finset.sum_congr rfl fun q _ => by ring
  rw [Finset.sum_congr rfl fun v _ => key v, Finset.sum_comm]
  refine Finset.sum_congr rfl fun q _ => ?_
  rw [Fintype.sum_option, ← Finset.mul_sum, ← mul_add]
  congr 1
  rw [Finset.mul_sum]
  simp

omit [Fintype E] in
theorem evolves_pair {cInv : ℝ} {m : Mesh d E F G} {U D : ℝ → Vec d E} (h : Evolves cInv m U D)
    [Fintype E] (V : Vec d E) (t : ℝ) :
    pair m V (fun e v i => ∑ j ∈ Finset.range (m.nb e), mass cInv m e v i j * D t e v j) =
      pair m V (rhs m (U t)) := by
  unfold pair
  refine Finset.sum_congr rfl fun e _ => Finset.sum_congr rfl fun v _ =>
    Finset.sum_congr rfl fun i hi => ?_
  exact congrArg _ (h t e v i (Finset.mem_range.mp hi)).2

omit [Fintype E] in
theorem value_deriv {cInv : ℝ} {m : Mesh d E F G} {U D : ℝ → Vec d E} (h : Evolves cInv m U D)
    (e : E) (phi : ℕ → ℝ) (v : Var d) (t : ℝ) :
    HasDerivAt (fun t => value (m.nb e) phi (U t e v)) (value (m.nb e) phi (D t e v)) t := by
  unfold value
  refine HasDerivAt.fun_sum fun i hi => ?_
  exact (h t e v i (Finset.mem_range.mp hi)).1.const_mul _

/-- **C140.**  The energy of the waves is kept for all time, on every mesh, with any
polynomial degree in each element, if integration by parts is exact. -/
theorem energy_conserved {cInv : ℝ} {m : Mesh d E F G} (hp : ByParts m) {U D : ℝ → Vec d E}
    (h : Evolves cInv m U D) (t t' : ℝ) : energy cInv m (U t) = energy cInv m (U t') := by
  have key : ∀ t, HasDerivAt (fun t => energy cInv m (U t)) 0 t := by
    intro t
    have hd : HasDerivAt (fun t => energy cInv m (U t))
        (∑ e, ∑ q, (m.elem e q).weight * (m.elem e q).jac *
          (2 * value (m.nb e) (m.elem e q).phi (U t e none) *
            value (m.nb e) (m.elem e q).phi (D t e none) +
          cInv * ∑ k, 2 * value (m.nb e) (m.elem e q).phi (U t e (some k)) *
            value (m.nb e) (m.elem e q).phi (D t e (some k)))) t := by
      unfold energy density
      refine HasDerivAt.fun_sum fun e _ => HasDerivAt.fun_sum fun q _ =>
        HasDerivAt.const_mul _ (HasDerivAt.add ?_ (HasDerivAt.const_mul _
          (HasDerivAt.fun_sum fun k _ => ?_)))
      · exact ((value_deriv h e _ none t).pow 2).congr_deriv (by simp)
      · exact ((value_deriv h e _ (some k) t).pow 2).congr_deriv (by simp)
    refine hd.congr_deriv ?_
    have := (pair_mass cInv m (U t) (D t)).symm.trans
      ((evolves_pair h (U t) t).trans (rhs_skew m hp (U t)))
    have e2 : ∀ e (q : Fin (m.elemPoints e)), (m.elem e q).weight * (m.elem e q).jac *
          (2 * value (m.nb e) (m.elem e q).phi (U t e none) *
            value (m.nb e) (m.elem e q).phi (D t e none) +
          cInv * ∑ k, 2 * value (m.nb e) (m.elem e q).phi (U t e (some k)) *
            value (m.nb e) (m.elem e q).phi (D t e (some k))) =
        2 * ((m.elem e q).weight * (m.elem e q).jac *
        (value (m.nb e) (m.elem e q).phi (U t e none) *
          value (m.nb e) (m.elem e q).phi (D t e none) +
        cInv * ∑ k, value (m.nb e) (m.elem e q).phi (U t e (some k)) *
          value (m.nb e) (m.elem e q).phi (D t e (some k)))) := by
      intro e q
      have : ∑ k, 2 * value (m.nb e) (m.elem e q).phi (U t e (some k)) *
            value (m.nb e) (m.elem e q).phi (D t e (some k)) =
          2 * ∑ k, value (m.nb e) (m.elem e q).phi (U t e (some k)) *
            value (m.nb e) (m.elem e q).phi (D t e (some k)) := by
        rw [Finset.mul_sum]
        exact Finset.sum_congr rfl fun k _ => by ring
      rw [this]
      ring
    rw [Finset.sum_congr rfl fun e _ => Finset.sum_congr rfl fun q _ => e2 e q]
    simp only [← Finset.mul_sum]
    rw [this, mul_zero]
  exact is_const_of_deriv_eq_zero (fun t => (key t).differentiableAt)
    (fun t => (key t).deriv) t t'

omit [Fintype F] [Fintype G] in
theorem total_deriv {cInv : ℝ} {m : Mesh d E F G} [Fintype F] [Fintype G] {U D : ℝ → Vec d E}
    (h : Evolves cInv m U D) (v : Var d) (t : ℝ) :
    HasDerivAt (fun t => total m (U t) v) (∑ e, ∑ q, (m.elem e q).weight * (m.elem e q).jac *
      value (m.nb e) (m.elem e q).phi (D t e v)) t := by
  unfold total
  exact HasDerivAt.fun_sum fun e _ => HasDerivAt.fun_sum fun q _ =>
    (value_deriv h e _ v t).const_mul _

/-- **C140, the scalar is kept**: its integral does not change, walls included. -/
theorem total_conserved {cInv : ℝ} {m : Mesh d E F G} (hp : ByParts m) {one : E → ℕ → ℝ}
    (h1 : HasOne m one) {U D : ℝ → Vec d E} (h : Evolves cInv m U D) (t t' : ℝ) :
    total m (U t) none = total m (U t') none := by
  have key : ∀ t, HasDerivAt (fun t => total m (U t) none) 0 t := by
    intro t
    refine (total_deriv h none t).congr_deriv ?_
    have zero : ∀ n (phi : ℕ → ℝ), value n phi (fun _ => 0) = 0 := by
      intro n phi; simp [value]
    have e1 := (pair_mass cInv m (fun e v => match v with | none => one e | some _ => fun _ => 0)
      (D t)).symm.trans (evolves_pair h _ t)
    rw [pair_rhs] at e1
    have e2 := byParts_sum m hp (fun e v => match v with
      | none => one e
      | some k => U t e (some k))
    simp only [onLeft, onRight, onBoundary, zero, (h1.1 _ _).1, (h1.1 _ _).2, (h1.2.1 _ _).1,
      (h1.2.1 _ _).2, h1.2.2, divergence, zero_mul, mul_zero, Finset.sum_const_zero, add_zero,
      one_mul] at e1 e2
    rw [e1, e2]
    have e3 : ∀ f (q : Fin (m.innerPoints f)), (m.inner f q).weight * (1 / 2 * ((1 + 1) *
        ∑ k, (m.inner f q).normal k *
          (value (m.nb (m.left f)) (m.inner f q).phiLeft (U t (m.left f) (some k)) -
            value (m.nb (m.right f)) (m.inner f q).phiRight (U t (m.right f) (some k))))) =
        (m.inner f q).weight * ((∑ k, (m.inner f q).normal k *
          value (m.nb (m.left f)) (m.inner f q).phiLeft (U t (m.left f) (some k))) -
          ∑ k, (m.inner f q).normal k *
            value (m.nb (m.right f)) (m.inner f q).phiRight (U t (m.right f) (some k))) := by
      intro f q
      rw [← Finset.sum_sub_distrib]
      rw [show (1 / 2 : ℝ) * ((1 + 1) * ∑ k, (m.inner f q).normal k *
          (value (m.nb (m.left f)) (m.inner f q).phiLeft (U t (m.left f) (some k)) -
            value (m.nb (m.right f)) (m.inner f q).phiRight (U t (m.right f) (some k)))) =
        ∑ k, (m.inner f q).normal k *
          (value (m.nb (m.left f)) (m.inner f q).phiLeft (U t (m.left f) (some k)) -
            value (m.nb (m.right f)) (m.inner f q).phiRight (U t (m.right f) (some k))) by ring]
      congr 1
      exact Finset.sum_congr rfl fun k _ => by ring
    rw [Finset.sum_congr rfl fun f _ => Finset.sum_congr rfl fun q _ => e3 f q]
    ring
  exact is_const_of_deriv_eq_zero (fun t => (key t).differentiableAt)
    (fun t => (key t).deriv) t t'

/-- **C140, the vector changes only at walls**: `c⁻¹` times the integral of each
component grows by the integral of `u n` over the boundary. -/
theorem vector_rate {cInv : ℝ} {m : Mesh d E F G} (hp : ByParts m) {one : E → ℕ → ℝ}
    (h1 : HasOne m one) {U D : ℝ → Vec d E} (h : Evolves cInv m U D) (k : Fin d) (t : ℝ) :
    HasDerivAt (fun t => cInv * total m (U t) (some k))
      (∑ g, ∑ q, (m.boundary g q).weight * (onBoundary m (U t) g q none *
        (m.boundary g q).normal k)) t := by
  refine ((total_deriv h (some k) t).const_mul cInv).congr_deriv ?_
  have zero : ∀ n (phi : ℕ → ℝ), value n phi (fun _ => 0) = 0 := by
    intro n phi; simp [value]
  set V : Vec d E := fun e v => if v = some k then one e else fun _ => 0 with hV
  set W : Vec d E := fun e v => if v = none then U t e none else V e v with hW
  have e1 := (pair_mass cInv m V (D t)).symm.trans (evolves_pair h V t)
  rw [pair_rhs] at e1
  have e2 := byParts_sum m hp W
  have hdiv : ∀ e (q : Fin (m.elemPoints e)),
      divergence (m.nb e) (m.elem e q).grad (W e) = 0 := by
    intro e q
    have : divergence (m.nb e) (m.elem e q).grad (W e) =
        gradient (m.nb e) (m.elem e q).grad (one e) k := by
      unfold divergence gradient
      refine Finset.sum_congr rfl fun b _ => ?_
      rw [Finset.sum_eq_single k]
      · simp [hW, hV]
      · intro j _ hj; simp [hW, hV, hj]
      · simp
    rw [this]
    exact (h1.1 e q).2 k
  have pick : ∀ (n : ℕ) (e : E) (phi : ℕ → ℝ) (x : Fin d → ℝ),
      ∑ j, value n phi (V e (some j)) * x j = value n phi (one e) * x k := by
    intro n e phi x
    rw [Finset.sum_eq_single k]
    · simp [hV]
    · intro j _ hj; simp [hV, hj, zero]
    · simp
  have hWs : ∀ e j, W e (some j) = V e (some j) := by intro e j; simp [hW]
  have hWn : ∀ e, W e none = U t e none := by intro e; simp [hW]
  have hVn : ∀ e, V e none = fun _ => 0 := by intro e; simp [hV]
  have pick' : ∀ (n : ℕ) (e : E) (phi : ℕ → ℝ) (x : Fin d → ℝ),
      ∑ j, x j * value n phi (V e (some j)) = x k * value n phi (one e) := by
    intro n e phi x
    rw [mul_comm, ← pick]
    exact Finset.sum_congr rfl fun j _ => mul_comm _ _
  simp only [onLeft, onRight, onBoundary, hWs, hWn, hVn, hdiv, pick, pick', add_mul,
    Finset.sum_add_distrib, zero, (h1.1 _ _).1, (h1.2.1 _ _).1,
    (h1.2.1 _ _).2, h1.2.2, zero_mul, mul_zero, Finset.sum_const_zero, zero_add, add_zero,
    one_mul, mul_one, sub_zero] at e1 e2
  rw [Finset.mul_sum, Finset.sum_congr rfl fun e _ => Finset.mul_sum _ _ _]
  have e3 : ∀ e (q : Fin (m.elemPoints e)), cInv * ((m.elem e q).weight * (m.elem e q).jac *
      value (m.nb e) (m.elem e q).phi (D t e (some k))) = (m.elem e q).weight *
      (m.elem e q).jac * (cInv * value (m.nb e) (m.elem e q).phi (D t e (some k))) := by
    intro e q; ring
  rw [Finset.sum_congr rfl fun e _ => Finset.sum_congr rfl fun q _ => e3 e q, e1, e2]
  have e4 : ∀ f (q : Fin (m.innerPoints f)), (m.inner f q).weight * (1 / 2 *
      ((m.inner f q).normal k * (value (m.nb (m.left f)) (m.inner f q).phiLeft
          (U t (m.left f) none) - value (m.nb (m.right f)) (m.inner f q).phiRight
          (U t (m.right f) none)) + (m.inner f q).normal k * (value (m.nb (m.left f))
          (m.inner f q).phiLeft (U t (m.left f) none) - value (m.nb (m.right f))
          (m.inner f q).phiRight (U t (m.right f) none)))) =
      (m.inner f q).weight * (value (m.nb (m.left f)) (m.inner f q).phiLeft
          (U t (m.left f) none) * (m.inner f q).normal k - value (m.nb (m.right f))
          (m.inner f q).phiRight (U t (m.right f) none) * (m.inner f q).normal k) := by
    intro f q; ring
  rw [Finset.sum_congr rfl fun f _ => Finset.sum_congr rfl fun q _ => e4 f q]
  simp only [onBoundary]
  ring

/-- **C140, consistency.**  Where the solution does not jump over faces and does not
flow through the boundary, the faces add nothing: the right-hand side is that of
the equations `u_t = div s`, `c⁻¹ s_t = grad u` inside the elements. -/
theorem rhs_consistent (m : Mesh d E F G) (U : Vec d E)
    (hf : ∀ f q v, onLeft m U f q v = onRight m U f q v)
    (hg : ∀ g q, ∑ k, (m.boundary g q).normal k * onBoundary m U g q (some k) = 0)
    (e : E) (i : ℕ) :
    rhs m U e none i = ∑ q, (m.elem e q).weight * (m.elem e q).jac * ((m.elem e q).phi i *
      ∑ k, gradient (m.nb e) (m.elem e q).grad (U e (some k)) k) ∧
    ∀ k, rhs m U e (some k) i = ∑ q, (m.elem e q).weight * (m.elem e q).jac *
      ((m.elem e q).phi i * gradient (m.nb e) (m.elem e q).grad (U e none) k) := by
  have h1 : ∀ f side v, innerRhs m U f side v i = 0 := by
    intro f side v
    refine Finset.sum_eq_zero fun q _ => ?_
    have a : ∀ w, value (m.nb (m.left f)) (m.inner f q).phiLeft (U (m.left f) w) -
        value (m.nb (m.right f)) (m.inner f q).phiRight (U (m.right f) w) = 0 :=
      fun w => sub_eq_zero.mpr (hf f q w)
    cases v <;> simp [a]
  have h2 : ∀ g v, boundaryRhs m U g v i = 0 := by
    intro g v
    refine Finset.sum_eq_zero fun q _ => ?_
    have := hg g q
    simp only [onBoundary] at this
    cases v <;> simp [this]
  have h3 : ∀ v, rhs m U e v i = elementRhs m U e v i := by
    intro v
    unfold rhs
    simp [h1, h2]
  refine ⟨?_, fun k => ?_⟩
  · rw [h3]
    refine Finset.sum_congr rfl fun q _ => ?_
    simp only [divergence, gradient]
    rw [Finset.sum_comm]
    ring
  · rw [h3]
    exact Finset.sum_congr rfl fun q _ => by ring

omit [Fintype E] in
/-- **C141.**  The version with stored matrices computes the same right-hand side, on
every mesh and for every solution. -/
theorem linear_same (m : Mesh d E F G) (U : Vec d E) : rhsLinear m U = rhs m U := by
  funext e v i
  have hE : apply (m.nb e) (elementMatrix m e) (U e) v i = elementRhs m U e v i := by
    unfold apply elementMatrix elementRhs
    simp only [Finset.sum_mul]
    rw [Fintype.sum_option]
    cases v with
    | none =>
      simp only [zero_mul, mul_zero, Finset.sum_const_zero, zero_add]
      have : ∀ k : Fin d, ∑ j ∈ Finset.range (m.nb e), ∑ q, (m.elem e q).weight *
          ((m.elem e q).grad j k * (m.elem e q).phi i * (m.elem e q).jac) * U e (some k) j =
          ∑ q, ∑ j ∈ Finset.range (m.nb e), (m.elem e q).weight *
          ((m.elem e q).grad j k * (m.elem e q).phi i * (m.elem e q).jac) * U e (some k) j :=
        fun k => Finset.sum_comm
      rw [Finset.sum_congr rfl fun k _ => this k, Finset.sum_comm]
      refine Finset.sum_congr rfl fun q _ => ?_
      rw [Finset.sum_comm]
      simp only [divergence, Finset.mul_sum, Finset.sum_mul]
      exact Finset.sum_congr rfl fun j _ => Finset.sum_congr rfl fun k _ => by ring
    | some k =>
      simp only [zero_mul, mul_zero, Finset.sum_const_zero, add_zero]
      rw [Finset.sum_comm]
      refine Finset.sum_congr rfl fun q _ => ?_
      simp only [gradient, Finset.mul_sum, Finset.sum_mul]
      exact Finset.sum_congr rfl fun j _ => by ring
  have hI : ∀ f side, apply (m.nb (m.left f)) (innerMatrix m f side .left) (U (m.left f)) v i +
      apply (m.nb (m.right f)) (innerMatrix m f side .right) (U (m.right f)) v i =
      innerRhs m U f side v i := by
    intro f side
    have gen : ∀ (n : ℕ) (js : Side) (c : Var d → ℕ → ℝ),
        apply n (innerMatrix m f side js) c v i = ∑ q, (m.inner f q).weight * (match v with
          | none => -(1 / 2) * (m.inner f q).phi side i * ∑ k, (if js = .right then
              -(m.inner f q).normal k else (m.inner f q).normal k) *
              value n ((m.inner f q).phi js) (c (some k))
          | some k => -(1 / 2) * (m.inner f q).phi side i * ((if js = .right then
              -(m.inner f q).normal k else (m.inner f q).normal k) *
              value n ((m.inner f q).phi js) (c none))) := by
      intro n js c
      unfold apply innerMatrix
      simp only [Finset.sum_mul]
      rw [Fintype.sum_option]
      cases v with
      | none =>
        simp only [zero_mul, mul_zero, Finset.sum_const_zero, zero_add]
        have : ∀ k : Fin d, ∑ j ∈ Finset.range n, ∑ q, (m.inner f q).weight *
            (-(1 / 2) * (if js = .right then -(m.inner f q).normal k else (m.inner f q).normal k) *
              (m.inner f q).phi js j * (m.inner f q).phi side i) * c (some k) j =
            ∑ q, ∑ j ∈ Finset.range n, (m.inner f q).weight *
            (-(1 / 2) * (if js = .right then -(m.inner f q).normal k else (m.inner f q).normal k) *
              (m.inner f q).phi js j * (m.inner f q).phi side i) * c (some k) j :=
          fun k => Finset.sum_comm
        rw [Finset.sum_congr rfl fun k _ => this k, Finset.sum_comm]
        refine Finset.sum_congr rfl fun q _ => ?_
        simp only [value, Finset.mul_sum]
        exact Finset.sum_congr rfl fun k _ => Finset.sum_congr rfl fun j _ => by ring
      | some k =>
        simp only [zero_mul, mul_zero, Finset.sum_const_zero, add_zero]
        rw [Finset.sum_comm]
        refine Finset.sum_congr rfl fun q _ => ?_
        simp only [value, Finset.mul_sum]
        exact Finset.sum_congr rfl fun j _ => by ring
    rw [gen, gen, ← Finset.sum_add_distrib]
    unfold innerRhs
    refine Finset.sum_congr rfl fun q _ => ?_
    cases v with
    | none =>
      simp only [reduceCtorEq, if_false, if_true, InnerPoint.phi]
      rw [← mul_add, ← mul_add, ← Finset.sum_add_distrib]
      congr 2
      exact Finset.sum_congr rfl fun k _ => by ring
    | some k =>
      simp only [reduceCtorEq, if_false, if_true, InnerPoint.phi]
      ring
  have hB : ∀ g, apply (m.nb (m.inside g)) (boundaryMatrix m g) (U (m.inside g)) v i =
      boundaryRhs m U g v i := by
    intro g
    unfold apply boundaryMatrix boundaryRhs
    simp only [Finset.sum_mul]
    rw [Fintype.sum_option]
    cases v with
    | none =>
      simp only [zero_mul, mul_zero, Finset.sum_const_zero, zero_add]
      have : ∀ k : Fin d, ∑ j ∈ Finset.range (m.nb (m.inside g)), ∑ q, (m.boundary g q).weight *
          (-(m.boundary g q).normal k * (m.boundary g q).phi j * (m.boundary g q).phi i) *
            U (m.inside g) (some k) j =
          ∑ q, ∑ j ∈ Finset.range (m.nb (m.inside g)), (m.boundary g q).weight *
          (-(m.boundary g q).normal k * (m.boundary g q).phi j * (m.boundary g q).phi i) *
            U (m.inside g) (some k) j :=
        fun k => Finset.sum_comm
      rw [Finset.sum_congr rfl fun k _ => this k, Finset.sum_comm]
      refine Finset.sum_congr rfl fun q _ => ?_
      simp only [value, Finset.mul_sum]
      exact Finset.sum_congr rfl fun k _ => Finset.sum_congr rfl fun j _ => by ring
    | some k => simp
  unfold rhsLinear rhs
  rw [hE]
  simp only [hI, hB]

end

/-- Two elements of length one with walls at both ends, linear functions or constants
(`nb = 2` or `nb = 1`), and Simpson's rule. -/
noncomputable def line (nb : ℕ) : Mesh 1 Bool Unit Bool where
  nb := fun _ => nb
  elemPoints := fun _ => 3
  elem := fun _ q => ⟨if q = 1 then 4 / 3 else 1 / 3, 1 / 2,
    fun b => if b = 0 then 1 else (q.val : ℝ) - 1, fun b _ => if b = 0 then 0 else 2⟩
  left := fun _ => false
  right := fun _ => true
  innerPoints := fun _ => 1
  inner := fun _ _ => ⟨1, fun _ => 1, fun _ => 1, fun b => if b = 0 then 1 else -1⟩
  inside := fun g => g
  boundaryPoints := fun _ => 1
  boundary := fun g _ => ⟨1, fun _ => if g then 1 else -1,
    fun b => if b = 0 then 1 else if g then 1 else -1⟩

theorem line_elem (nb : ℕ) (e : Bool) (g : Fin ((line nb).elemPoints e) → ℝ) :
    ∑ q, g q = g (0 : Fin 3) + g (1 : Fin 3) + g (2 : Fin 3) := Fin.sum_univ_three g

theorem line_inner (nb : ℕ) (f : Unit) (g : Fin ((line nb).innerPoints f) → ℝ) :
    ∑ q, g q = g (0 : Fin 1) := Fin.sum_univ_one g

theorem line_boundary (nb : ℕ) (b : Bool) (g : Fin ((line nb).boundaryPoints b) → ℝ) :
    ∑ q, g q = g (0 : Fin 1) := Fin.sum_univ_one g

theorem line_one_byParts : ByParts (line 1) := by
  intro e c
  simp only [line_elem, line_inner, line_boundary]
  cases e <;> simp [line, sideFlux, value, divergence, gradient]

theorem line_two_byParts : ByParts (line 2) := by
  intro e c
  simp only [line_elem, line_inner, line_boundary]
  cases e <;> simp [line, sideFlux, value, divergence, gradient, Finset.sum_range_succ] <;> ring

theorem line_one_hasOne : HasOne (line 1) (fun _ b => if b = 0 then 1 else 0) := by
  refine ⟨fun e q => ⟨?_, fun k => ?_⟩, fun f q => ⟨?_, ?_⟩, fun g q => ?_⟩ <;>
    simp [line, value, gradient]

/-- A standing wave of two elements with constants. -/
noncomputable def swing (t : ℝ) : Vec 1 Bool := fun e v _ => match v with
  | none => if e then -Real.sin t else Real.sin t
  | some _ => Real.cos t

noncomputable def swingRate (t : ℝ) : Vec 1 Bool := fun e v _ => match v with
  | none => if e then -Real.cos t else Real.cos t
  | some _ => -Real.sin t

/-- The hypotheses of the theorems hold for a wave that moves. -/
theorem swing_evolves : Evolves 1 (line 1) swing swingRate := by
  intro t e v i hi
  have hi : i = 0 := by simp only [line] at hi; omega
  subst hi
  refine ⟨?_, ?_⟩
  · cases v with
    | none =>
      cases e
      · simpa [swing, swingRate] using Real.hasDerivAt_sin t
      · exact ((Real.hasDerivAt_sin t).neg : HasDerivAt (fun t => -Real.sin t) (-Real.cos t) t)
    | some k => simpa [swing, swingRate] using Real.hasDerivAt_cos t
  · simp only [mass, rhs, elementRhs, innerRhs, boundaryRhs, line_elem, line_inner, line_boundary]
    cases v <;> cases e <;>
      simp [line, swing, swingRate, value, gradient, divergence, InnerPoint.phi] <;> ring

example (t : ℝ) : energy 1 (line 1) (swing t) = 2 := by
  rw [energy_conserved line_one_byParts swing_evolves t 0]
  simp only [energy, density, line_elem]
  simp [line, swing, value]
  norm_num

/-- **C142.**  The exact solution of the program solves `u_t = div s` and
`c⁻¹ s_t = grad u` at all points and times, in any dimension. -/
theorem exact_solves {n : ℕ} {cInv : ℝ} (hc : 0 < cInv) (x : Fin (n + 1) → ℝ) (t : ℝ) :
    (∃ ut, HasDerivAt (fun t => exactSolution cInv x t none) ut t ∧ ∃ ds : Fin (n + 1) → ℝ,
      (∀ k, HasDerivAt (fun y => exactSolution cInv (Function.update x k y) t (some k))
        (ds k) (x k)) ∧ ut = ∑ k, ds k) ∧
    ∀ k, ∃ st du, HasDerivAt (fun t => exactSolution cInv x t (some k)) st t ∧
      HasDerivAt (fun y => exactSolution cInv (Function.update x k y) t none) du (x k) ∧
      cInv * st = du := by
  set c := Real.sqrt (1 / cInv) with hcd
  set D := Real.sqrt ((n : ℝ) + 1) with hD
  set x1 := ∑ i : Fin n, x i.succ with hx1
  have hc2 : c ^ 2 = 1 / cInv := Real.sq_sqrt (by positivity)
  have hD2 : D ^ 2 = (n : ℝ) + 1 := Real.sq_sqrt (by positivity)
  set p := 2 * Real.pi * (x1 - D * c * t) with hp
  have ht : HasDerivAt (fun t => 2 * Real.pi * (x1 - D * c * t)) (-(2 * Real.pi * (D * c))) t := by
    have := (((hasDerivAt_id' t).const_mul (D * c)).const_sub x1).const_mul (2 * Real.pi)
    exact this.congr_deriv (by ring)
  have sum_zero : ∀ y, ∑ i : Fin n, Function.update x 0 y i.succ = x1 := by
    intro y
    exact Finset.sum_congr rfl fun i _ => Function.update_of_ne (Fin.succ_ne_zero i) _ _
  have sum_succ : ∀ (j : Fin n) y, ∑ i : Fin n, Function.update x j.succ y i.succ =
      x1 + (y - x j.succ) := by
    intro j y
    have : ∀ i : Fin n, Function.update x j.succ y i.succ =
        x i.succ + if i = j then y - x j.succ else 0 := by
      intro i
      by_cases h : i = j
      · subst h; simp
      · rw [Function.update_of_ne (fun e => h (Fin.succ_injective _ e))]; simp [h]
    rw [Finset.sum_congr rfl fun i _ => this i, Finset.sum_add_distrib]
    simp [hx1]
  have hx0 : HasDerivAt (fun y : ℝ => 2 * Real.pi * y) (2 * Real.pi) (x 0) := by
    exact ((hasDerivAt_id' (x 0)).const_mul (2 * Real.pi)).congr_deriv (by ring)
  have hxj : ∀ j : Fin n, HasDerivAt
      (fun y => 2 * Real.pi * (x1 + (y - x j.succ) - D * c * t)) (2 * Real.pi) (x j.succ) := by
    intro j
    have := ((((hasDerivAt_id' (x j.succ)).sub_const (x j.succ)).const_add x1).sub_const
      (D * c * t)).const_mul (2 * Real.pi)
    exact this.congr_deriv (by ring)
  have pj : ∀ j : Fin n, 2 * Real.pi * (x1 + (x j.succ - x j.succ) - D * c * t) = p := by
    intro j; rw [hp]; ring
  refine ⟨⟨-D * c * (2 * Real.pi) * Real.cos (2 * Real.pi * x 0) *
      (-Real.sin p * -(2 * Real.pi * (D * c))), ?_, fun k =>
      -(2 * Real.pi) ^ 2 * Real.cos (2 * Real.pi * x 0) * Real.sin p / cInv, ?_, ?_⟩, ?_⟩
  · exact (ht.cos).const_mul _
  · intro k
    refine Fin.cases ?_ (fun j => ?_) k
    · simp only [exactSolution, if_true, Function.update_self, sum_zero]
      exact (((hx0.sin.const_mul (-(2 * Real.pi))).mul_const (Real.sin p)).div_const
        cInv).congr_deriv (by ring)
    · simp only [exactSolution, if_neg (Fin.succ_ne_zero j), sum_succ,
        Function.update_of_ne (Fin.succ_ne_zero j).symm]
      refine ((((hxj j).cos.const_mul (2 * Real.pi * Real.cos (2 * Real.pi * x 0))).div_const
        cInv)).congr_deriv ?_
      rw [pj]; ring
  · rw [Finset.sum_const, Finset.card_univ, Fintype.card_fin, nsmul_eq_mul]
    push_cast
    have : D ^ 2 * c ^ 2 = ((n : ℝ) + 1) / cInv := by rw [hD2, hc2]; ring
    linear_combination (-(2 * Real.pi) ^ 2 * Real.cos (2 * Real.pi * x 0) * Real.sin p) * this
  · intro k
    refine Fin.cases ?_ (fun j => ?_) k
    · refine ⟨-(2 * Real.pi) * Real.sin (2 * Real.pi * x 0) *
        (Real.cos p * -(2 * Real.pi * (D * c))) / cInv, D * c * (2 * Real.pi) ^ 2 *
          Real.sin (2 * Real.pi * x 0) * Real.cos p, ?_, ?_, ?_⟩
      · simp only [exactSolution, if_true]
        exact (ht.sin.const_mul _).div_const _
      · simp only [exactSolution, Function.update_self, sum_zero]
        exact ((hx0.cos.const_mul (-D * c * (2 * Real.pi))).mul_const
          (Real.cos p)).congr_deriv (by ring)
      · field_simp
    · refine ⟨2 * Real.pi * Real.cos (2 * Real.pi * x 0) *
        (-Real.sin p * -(2 * Real.pi * (D * c))) / cInv, D * c * (2 * Real.pi) ^ 2 *
          Real.cos (2 * Real.pi * x 0) * Real.sin p, ?_, ?_, ?_⟩
      · simp only [exactSolution, if_neg (Fin.succ_ne_zero j)]
        exact (ht.cos.const_mul _).div_const _
      · simp only [exactSolution, sum_succ, Function.update_of_ne (Fin.succ_ne_zero j).symm]
        refine ((hxj j).cos.const_mul
          (-D * c * (2 * Real.pi) * Real.cos (2 * Real.pi * x 0))).congr_deriv ?_
        rw [pj]; ring
      · field_simp

/-- **C142, walls**: nothing flows through the walls `x₀ = 0` and `x₀ = 1` of the unit
cube, and the solution fits to the periodic directions. -/
theorem exact_walls {n : ℕ} (cInv : ℝ) (x : Fin (n + 1) → ℝ) (t : ℝ) :
    (x 0 = 0 ∨ x 0 = 1 → exactSolution cInv x t (some 0) = 0) ∧
    ∀ (j : Fin n) v, exactSolution cInv (Function.update x j.succ (x j.succ + 1)) t v =
      exactSolution cInv x t v := by
  refine ⟨?_, ?_⟩
  · rintro (h | h) <;> simp [exactSolution, h]
  · intro j v
    have h0 : Function.update x j.succ (x j.succ + 1) 0 = x 0 :=
      Function.update_of_ne (Fin.succ_ne_zero j).symm _ _
    have hs : ∑ i : Fin n, Function.update x j.succ (x j.succ + 1) i.succ =
        (∑ i : Fin n, x i.succ) + 1 := by
      have : ∀ i : Fin n, Function.update x j.succ (x j.succ + 1) i.succ =
          x i.succ + if i = j then 1 else 0 := by
        intro i
        by_cases h : i = j
        · subst h; simp
        · rw [Function.update_of_ne (fun e => h (Fin.succ_injective _ e))]; simp [h]
      rw [Finset.sum_congr rfl fun i _ => this i, Finset.sum_add_distrib]
      simp
    have e : ∀ a b : ℝ, 2 * Real.pi * (a + 1 - b) = 2 * Real.pi * (a - b) + 2 * Real.pi := by
      intro a b; ring
    simp only [exactSolution, h0, hs, e, Real.cos_add_two_pi, Real.sin_add_two_pi]

/-- **C143, the error is measured in the energy only if `c⁻¹ = 1`.**  For any other
material the weights stand at the wrong variables. -/
theorem error_density_iff (cInv : ℝ) :
    (∀ w : Var (d + 1) → ℝ, errorIntegrand cInv w = density cInv w) ↔ cInv = 1 := by
  constructor
  · intro h
    have := h fun v => if v = none then 1 else 0
    simpa [errorIntegrand, density, Fintype.sum_option] using this
  · rintro rfl w
    simp [errorIntegrand, density, Fintype.sum_option]

/-- The program measures `c⁻¹` times the energy density of the inverse material. -/
theorem error_density_exchanged {cInv : ℝ} (hc : cInv ≠ 0) (w : Var d → ℝ) :
    errorIntegrand cInv w = cInv * density cInv⁻¹ w := by
  simp only [errorIntegrand, density, Fintype.sum_option]
  simp only [ne_eq, not_true_eq_false, if_false, reduceCtorEq, not_false_eq_true, if_true]
  field_simp

/-- **C143, the error still vanishes exactly for equal solutions.** -/
theorem error_zero_iff {cInv : ℝ} (hc : 0 < cInv) (w : Var d → ℝ) :
    0 ≤ errorIntegrand cInv w ∧ (errorIntegrand cInv w = 0 ↔ w = 0) := by
  have nn : ∀ v ∈ (Finset.univ : Finset (Var d)),
      0 ≤ (if v ≠ none then w v ^ 2 else cInv * w v ^ 2) := by
    intro v _; split <;> positivity
  refine ⟨Finset.sum_nonneg nn, ?_⟩
  unfold errorIntegrand
  rw [Finset.sum_eq_zero_iff_of_nonneg nn]
  constructor
  · intro h
    funext v
    have := h v (Finset.mem_univ v)
    split at this
    · simpa using this
    · simpa [hc.ne'] using this
  · rintro rfl v _
    simp

/-- **C143, the speed of the waves is the square root of the parameter.**  After
`setMaterialParameter(c)`, documented as the speed of the waves, a wave
`u = a sin(x - v t)`, `s = sin(x - v t)` solves the equations in one direction exactly
for the speed `v = √c`. -/
theorem speed {c cInv : ℝ} (hc : 0 < c) (h : materialParameter c = some cInv) (v a : ℝ)
    (hv : 0 < v) :
    (∀ x t : ℝ, ∃ ut ux st sx,
      HasDerivAt (fun t => a * Real.sin (x - v * t)) ut t ∧
      HasDerivAt (fun x => a * Real.sin (x - v * t)) ux x ∧
      HasDerivAt (fun t => Real.sin (x - v * t)) st t ∧
      HasDerivAt (fun x => Real.sin (x - v * t)) sx x ∧
      ut = sx ∧ cInv * st = ux) ↔ v = Real.sqrt c ∧ a * v = -1 := by
  have hci : cInv = 1 / c := by
    unfold materialParameter at h
    rw [if_neg hc.ne'] at h
    exact (Option.some.inj h).symm
  have dt : ∀ x t, HasDerivAt (fun t => Real.sin (x - v * t)) (Real.cos (x - v * t) * -v) t := by
    intro x t
    exact ((((hasDerivAt_id' t).const_mul v).const_sub x).congr_deriv (by ring)).sin
  have dx : ∀ x t, HasDerivAt (fun x => Real.sin (x - v * t)) (Real.cos (x - v * t)) x := by
    intro x t
    exact (((hasDerivAt_id' x).sub_const (v * t)).sin).congr_deriv (by ring)
  constructor
  · intro H
    obtain ⟨ut, ux, st, sx, h1, h2, h3, h4, h5, h6⟩ := H 0 0
    have e1 := h1.unique ((dt 0 0).const_mul a)
    have e2 := h2.unique ((dx 0 0).const_mul a)
    have e3 := h3.unique (dt 0 0)
    have e4 := h4.unique (dx 0 0)
    simp only [mul_zero, sub_zero, Real.cos_zero, one_mul, mul_one] at e1 e2 e3 e4
    rw [e1, e4] at h5
    rw [e2, e3, hci] at h6
    have e7 : a * v = -1 := by linarith
    refine ⟨?_, e7⟩
    have : v ^ 2 = c := by
      field_simp at h6
      nlinarith
    rw [← this, Real.sqrt_sq hv.le]
  · rintro ⟨hs, ha⟩ x t
    refine ⟨_, _, _, _, (dt x t).const_mul a, (dx x t).const_mul a, dt x t, dx x t, ?_, ?_⟩
    · linear_combination (-Real.cos (x - v * t)) * ha
    · have hvc : v ^ 2 = c := by rw [hs, Real.sq_sqrt hc.le]
      rw [hci]
      have hv' := hv.ne'
      have : a = -1 / v := by field_simp; linarith
      rw [this]
      field_simp
      linear_combination (-Real.cos (x - v * t)) * hvc

example : materialParameter 4 = some (1 / 4) := by simp [materialParameter]

end Verif.Acoustic
