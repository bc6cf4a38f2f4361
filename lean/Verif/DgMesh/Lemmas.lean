import Verif.DgMesh.Model
import Mathlib.Analysis.Calculus.Deriv.Mul
import Mathlib.Analysis.Calculus.Deriv.Add
import Mathlib.Tactic.Ring

set_option linter.all false

/-!
# Tested products with stored matrices
-/

namespace Verif.DgMesh

variable {d : ℕ} {E F G : Type}

/-- A vector tested with another. -/
def pair [Fintype E] (m : Mesh d E F G) (V R : Vec E) : ℝ :=
  ∑ e, ∑ i ∈ Finset.range (m.nb e), V e i * R e i

/-- `v^T a u` -/
def form (n n' : ℕ) (a : ℕ → ℕ → ℝ) (v u : ℕ → ℝ) : ℝ :=
  ∑ j ∈ Finset.range n, ∑ i ∈ Finset.range n', v j * a j i * u i

theorem form_times (n n' : ℕ) (a : ℕ → ℕ → ℝ) (v u : ℕ → ℝ) :
    ∑ j ∈ Finset.range n, v j * times n' a u j = form n n' a v u := by
  unfold times form
  refine Finset.sum_congr rfl fun j _ => ?_
  rw [Finset.mul_sum]
  exact Finset.sum_congr rfl fun i _ => by ring

theorem form_sum {Q : Type} [Fintype Q] (n n' : ℕ) (w : Q → ℝ) (a : Q → ℕ → ℕ → ℝ)
    (v u : ℕ → ℝ) :
    form n n' (fun j i => ∑ q, w q * a q j i) v u = ∑ q, w q * form n n' (a q) v u := by
  unfold form
  simp only [Finset.mul_sum, Finset.sum_mul]
  rw [Finset.sum_congr rfl fun j _ => Finset.sum_comm, Finset.sum_comm]
  exact Finset.sum_congr rfl fun q _ => Finset.sum_congr rfl fun j _ =>
    Finset.sum_congr rfl fun i _ => by ring

/-- Rank one: `v^T (x y^T) u`. -/
theorem form_mul (n n' : ℕ) (x y : ℕ → ℝ) (c : ℝ) (v u : ℕ → ℝ) :
    form n n' (fun j i => c * (x j * y i)) v u =
      c * ((∑ j ∈ Finset.range n, x j * v j) * ∑ i ∈ Finset.range n', y i * u i) := by
  unfold form
  rw [Finset.sum_mul_sum, Finset.mul_sum]
  refine Finset.sum_congr rfl fun j _ => ?_
  rw [Finset.mul_sum]
  exact Finset.sum_congr rfl fun i _ => by ring

theorem form_outer (n n' : ℕ) (x y : ℕ → ℝ) (v u : ℕ → ℝ) :
    form n n' (fun j i => x j * y i) v u =
      (∑ j ∈ Finset.range n, x j * v j) * ∑ i ∈ Finset.range n', y i * u i := by
  simpa using form_mul n n' x y 1 v u

theorem form_add (n n' : ℕ) (a b : ℕ → ℕ → ℝ) (v u : ℕ → ℝ) :
    form n n' (fun j i => a j i + b j i) v u = form n n' a v u + form n n' b v u := by
  unfold form
  rw [← Finset.sum_add_distrib]
  refine Finset.sum_congr rfl fun j _ => ?_
  rw [← Finset.sum_add_distrib]
  exact Finset.sum_congr rfl fun i _ => by ring

theorem form_zero (n n' : ℕ) (v u : ℕ → ℝ) : form n n' (fun _ _ => 0) v u = 0 := by
  simp [form]

theorem form_fin_sum {K : Type} [Fintype K] (n n' : ℕ) (a : K → ℕ → ℕ → ℝ) (v u : ℕ → ℝ) :
    form n n' (fun j i => ∑ k, a k j i) v u = ∑ k, form n n' (a k) v u := by
  simpa using form_sum n n' (fun _ => (1 : ℝ)) a v u

variable [Fintype E] [Fintype F] [Fintype G] [DecidableEq E]

/-- A tested product, element by element and face by face. -/
theorem pair_multiply (m : Mesh d E F G) (K : Integrands d) (V U : Vec E) :
    pair m V (multiply m K U) =
      (∑ e, ∑ q, (m.elem e q).weight * form (m.nb e) (m.nb e) (K.elem (m.elem e q)) (V e) (U e)) +
      (∑ f, ∑ q, (m.inner f q).weight *
        (form (m.nb (m.left f)) (m.nb (m.left f)) (K.inner (m.inner f q) .left .left)
          (V (m.left f)) (U (m.left f)) +
        form (m.nb (m.left f)) (m.nb (m.right f)) (K.inner (m.inner f q) .left .right)
          (V (m.left f)) (U (m.right f)) +
        form (m.nb (m.right f)) (m.nb (m.left f)) (K.inner (m.inner f q) .right .left)
          (V (m.right f)) (U (m.left f)) +
        form (m.nb (m.right f)) (m.nb (m.right f)) (K.inner (m.inner f q) .right .right)
          (V (m.right f)) (U (m.right f)))) +
      ∑ g, ∑ q, (m.boundary g q).weight *
        form (m.nb (m.inside g)) (m.nb (m.inside g)) (K.boundary (m.boundary g q))
          (V (m.inside g)) (U (m.inside g)) := by
  have one : ∀ (e : E) (x : E) (r : ℕ → ℝ), ∑ j ∈ Finset.range (m.nb e),
      V e j * (if x = e then r j else 0) =
      if x = e then ∑ j ∈ Finset.range (m.nb x), V x j * r j else 0 := by
    intro e x r
    by_cases h : x = e
    · subst h; simp
    · simp [h]
  have split : ∀ e, ∑ j ∈ Finset.range (m.nb e), V e j * multiply m K U e j =
      (∑ j ∈ Finset.range (m.nb e), V e j * times (m.nb e) (elementMatrix m K e) (U e) j) +
      (∑ f, ((if m.left f = e then ∑ j ∈ Finset.range (m.nb (m.left f)), V (m.left f) j *
          (times (m.nb (m.left f)) (innerMatrix m K f .left .left) (U (m.left f)) j +
          times (m.nb (m.right f)) (innerMatrix m K f .left .right) (U (m.right f)) j) else 0) +
        if m.right f = e then ∑ j ∈ Finset.range (m.nb (m.right f)), V (m.right f) j *
          (times (m.nb (m.left f)) (innerMatrix m K f .right .left) (U (m.left f)) j +
          times (m.nb (m.right f)) (innerMatrix m K f .right .right) (U (m.right f)) j) else 0)) +
      ∑ g, if m.inside g = e then ∑ j ∈ Finset.range (m.nb (m.inside g)), V (m.inside g) j *
        times (m.nb (m.inside g)) (boundaryMatrix m K g) (U (m.inside g)) j else 0 := by
    intro e
    simp only [← one]
    unfold multiply
    simp only [mul_add, Finset.mul_sum, Finset.sum_add_distrib]
    congr 1
    · congr 1
      congr 1
      · rw [Finset.sum_comm]
      · rw [Finset.sum_comm]
    · rw [Finset.sum_comm]
  unfold pair
  rw [Finset.sum_congr rfl fun e _ => split e]
  simp only [Finset.sum_add_distrib]
  congr 1
  · congr 1
    · refine Finset.sum_congr rfl fun e _ => ?_
      rw [form_times]
      exact form_sum _ _ (fun q => (m.elem e q).weight) (fun q => K.elem (m.elem e q)) _ _
    · rw [Finset.sum_comm (s := Finset.univ (α := E)), Finset.sum_comm (s := Finset.univ (α := E))]
      simp only [Finset.sum_ite_eq, Finset.mem_univ, if_true]
      rw [← Finset.sum_add_distrib]
      refine Finset.sum_congr rfl fun f _ => ?_
      simp only [mul_add, Finset.sum_add_distrib, form_times]
      have h : ∀ s s' (n n' : ℕ) (v u : ℕ → ℝ), form n n' (innerMatrix m K f s s') v u =
          ∑ q, (m.inner f q).weight * form n n' (K.inner (m.inner f q) s s') v u :=
        fun s s' n n' v u => form_sum n n' (fun q => (m.inner f q).weight)
          (fun q => K.inner (m.inner f q) s s') v u
      simp only [h]
      ring
  · rw [Finset.sum_comm]
    simp only [Finset.sum_ite_eq, Finset.mem_univ, if_true]
    refine Finset.sum_congr rfl fun g _ => ?_
    rw [form_times]
    exact form_sum _ _ (fun q => (m.boundary g q).weight) (fun q => K.boundary (m.boundary g q)) _ _

omit [Fintype F] [Fintype G] [DecidableEq E] in
theorem pair_mass (m : Mesh d E F G) (V D : Vec E) :
    pair m V (fun e i => times (m.nb e) (mass m e) (D e) i) =
      ∑ e, ∑ q, (m.elem e q).weight * (value (m.nb e) (m.elem e q).toTrace (V e) *
        value (m.nb e) (m.elem e q).toTrace (D e)) := by
  unfold pair
  refine Finset.sum_congr rfl fun e _ => ?_
  rw [form_times]
  have := form_sum (m.nb e) (m.nb e) (fun q => (m.elem e q).weight)
    (fun q j i => (m.elem e q).phi j * (m.elem e q).phi i) (V e) (D e)
  simp only [form_outer] at this
  exact this

end Verif.DgMesh
