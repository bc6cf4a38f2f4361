import Verif.HEuler.Spec
import Mathlib.Tactic.Ring
import Mathlib.Tactic.Linarith
import Mathlib.Tactic.NormNum
import Mathlib.Tactic.LinearCombination
import Mathlib.Algebra.Order.BigOperators.Group.List
import Mathlib.Algebra.BigOperators.Ring.List
import Mathlib.Algebra.BigOperators.Field
import Mathlib.Tactic.Positivity

/-!
# Helpers: the assembled matrices as bilinear forms of fields
-/

namespace Verif.HEuler

open Finset Matrix

set_option linter.all false

variable {E nb : Nat}

section
variable {ι κ : Type} [Fintype ι] [Fintype κ] [DecidableEq ι] [DecidableEq κ]

/-- `v · A p` as a function of `A`. -/
def bil (v : ι → ℝ) (p : κ → ℝ) : Matrix ι κ ℝ →+ ℝ where
  toFun A := v ⬝ᵥ A *ᵥ p
  map_zero' := by simp
  map_add' A B := by rw [add_mulVec, dotProduct_add]

theorem bil_apply (v : ι → ℝ) (p : κ → ℝ) (A : Matrix ι κ ℝ) : bil v p A = v ⬝ᵥ A *ᵥ p := rfl

theorem bil_single (v : ι → ℝ) (p : κ → ℝ) (a : ι) (b : κ) (x : ℝ) :
    bil v p (single a b x) = v a * x * p b := by
  rw [bil_apply, single_mulVec, dotProduct]
  simp only [Function.update_apply, Pi.zero_apply]
  rw [Finset.sum_eq_single a]
  · simp; ring
  · intro c _ hc; simp [hc]
  · simp

theorem bil_list (v : ι → ℝ) (p : κ → ℝ) {α : Type} (l : List α) (f : α → Matrix ι κ ℝ) :
    bil v p ((l.map f).sum) = (l.map fun a => bil v p (f a)).sum := by
  rw [map_list_sum, List.map_map]; rfl

theorem dot_ext {x y : ι → ℝ} (h : ∀ v, v ⬝ᵥ x = v ⬝ᵥ y) : x = y := by
  funext a
  have := h (Pi.single a 1)
  simpa using this
end

theorem sum_list {α : Type} {ι : Type} (s : Finset ι) (l : List α) (f : ι → α → ℝ) :
    ∑ j ∈ s, (l.map (f j)).sum = (l.map fun q => ∑ j ∈ s, f j q).sum := by
  induction l with
  | nil => simp
  | cons a l ih => simp only [List.map_cons, List.sum_cons, Finset.sum_add_distrib, ih]

theorem tri (A B : Fin 3 → Fin nb → ℝ) :
    ∑ j, ∑ i, ∑ k, A k j * B k i = ∑ k, (∑ j, A k j) * ∑ i, B k i := by
  simp only [Finset.sum_mul_sum]
  have h1 : ∀ j, ∑ i, ∑ k, A k j * B k i = ∑ k, ∑ i, A k j * B k i := fun j => Finset.sum_comm
  simp only [h1]
  exact Finset.sum_comm

theorem list_neg {α : Type} (l : List α) (f : α → ℝ) : (l.map fun q => -f q).sum = -(l.map f).sum := by
  induction l with
  | nil => simp
  | cons a l ih => simp only [List.map_cons, List.sum_cons, ih]; ring

theorem list_sub {α : Type} (l : List α) (f g : α → ℝ) :
    (l.map fun q => f q - g q).sum = (l.map f).sum - (l.map g).sum := by
  induction l with
  | nil => simp
  | cons a l ih => simp only [List.map_cons, List.sum_cons, ih]; ring

theorem list_mul {α : Type} (l : List α) (f : α → ℝ) (a b : ℝ) :
    a * (l.map f).sum * b = (l.map fun q => a * f q * b).sum := by
  induction l with
  | nil => simp
  | cons c l ih => simp only [List.map_cons, List.sum_cons, ← ih]; ring

/-- A triple sum of integrals. -/
theorem tri_list {α : Type} (l : List α) (f : Fin nb → Fin nb → Fin 3 → α → ℝ)
    (A B : α → Fin 3 → Fin nb → ℝ) (h : ∀ j i k q, f j i k q = A q k j * B q k i) :
    ∑ j, ∑ i, ∑ k, (l.map (f j i k)).sum = (l.map fun q => ∑ k, (∑ j, A q k j) * ∑ i, B q k i).sum := by
  simp only [sum_list]
  congr 1
  apply List.map_congr_left
  intro q _
  rw [← tri]
  simp only [h]

theorem bil_elemBF (m : Mesh E nb) (e : Fin E) (v : VIdx E nb → ℝ) (p : PIdx E nb → ℝ) :
    bil v p (elemBF m e) =
      -((m.elem e).map fun q => q.w * ∑ k, velAt v k e q.phi * derivAt p e q.grad k).sum := by
  simp only [elemBF, map_sum, bil_single]
  have h : ∀ j i k, v (k, e, j) * -gradMass m e k i j * p (e, i) =
      ((m.elem e).map fun q => -(q.w * (v (k, e, j) * q.phi j)) * (p (e, i) * q.grad i k)).sum := by
    intro j i k
    rw [gradMass, ← list_neg, list_mul]
    congr 1
    apply List.map_congr_left
    intro q _
    ring
  simp only [h]
  rw [tri_list (m.elem e) (fun j i k q => -(q.w * (v (k, e, j) * q.phi j)) * (p (e, i) * q.grad i k))
    (fun q k j => -(q.w * (v (k, e, j) * q.phi j))) (fun q k i => p (e, i) * q.grad i k)
    (fun _ _ _ _ => rfl), ← list_neg]
  congr 1
  apply List.map_congr_left
  intro q _
  rw [Finset.mul_sum, ← Finset.sum_neg_distrib]
  apply Finset.sum_congr rfl
  intro k _
  rw [velAt, fieldAt, derivAt, Finset.sum_neg_distrib, ← Finset.mul_sum]
  ring

theorem bil_elemDIV (m : Mesh E nb) (e : Fin E) (v : VIdx E nb → ℝ) (p : PIdx E nb → ℝ) :
    bil p v (elemDIV m e) =
      ((m.elem e).map fun q => q.w * ∑ k, velAt v k e q.phi * derivAt p e q.grad k).sum := by
  simp only [elemDIV, map_sum, bil_single]
  have h : ∀ j i k, p (e, j) * gradMass m e k j i * v (k, e, i) =
      ((m.elem e).map fun q => (q.w * (p (e, j) * q.grad j k)) * (v (k, e, i) * q.phi i)).sum := by
    intro j i k
    rw [gradMass, list_mul]
    congr 1
    apply List.map_congr_left
    intro q _
    ring
  simp only [h]
  rw [tri_list (m.elem e) (fun j i k q => (q.w * (p (e, j) * q.grad j k)) * (v (k, e, i) * q.phi i))
    (fun q k j => (q.w * (p (e, j) * q.grad j k))) (fun q k i => v (k, e, i) * q.phi i)
    (fun _ _ _ _ => rfl)]
  congr 1
  apply List.map_congr_left
  intro q _
  rw [Finset.mul_sum]
  apply Finset.sum_congr rfl
  intro k _
  rw [velAt, fieldAt, derivAt, ← Finset.mul_sum]
  ring

/-- The integral of one block of face data, tested. -/
theorem tri_face (f : Face E nb) (d : FPoint nb → Fin 3 → Fin nb → Fin nb → ℝ) (s : ℝ)
    (a : Fin 3 → Fin nb → ℝ) (b : Fin 3 → Fin nb → ℝ) (A B : FPoint nb → Fin nb → ℝ)
    (hd : ∀ q k j i, d q k j i = s * q.n k * A q j * B q i) :
    ∑ j, ∑ i, ∑ k, a k j * (fInt f fun q => d q k j i) * b k i =
      (f.pts.map fun q => q.w * ∑ k, s * q.n k * ((∑ j, a k j * A q j) * ∑ i, b k i * B q i)).sum := by
  have h : ∀ j i k, a k j * (fInt f fun q => d q k j i) * b k i =
      (f.pts.map fun q => (q.w * s * q.n k * (a k j * A q j)) * (b k i * B q i)).sum := by
    intro j i k
    rw [fInt, list_mul]
    congr 1
    apply List.map_congr_left
    intro q _
    rw [hd]; ring
  simp only [h]
  rw [tri_list _ _ (fun q k j => q.w * s * q.n k * (a k j * A q j)) (fun q k i => b k i * B q i)
    (fun _ _ _ _ => rfl)]
  congr 1
  apply List.map_congr_left
  intro q _
  rw [Finset.mul_sum]
  apply Finset.sum_congr rfl
  intro k _
  rw [← Finset.mul_sum]
  ring

theorem theta_eq : theta = 1 / 2 := by rw [theta]; norm_num

theorem bil_faceBF (f : Face E nb) (v : VIdx E nb → ℝ) (p : PIdx E nb → ℝ) :
    bil v p (faceBF f) = (f.pts.map fun q => q.w *
      ((∑ k, (velAt v k f.left q.phiL + velAt v k f.right q.phiR) / 2 * q.n k) *
      (fieldAt p f.left q.phiL - fieldAt p f.right q.phiR))).sum := by
  simp only [faceBF, map_sum, map_add, bil_single, Finset.sum_add_distrib, mul_neg, neg_mul,
    Finset.sum_neg_distrib]
  rw [tri_face f (fun q k j i => rightData q 0 k j i) (1/2) (fun k j => v (k, f.right, j))
      (fun _ i => p (f.left, i)) (fun q => q.phiR) (fun q => q.phiL)
      (by intros; simp only [rightData, theta_eq]; ring),
    tri_face f (fun q k j i => rightData q 1 k j i) (1/2) (fun k j => v (k, f.right, j))
      (fun _ i => p (f.right, i)) (fun q => q.phiR) (fun q => q.phiR)
      (by intros; simp only [rightData, theta_eq]; ring),
    tri_face f (fun q k j i => leftData q 0 k j i) (1/2) (fun k j => v (k, f.left, j))
      (fun _ i => p (f.left, i)) (fun q => q.phiL) (fun q => q.phiL)
      (by intros; simp only [leftData, theta_eq]; ring),
    tri_face f (fun q k j i => leftData q 1 k j i) (1/2) (fun k j => v (k, f.left, j))
      (fun _ i => p (f.right, i)) (fun q => q.phiL) (fun q => q.phiR)
      (by intros; simp only [leftData, theta_eq]; ring)]
  rw [← list_neg, ← list_neg, ← List.sum_map_add, ← List.sum_map_add, ← List.sum_map_add]
  congr 1
  apply List.map_congr_left
  intro q _
  simp only [velAt, fieldAt]
  rw [Fin.sum_univ_three, Fin.sum_univ_three, Fin.sum_univ_three, Fin.sum_univ_three,
    Fin.sum_univ_three]
  ring

theorem bil_faceDIV (f : Face E nb) (v : VIdx E nb → ℝ) (p : PIdx E nb → ℝ) :
    bil p v (faceDIV f) = -(f.pts.map fun q => q.w *
      ((∑ k, (velAt v k f.left q.phiL + velAt v k f.right q.phiR) / 2 * q.n k) *
      (fieldAt p f.left q.phiL - fieldAt p f.right q.phiR))).sum := by
  simp only [faceDIV, map_sum, map_add, bil_single, Finset.sum_add_distrib, mul_neg, neg_mul,
    Finset.sum_neg_distrib]
  rw [tri_face f (fun q k j i => rightData q 2 k j i) (1/2) (fun _ j => p (f.right, j))
      (fun k i => v (k, f.left, i)) (fun q => q.phiR) (fun q => q.phiL)
      (by intros; simp only [rightData, theta_eq]; ring),
    tri_face f (fun q k j i => leftData q 2 k j i) (1/2) (fun _ j => p (f.left, j))
      (fun k i => v (k, f.left, i)) (fun q => q.phiL) (fun q => q.phiL)
      (by intros; simp only [leftData, theta_eq]; ring),
    tri_face f (fun q k j i => rightData q 3 k j i) (1/2) (fun _ j => p (f.right, j))
      (fun k i => v (k, f.right, i)) (fun q => q.phiR) (fun q => q.phiR)
      (by intros; simp only [rightData, theta_eq]; ring),
    tri_face f (fun q k j i => leftData q 3 k j i) (1/2) (fun _ j => p (f.left, j))
      (fun k i => v (k, f.right, i)) (fun q => q.phiL) (fun q => q.phiR)
      (by intros; simp only [leftData, theta_eq]; ring)]
  rw [← list_neg, ← list_neg, ← list_neg, ← List.sum_map_add, ← List.sum_map_add, ← List.sum_map_add]
  congr 1
  apply List.map_congr_left
  intro q _
  simp only [velAt, fieldAt]
  rw [Fin.sum_univ_three, Fin.sum_univ_three, Fin.sum_univ_three, Fin.sum_univ_three,
    Fin.sum_univ_three]
  ring

theorem grad_form (m : Mesh E nb) (v : VIdx E nb → ℝ) (p : PIdx E nb → ℝ) :
    v ⬝ᵥ BF m *ᵥ p = -weakDiv m v p := by
  rw [← bil_apply, BF, map_add, map_sum, bil_list]
  simp only [bil_elemBF, bil_faceBF, weakDiv, integral, faceIntegral, Finset.sum_neg_distrib]
  ring

theorem div_form (m : Mesh E nb) (v : VIdx E nb → ℝ) (p : PIdx E nb → ℝ) :
    p ⬝ᵥ DIV m *ᵥ v = weakDiv m v p := by
  rw [← bil_apply, DIV, map_add, map_sum, bil_list]
  simp only [bil_elemDIV, bil_faceDIV, weakDiv, integral, faceIntegral, list_neg]
  ring

/-! ### Mass matrices -/

/-- The mass matrix of the density. -/
def MP (m : Mesh E nb) : Matrix (PIdx E nb) (PIdx E nb) ℝ :=
  Matrix.of fun a b => if a.1 = b.1 then mass m a.1 a.2 b.2 else 0

/-- The mass matrix of the velocity. -/
def MV (m : Mesh E nb) : Matrix (VIdx E nb) (VIdx E nb) ℝ :=
  Matrix.of fun a b => if a.1 = b.1 ∧ a.2.1 = b.2.1 then mass m a.2.1 a.2.2 b.2.2 else 0

theorem MInvSm_apply (inv : Fin E → Matrix (Fin nb) (Fin nb) ℝ) (a b : PIdx E nb) :
    MInvSm inv a b = if a.1 = b.1 then inv a.1 a.2 b.2 else 0 := by
  obtain ⟨e, j⟩ := a
  obtain ⟨e', i⟩ := b
  simp only [MInvSm, Matrix.sum_apply, single_apply, Prod.mk.injEq]
  rw [Finset.sum_eq_single e]
  · rw [Finset.sum_eq_single j]
    · rw [Finset.sum_eq_single i]
      · simp
      · intro x _ hx; rw [if_neg]; rintro ⟨_, _, h⟩; exact hx h
      · simp
    · intro x _ hx
      apply Finset.sum_eq_zero
      intro y _
      rw [if_neg]; rintro ⟨⟨_, h⟩, _⟩; exact hx h
    · simp
  · intro x _ hx
    apply Finset.sum_eq_zero; intro y _
    apply Finset.sum_eq_zero; intro z _
    rw [if_neg]; rintro ⟨⟨h, _⟩, _⟩; exact hx h
  · simp

theorem MInv_apply (inv : Fin E → Matrix (Fin nb) (Fin nb) ℝ) (a b : VIdx E nb) :
    MInv inv a b = if a.1 = b.1 ∧ a.2.1 = b.2.1 then inv a.2.1 a.2.2 b.2.2 else 0 := by
  obtain ⟨k, e, j⟩ := a
  obtain ⟨k', e', i⟩ := b
  simp only [MInv, Matrix.sum_apply, single_apply, Prod.mk.injEq]
  rw [Finset.sum_eq_single e]
  · rw [Finset.sum_eq_single j]
    · rw [Finset.sum_eq_single i]
      · rw [Finset.sum_eq_single k]
        · simp
        · intro x _ hx; rw [if_neg]; rintro ⟨⟨h, _⟩, _⟩; exact hx h
        · simp
      · intro x _ hx
        apply Finset.sum_eq_zero; intro y _
        rw [if_neg]; rintro ⟨_, _, _, h⟩; exact hx h
      · simp
    · intro x _ hx
      apply Finset.sum_eq_zero; intro y _
      apply Finset.sum_eq_zero; intro z _
      rw [if_neg]; rintro ⟨⟨_, _, h⟩, _⟩; exact hx h
    · simp
  · intro x _ hx
    apply Finset.sum_eq_zero; intro y _
    apply Finset.sum_eq_zero; intro z _
    apply Finset.sum_eq_zero; intro t _
    rw [if_neg]; rintro ⟨⟨_, h, _⟩, _⟩; exact hx h
  · simp

theorem inv_entry (m : Mesh E nb) (inv : Fin E → Matrix (Fin nb) (Fin nb) ℝ) (h : Inverse m inv)
    (e : Fin E) (i j : Fin nb) : ∑ l, mass m e i l * inv e l j = if i = j then 1 else 0 := by
  have := congrFun (congrFun (h e) i) j
  rw [Matrix.mul_apply, Matrix.one_apply] at this
  exact this

theorem MP_MInvSm (m : Mesh E nb) (inv : Fin E → Matrix (Fin nb) (Fin nb) ℝ) (h : Inverse m inv) :
    MP m * MInvSm inv = 1 := by
  ext ⟨e, i⟩ ⟨e', j⟩
  rw [Matrix.mul_apply, Fintype.sum_prod_type, Finset.sum_eq_single e]
  · simp only [MP, of_apply, MInvSm_apply, if_true]
    by_cases he : e = e'
    · subst he
      simp only [if_true]
      rw [inv_entry m inv h, Matrix.one_apply]
      simp
    · simp [he, Matrix.one_apply]
  · intro x _ hx
    apply Finset.sum_eq_zero; intro y _
    simp only [MP, of_apply, if_neg (Ne.symm hx), zero_mul]
  · simp

theorem MV_MInv (m : Mesh E nb) (inv : Fin E → Matrix (Fin nb) (Fin nb) ℝ) (h : Inverse m inv) :
    MV m * MInv inv = 1 := by
  ext ⟨k, e, i⟩ ⟨k', e', j⟩
  rw [Matrix.mul_apply, Fintype.sum_prod_type, Finset.sum_eq_single k]
  · rw [Fintype.sum_prod_type, Finset.sum_eq_single e]
    · simp only [MV, of_apply, MInv_apply, if_true, and_self, true_and]
      by_cases he : k = k' ∧ e = e'
      · obtain ⟨rfl, rfl⟩ := he
        simp only [if_true, and_self]
        rw [inv_entry m inv h, Matrix.one_apply]
        simp
      · rw [Matrix.one_apply, if_neg (by rintro h; simp only [Prod.mk.injEq] at h; exact he ⟨h.1, h.2.1⟩)]
        simp [he]
    · intro x _ hx
      apply Finset.sum_eq_zero; intro y _
      simp only [MV, of_apply]
      rw [if_neg (by rintro ⟨_, h⟩; exact hx h.symm), zero_mul]
    · simp
  · intro x _ hx
    apply Finset.sum_eq_zero; intro y _
    simp only [MV, of_apply]
    rw [if_neg (by rintro ⟨h, _⟩; exact hx h.symm), zero_mul]
  · simp

theorem mass_form (m : Mesh E nb) (e : Fin E) (a b : Fin nb → ℝ) :
    ∑ i, ∑ j, a i * (mass m e i j * b j) =
      ((m.elem e).map fun q => q.w * ((∑ i, a i * q.phi i) * ∑ j, b j * q.phi j)).sum := by
  have h : ∀ i j, a i * (mass m e i j * b j) =
      ((m.elem e).map fun q => q.w * ((a i * q.phi i) * (b j * q.phi j))).sum := by
    intro i j
    rw [← mul_assoc, mass, list_mul]
    congr 1
    apply List.map_congr_left
    intro q _; ring
  simp only [h, sum_list]
  congr 1
  apply List.map_congr_left
  intro q _
  rw [Finset.sum_mul_sum, Finset.mul_sum]
  apply Finset.sum_congr rfl
  intro i _
  rw [Finset.mul_sum]

theorem MP_form (m : Mesh E nb) (a b : PIdx E nb → ℝ) :
    a ⬝ᵥ MP m *ᵥ b = integral m fun e q => fieldAt a e q.phi * fieldAt b e q.phi := by
  rw [dotProduct, Fintype.sum_prod_type, integral]
  apply Finset.sum_congr rfl
  intro e _
  rw [show (fun q : EPoint nb => q.w * (fieldAt a e q.phi * fieldAt b e q.phi)) = fun q =>
    q.w * ((∑ i, a (e, i) * q.phi i) * ∑ j, b (e, j) * q.phi j) from rfl, ← mass_form]
  apply Finset.sum_congr rfl
  intro i _
  rw [mulVec, dotProduct, Fintype.sum_prod_type, Finset.sum_eq_single e, Finset.mul_sum]
  · simp [MP]
  · intro x _ hx
    apply Finset.sum_eq_zero; intro y _
    simp only [MP, of_apply, if_neg (Ne.symm hx), zero_mul]
  · simp

theorem MV_form (m : Mesh E nb) (a b : VIdx E nb → ℝ) :
    a ⬝ᵥ MV m *ᵥ b = integral m fun e q => ∑ k, velAt a k e q.phi * velAt b k e q.phi := by
  have h : a ⬝ᵥ MV m *ᵥ b = ∑ k, (fun x => a (k, x)) ⬝ᵥ MP m *ᵥ (fun x => b (k, x)) := by
    rw [dotProduct, Fintype.sum_prod_type]
    apply Finset.sum_congr rfl
    intro k _
    rw [dotProduct]
    apply Finset.sum_congr rfl
    intro x _
    congr 1
    rw [mulVec, dotProduct, Fintype.sum_prod_type, Finset.sum_eq_single k, mulVec, dotProduct]
    · simp [MP, MV]
    · intro y _ hy
      apply Finset.sum_eq_zero; intro z _
      simp only [MV, of_apply]
      rw [if_neg (by rintro ⟨h, _⟩; exact hy h.symm), zero_mul]
    · simp
  rw [h]
  simp only [MP_form, integral]
  rw [Finset.sum_comm]
  apply Finset.sum_congr rfl
  intro e _
  rw [sum_list]
  congr 1
  apply List.map_congr_left
  intro q _
  rw [Finset.mul_sum]
  rfl

theorem MP_symm (m : Mesh E nb) (a b : PIdx E nb → ℝ) : a ⬝ᵥ MP m *ᵥ b = b ⬝ᵥ MP m *ᵥ a := by
  rw [MP_form, MP_form]; simp only [mul_comm]

theorem MV_symm (m : Mesh E nb) (a b : VIdx E nb → ℝ) : a ⬝ᵥ MV m *ᵥ b = b ⬝ᵥ MV m *ᵥ a := by
  rw [MV_form, MV_form]; simp only [mul_comm]

theorem mass_symm (m : Mesh E nb) (e : Fin E) (i j : Fin nb) : mass m e i j = mass m e j i := by
  simp only [mass, mul_comm]

/-- Rotation does no work. -/
theorem C_skew (m : Mesh E nb) (v : VIdx E nb → ℝ) : v ⬝ᵥ C m *ᵥ v = 0 := by
  rw [← bil_apply, C]
  simp only [map_sum, map_add, bil_single, Finset.sum_add_distrib]
  rw [← Finset.sum_add_distrib]
  apply Finset.sum_eq_zero
  intro e _
  rw [Finset.sum_comm, ← Finset.sum_add_distrib]
  apply Finset.sum_eq_zero
  intro i _
  rw [← Finset.sum_add_distrib]
  apply Finset.sum_eq_zero
  intro j _
  rw [mass_symm m e j i]
  ring

theorem kinetic_form (m : Mesh E nb) (u : VIdx E nb → ℝ) : kinetic m u = u ⬝ᵥ MV m *ᵥ u / 2 := by
  rw [MV_form, kinetic, integral, integral, Finset.sum_div]
  apply Finset.sum_congr rfl
  intro e _
  rw [show ∀ x : ℝ, x / 2 = 1 * x * (1/2) by intro x; ring, list_mul]
  congr 1
  apply List.map_congr_left
  intro q _
  simp only [pow_two]
  ring

theorem energy_form (m : Mesh E nb) (u : VIdx E nb → ℝ) (ρ : PIdx E nb → ℝ) :
    energy m u ρ = u ⬝ᵥ MV m *ᵥ u / 2 + ρ ⬝ᵥ MP m *ᵥ ρ / 2 := by
  rw [energy, kinetic_form, MP_form, integral, integral, Finset.sum_div]
  congr 1
  apply Finset.sum_congr rfl
  intro e _
  rw [show ∀ x : ℝ, x / 2 = 1 * x * (1/2) by intro x; ring, list_mul]
  congr 1
  apply List.map_congr_left
  intro q _
  ring

theorem energy_zero (m : Mesh E nb) (hr : Resolves m) (u : VIdx E nb → ℝ) (ρ : PIdx E nb → ℝ)
    (h : energy m u ρ = 0) : u = 0 ∧ ρ = 0 := by
  have h1 : energy m u ρ = ∑ e, ((m.elem e).map fun q => q.w *
      ((∑ k, velAt u k e q.phi ^ 2) / 2 + fieldAt ρ e q.phi ^ 2 / 2)).sum := by
    rw [energy, kinetic, integral, integral, ← Finset.sum_add_distrib]
    apply Finset.sum_congr rfl
    intro e _
    rw [← List.sum_map_add]
    congr 1
    apply List.map_congr_left
    intro q _
    ring
  rw [h1] at h
  have hpt : ∀ e, ∀ q ∈ m.elem e, 0 ≤ q.w *
      ((∑ k, velAt u k e q.phi ^ 2) / 2 + fieldAt ρ e q.phi ^ 2 / 2) := by
    intro e q hq
    have := hr.1 e q hq
    positivity
  have hnn : ∀ e ∈ (univ : Finset (Fin E)), 0 ≤ ((m.elem e).map fun q => q.w *
      ((∑ k, velAt u k e q.phi ^ 2) / 2 + fieldAt ρ e q.phi ^ 2 / 2)).sum := by
    intro e _
    apply List.sum_nonneg
    intro x hx
    obtain ⟨q, hq, rfl⟩ := List.mem_map.1 hx
    exact hpt e q hq
  rw [Finset.sum_eq_zero_iff_of_nonneg hnn] at h
  have hz : ∀ e, ∀ q ∈ m.elem e, (∀ k, velAt u k e q.phi = 0) ∧ fieldAt ρ e q.phi = 0 := by
    intro e q hq
    have he := h e (mem_univ e)
    have h0 : q.w * ((∑ k, velAt u k e q.phi ^ 2) / 2 + fieldAt ρ e q.phi ^ 2 / 2) = 0 := by
      apply le_antisymm _ (hpt e q hq)
      rw [← he]
      apply List.single_le_sum
      · intro x hx
        obtain ⟨q', hq', rfl⟩ := List.mem_map.1 hx
        exact hpt e q' hq'
      · exact List.mem_map.2 ⟨q, hq, rfl⟩
    have hw := hr.1 e q hq
    have h2 : (∑ k, velAt u k e q.phi ^ 2) / 2 + fieldAt ρ e q.phi ^ 2 / 2 = 0 := by
      rcases mul_eq_zero.1 h0 with h | h
      · exact absurd h hw.ne'
      · exact h
    have hs : 0 ≤ ∑ k, velAt u k e q.phi ^ 2 := Finset.sum_nonneg fun k _ => sq_nonneg _
    have hs2 := sq_nonneg (fieldAt ρ e q.phi)
    constructor
    · intro k
      have : ∑ k, velAt u k e q.phi ^ 2 = 0 := by linarith
      rw [Finset.sum_eq_zero_iff_of_nonneg (fun k _ => sq_nonneg _)] at this
      exact pow_eq_zero_iff (two_ne_zero) |>.1 (this k (mem_univ k))
    · have : fieldAt ρ e q.phi ^ 2 = 0 := by linarith
      exact pow_eq_zero_iff (two_ne_zero) |>.1 this
  constructor
  · funext ⟨k, e, j⟩
    exact congrFun (hr.2 e (fun j => u (k, e, j)) fun q hq => (hz e q hq).1 k) j
  · funext ⟨e, j⟩
    exact congrFun (hr.2 e (fun j => ρ (e, j)) fun q hq => (hz e q hq).2) j

end Verif.HEuler
