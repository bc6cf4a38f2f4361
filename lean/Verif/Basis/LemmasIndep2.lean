import Verif.Basis.LemmasIndep
import Mathlib.Algebra.BigOperators.Fin
import Mathlib.Algebra.BigOperators.Group.Finset.Basic
import Mathlib.Algebra.BigOperators.Ring.Finset
import Mathlib.Data.Real.Basic

set_option linter.all false
namespace Verif.Basis
open Verif.RefGeometry
open Verif.Legendre (lobatto lobattoDeriv)
open Finset

/-! ### Lobatto polynomials and their products -/

theorem lob5 (c : Nat → ℝ) (h : ∀ x : ℝ, |x| ≤ 1 / 8 → ∑ i ∈ range 5, c i * lobatto i x = 0) : ∀ i < 5, c i = 0 := by
  obtain ⟨k0, n0, e0⟩ := lob_forms 0 (by omega)
  obtain ⟨k1, n1, e1⟩ := lob_forms 1 (by omega)
  obtain ⟨k2, n2, e2⟩ := lob_forms 2 (by omega)
  obtain ⟨k3, n3, e3⟩ := lob_forms 3 (by omega)
  obtain ⟨k4, n4, e4⟩ := lob_forms 4 (by omega)
  simp only at e0 e1 e2 e3 e4
  have fin : ∀ i k : ℝ, k ≠ 0 → i * k = 0 → i = 0 := fun i k hk h =>
    (mul_eq_zero.1 h).resolve_right hk
  have p0 := h 0 (by norm_num)
  have p1 := h (1 / 8) (by norm_num [abs_le])
  have p2 := h (-1 / 8) (by norm_num [abs_le])
  have p3 := h (1 / 16) (by norm_num [abs_le])
  have p4 := h (-1 / 16) (by norm_num [abs_le])
  simp only [sum_range_succ, range_zero, sum_empty, e0, e1, e2, e3, e4] at p0 p1 p2 p3 p4
  intro i hi
  interval_cases i
  all_goals first
    | (apply fin _ k0 n0; linarith)
    | (apply fin _ k1 n1; linarith)
    | (apply fin _ k2 n2; linarith)
    | (apply fin _ k3 n3; linarith)
    | (apply fin _ k4 n4; linarith)

theorem lob5' (c : Nat → ℝ) (h : ∀ x : ℝ, |x| ≤ 1 / 8 → ∃ K : ℝ, K ≠ 0 ∧ ∑ i ∈ range 5, c i * (K * lobatto i x) = 0) :
    ∀ i < 5, c i = 0 := by
  refine lob5 c fun x hx => ?_
  obtain ⟨K, hK, e⟩ := h x hx
  rw [show ∑ i ∈ range 5, c i * (K * lobatto i x) = K * ∑ i ∈ range 5, c i * lobatto i x by
    rw [mul_sum]; exact sum_congr rfl fun i _ => by ring] at e
  exact (mul_eq_zero.1 e).resolve_left hK

theorem lob55 (c : Nat → Nat → ℝ) (h : ∀ x y : ℝ, |x| ≤ 1 / 8 → |y| ≤ 1 / 8 → ∃ K : ℝ, K ≠ 0 ∧
      ∑ i ∈ range 5, ∑ j ∈ range 5, c i j * (K * lobatto i x * lobatto j y) = 0) :
    ∀ i < 5, ∀ j < 5, c i j = 0 := by
  intro i hi
  refine lob5 (c i) fun y hy => ?_
  refine lob5' (fun i => ∑ j ∈ range 5, c i j * lobatto j y) (fun x hx => ?_) i hi
  obtain ⟨K, hK, e⟩ := h x y hx hy
  refine ⟨K, hK, e ▸ sum_congr rfl fun i _ => ?_⟩
  rw [sum_mul]; exact sum_congr rfl fun j _ => by ring

theorem lob555 (c : Nat → Nat → Nat → ℝ) (h : ∀ x y z : ℝ, |x| ≤ 1 / 8 → |y| ≤ 1 / 8 → |z| ≤ 1 / 8 → ∃ K : ℝ, K ≠ 0 ∧
      ∑ i ∈ range 5, ∑ j ∈ range 5, ∑ k ∈ range 5, c i j k * (K * lobatto i x * lobatto j y * lobatto k z) = 0) :
    ∀ i < 5, ∀ j < 5, ∀ k < 5, c i j k = 0 := by
  intro i hi j hj
  refine lob5 (c i j) fun z hz => ?_
  refine lob55 (fun i j => ∑ k ∈ range 5, c i j k * lobatto k z) (fun x y hx hy => ?_) i hi j hj
  obtain ⟨K, hK, e⟩ := h x y z hx hy hz
  refine ⟨K, hK, e ▸ sum_congr rfl fun i _ => sum_congr rfl fun j _ => ?_⟩
  rw [sum_mul]; exact sum_congr rfl fun k _ => by ring

theorem lob_neg (k : Nat) (hk : k < 5) : ∃ s : ℝ, s ≠ 0 ∧ ∀ x, lobatto k (-x) = s * lobatto k x := by
  obtain ⟨K, hK, e⟩ := lob_forms k (by omega)
  interval_cases k
  · exact ⟨1, one_ne_zero, fun x => by simp only at e; rw [e, e]; ring⟩
  · exact ⟨-1, by norm_num, fun x => by simp only at e; rw [e, e]; ring⟩
  · exact ⟨1, one_ne_zero, fun x => by simp only at e; rw [e, e]; ring⟩
  · exact ⟨-1, by norm_num, fun x => by simp only at e; rw [e, e]; ring⟩
  · exact ⟨1, one_ne_zero, fun x => by simp only at e; rw [e, e]; ring⟩

/-! ### The functions of the line, and products of them -/

/-- The functions of the line in one count. -/
noncomputable def phi : Nat → ℝ → ℝ
  | 0, x => (1 - x) / 2
  | 1, x => (1 + x) / 2
  | i + 2, x => (1 - x) * (1 + x) * lobatto i x / 4

theorem phi7 (c : Nat → ℝ) (h : ∀ x : ℝ, |x| ≤ 1 → ∑ k ∈ range 7, c k * phi k x = 0) : ∀ k < 7, c k = 0 := by
  have key : ∀ x : ℝ, |x| ≤ 1 → ∑ i ∈ range 5, c (i + 2) * ((1 - x) * (1 + x) * lobatto i x / 4) + c 0 * ((1 - x) / 2) +
      c 1 * ((1 + x) / 2) = 0 := by
    intro x hx
    rw [← h x hx, sum_range_succ' _ 6, sum_range_succ' _ 5]
    simp only [phi]
    ring
  have c0 : c 0 = 0 := by
    have := key (-1) (by norm_num)
    norm_num at this
    exact this
  have c1 : c 1 = 0 := by
    have := key 1 (by norm_num)
    norm_num at this
    exact this
  have c2 := lob5' (fun i => c (i + 2)) (by
    intro x hx
    obtain ⟨h1, h2⟩ := abs_le.mp hx
    refine ⟨(1 - x) * (1 + x) / 4, ?_, ?_⟩
    · have : 0 < (1 - x) * (1 + x) := mul_pos (by linarith) (by linarith)
      positivity
    · have := key x (abs_le.mpr ⟨by linarith, by linarith⟩)
      rw [c0, c1] at this
      rw [← this]
      simp only [zero_mul, add_zero]
      exact sum_congr rfl fun i _ => by ring)
  intro k hk
  match k with
  | 0 => exact c0
  | 1 => exact c1
  | i + 2 => exact c2 i (by omega)

theorem phi77 (c : Nat → Nat → ℝ) (h : ∀ x y : ℝ, |x| ≤ 1 → |y| ≤ 1 →
      ∑ i ∈ range 7, ∑ j ∈ range 7, c i j * (phi i x * phi j y) = 0) : ∀ i < 7, ∀ j < 7, c i j = 0 := by
  intro i hi
  refine phi7 (c i) fun y hy => ?_
  refine phi7 (fun i => ∑ j ∈ range 7, c i j * phi j y) (fun x hx => ?_) i hi
  rw [← h x y hx hy]
  refine sum_congr rfl fun i _ => ?_
  rw [sum_mul]; exact sum_congr rfl fun j _ => by ring

theorem phi777 (c : Nat → Nat → Nat → ℝ) (h : ∀ x y z : ℝ, |x| ≤ 1 → |y| ≤ 1 → |z| ≤ 1 →
      ∑ i ∈ range 7, ∑ j ∈ range 7, ∑ k ∈ range 7, c i j k * (phi i x * phi j y * phi k z) = 0) :
    ∀ i < 7, ∀ j < 7, ∀ k < 7, c i j k = 0 := by
  intro i hi j hj
  refine phi7 (c i j) fun z hz => ?_
  refine phi77 (fun i j => ∑ k ∈ range 7, c i j k * phi k z) (fun x y hx hy => ?_) i hi j hj
  rw [← h x y z hx hy hz]
  refine sum_congr rfl fun i _ => sum_congr rfl fun j _ => ?_
  rw [sum_mul]; exact sum_congr rfl fun k _ => by ring

/-! ### Simplices, by their barycentric coordinates -/

/-- Barycentric coordinates of a point of a simplex. -/
def Bary {n : Nat} (w : Fin n → ℝ) : Prop := (∀ k, 0 ≤ w k) ∧ ∑ k, w k = 1

theorem simplex_edges {n E : Nat} (ea eb : Fin E → Fin n) (hab : ∀ e, ea e ≠ eb e)
    (hd : ∀ e e', e ≠ e' → (ea e' ≠ ea e ∧ ea e' ≠ eb e) ∨ (eb e' ≠ ea e ∧ eb e' ≠ eb e))
    (cv : Fin n → ℝ) (ce : Fin E → Nat → ℝ) (R : (Fin n → ℝ) → ℝ)
    (hR : ∀ w, (∃ A B, ∀ k, k ≠ A → k ≠ B → w k = 0) → R w = 0)
    (h : ∀ w, Bary w → ∑ v, cv v * w v +
      ∑ e, ∑ j ∈ range 5, ce e j * (w (ea e) * w (eb e) * lobatto j (w (ea e) - w (eb e))) + R w = 0) :
    (∀ v, cv v = 0) ∧ ∀ e, ∀ j < 5, ce e j = 0 := by
  have hv : ∀ v, cv v = 0 := by
    intro v
    have := h (fun k => if k = v then 1 else 0) ⟨fun k => by dsimp only; split <;> norm_num, by simp⟩
    rw [hR _ ⟨v, v, fun k hk _ => if_neg hk⟩] at this
    have z : ∀ e, ∀ j, ce e j * ((if ea e = v then (1 : ℝ) else 0) * (if eb e = v then 1 else 0) *
        lobatto j ((if ea e = v then (1 : ℝ) else 0) - (if eb e = v then 1 else 0))) = 0 := by
      intro e j
      by_cases h1 : ea e = v
      · rw [if_neg (fun h2 : eb e = v => hab e (h1.trans h2.symm))]; simp
      · rw [if_neg h1]; simp
    simp only [z] at this
    simpa using this
  refine ⟨hv, fun e => ?_⟩
  refine lob5' (ce e) fun x hx => ?_
  obtain ⟨h1, h2⟩ := abs_le.mp hx
  let w : Fin n → ℝ := fun k => (if k = ea e then (1 + x) / 2 else 0) + (if k = eb e then (1 - x) / 2 else 0)
  have wa : w (ea e) = (1 + x) / 2 := by simp [w, hab e]
  have wb : w (eb e) = (1 - x) / 2 := by simp [w, (hab e).symm]
  have wo : ∀ k, k ≠ ea e → k ≠ eb e → w k = 0 := by intro k a b; simp [w, a, b]
  have := h w ⟨fun k => by
    simp only [w]
    apply add_nonneg <;> split <;> first | linarith | exact le_rfl, by
    simp only [w, sum_add_distrib, sum_ite_eq', mem_univ, if_true]; ring⟩
  rw [hR w ⟨ea e, eb e, wo⟩, sum_eq_zero (fun v _ => by rw [hv v, zero_mul]), zero_add, add_zero,
    sum_eq_single e] at this
  · rw [wa, wb, show (1 + x) / 2 - (1 - x) / 2 = x by ring] at this
    refine ⟨(1 + x) / 2 * ((1 - x) / 2), ?_, this⟩
    have : 0 < (1 + x) / 2 * ((1 - x) / 2) := mul_pos (by linarith) (by linarith)
    exact this.ne'
  · intro e' _ he
    refine sum_eq_zero fun j _ => ?_
    rcases hd e e' (Ne.symm he) with ⟨a, b⟩ | ⟨a, b⟩
    · rw [wo _ a b]; simp
    · rw [wo _ a b]; simp
  · intro h; exact absurd (mem_univ e) h

theorem simplex_faces {n E : Nat} (fa fb fc : Fin E → Fin n) (hab : ∀ e, fa e ≠ fb e ∧ fa e ≠ fc e ∧ fb e ≠ fc e)
    (hd : ∀ e e', e ≠ e' → (fa e' ≠ fa e ∧ fa e' ≠ fb e ∧ fa e' ≠ fc e) ∨ (fb e' ≠ fa e ∧ fb e' ≠ fb e ∧ fb e' ≠ fc e) ∨
      (fc e' ≠ fa e ∧ fc e' ≠ fb e ∧ fc e' ≠ fc e))
    (cf : Fin E → Nat → Nat → ℝ) (R : (Fin n → ℝ) → ℝ)
    (hR : ∀ w, (∃ A B C, ∀ k, k ≠ A → k ≠ B → k ≠ C → w k = 0) → R w = 0)
    (h : ∀ w, Bary w → ∑ e, ∑ i ∈ range 5, ∑ j ∈ range 5, cf e i j * (w (fa e) * w (fb e) * w (fc e) *
      lobatto i (w (fa e) - w (fb e)) * lobatto j (w (fb e) - w (fc e))) + R w = 0) :
    ∀ e, ∀ i < 5, ∀ j < 5, cf e i j = 0 := by
  intro e
  refine lob55 (cf e) fun x y hx hy => ?_
  obtain ⟨h1, h2⟩ := abs_le.mp hx
  obtain ⟨h3, h4⟩ := abs_le.mp hy
  obtain ⟨ab, ac, bc⟩ := hab e
  let w : Fin n → ℝ := fun k => (if k = fa e then (1 + 2 * x + y) / 3 else 0) + (if k = fb e then (1 - x + y) / 3 else 0) +
    (if k = fc e then (1 - x - 2 * y) / 3 else 0)
  have wa : w (fa e) = (1 + 2 * x + y) / 3 := by simp [w, ab, ac]
  have wb : w (fb e) = (1 - x + y) / 3 := by simp [w, ab.symm, bc]
  have wc : w (fc e) = (1 - x - 2 * y) / 3 := by simp [w, ac.symm, bc.symm]
  have wo : ∀ k, k ≠ fa e → k ≠ fb e → k ≠ fc e → w k = 0 := by intro k a b c; simp [w, a, b, c]
  have := h w ⟨fun k => by
    simp only [w]
    apply add_nonneg
    · apply add_nonneg <;> split <;> first | linarith | exact le_rfl
    · split <;> first | linarith | exact le_rfl, by
    simp only [w, sum_add_distrib, sum_ite_eq', mem_univ, if_true]; ring⟩
  rw [hR w ⟨fa e, fb e, fc e, wo⟩, add_zero, sum_eq_single e] at this
  · rw [wa, wb, wc, show (1 + 2 * x + y) / 3 - (1 - x + y) / 3 = x by ring,
      show (1 - x + y) / 3 - (1 - x - 2 * y) / 3 = y by ring] at this
    refine ⟨(1 + 2 * x + y) / 3 * ((1 - x + y) / 3) * ((1 - x - 2 * y) / 3), ?_, this⟩
    have : 0 < (1 + 2 * x + y) / 3 * ((1 - x + y) / 3) * ((1 - x - 2 * y) / 3) :=
      mul_pos (mul_pos (by linarith) (by linarith)) (by linarith)
    exact this.ne'
  · intro e' _ he
    refine sum_eq_zero fun i _ => sum_eq_zero fun j _ => ?_
    rcases hd e e' (Ne.symm he) with ⟨a, b, c⟩ | ⟨a, b, c⟩ | ⟨a, b, c⟩
    · rw [wo _ a b c]; simp
    · rw [wo _ a b c]; simp
    · rw [wo _ a b c]; simp
  · intro h; exact absurd (mem_univ e) h

/-- The functions of a triangle, in barycentric coordinates. -/
theorem tri_indep (ea eb : Fin 3 → Fin 3) (hab : ∀ e, ea e ≠ eb e)
    (hd : ∀ e e', e ≠ e' → (ea e' ≠ ea e ∧ ea e' ≠ eb e) ∨ (eb e' ≠ ea e ∧ eb e' ≠ eb e))
    (a b c : Fin 3) (hn : a ≠ b ∧ a ≠ c ∧ b ≠ c) (cv : Fin 3 → ℝ) (ce : Fin 3 → Nat → ℝ) (ci : Nat → Nat → ℝ)
    (h : ∀ w, Bary w → ∑ v, cv v * w v +
      ∑ e, ∑ j ∈ range 5, ce e j * (w (ea e) * w (eb e) * lobatto j (w (ea e) - w (eb e))) +
      ∑ i ∈ range 5, ∑ j ∈ range 5, ci i j * (w a * w b * w c * lobatto i (w a - w b) * lobatto j (w b - w c)) = 0) :
    (∀ v, cv v = 0) ∧ (∀ e, ∀ j < 5, ce e j = 0) ∧ ∀ i < 5, ∀ j < 5, ci i j = 0 := by
  obtain ⟨hv, he⟩ := simplex_edges ea eb hab hd cv ce
    (fun w => ∑ i ∈ range 5, ∑ j ∈ range 5, ci i j * (w a * w b * w c * lobatto i (w a - w b) * lobatto j (w b - w c)))
    (by
      rintro w ⟨A, B, hw⟩
      refine sum_eq_zero fun i _ => sum_eq_zero fun j _ => ?_
      have : w a = 0 ∨ w b = 0 ∨ w c = 0 := by
        by_cases h1 : w a = 0
        · exact Or.inl h1
        by_cases h2 : w b = 0
        · exact Or.inr (Or.inl h2)
        refine Or.inr (Or.inr (hw c ?_ ?_))
        · rintro rfl
          have ha : a = B := by by_contra hne; exact h1 (hw a hn.2.1 hne)
          have hb : b = B := by by_contra hne; exact h2 (hw b hn.2.2 hne)
          exact hn.1 (ha.trans hb.symm)
        · rintro rfl
          have ha : a = A := by by_contra hne; exact h1 (hw a hne hn.2.1)
          have hb : b = A := by by_contra hne; exact h2 (hw b hne hn.2.2)
          exact hn.1 (ha.trans hb.symm)
      rcases this with e | e | e <;> rw [e] <;> simp) h
  refine ⟨hv, he, ?_⟩
  have hf := simplex_faces (fun _ : Fin 1 => a) (fun _ => b) (fun _ => c) (fun _ => hn)
    (fun e e' hne => absurd (Subsingleton.elim e e') hne) (fun _ => ci) (fun _ => 0) (fun _ _ => rfl) (by
      intro w hw
      have := h w hw
      rw [sum_eq_zero (fun v _ => by rw [hv v, zero_mul]), zero_add,
        sum_eq_zero (fun e _ => sum_eq_zero fun j hj => by rw [he e j (mem_range.mp hj), zero_mul]), zero_add] at this
      simpa using this)
  exact hf 0

/-- The functions of a tetrahedron, in barycentric coordinates. -/
theorem tet_indep {E : Nat} (ea eb : Fin E → Fin 4) (hab : ∀ e, ea e ≠ eb e)
    (hd : ∀ e e', e ≠ e' → (ea e' ≠ ea e ∧ ea e' ≠ eb e) ∨ (eb e' ≠ ea e ∧ eb e' ≠ eb e))
    (fa fb fc : Fin 4 → Fin 4) (hf : ∀ e, fa e ≠ fb e ∧ fa e ≠ fc e ∧ fb e ≠ fc e)
    (hfd : ∀ e e', e ≠ e' → (fa e' ≠ fa e ∧ fa e' ≠ fb e ∧ fa e' ≠ fc e) ∨ (fb e' ≠ fa e ∧ fb e' ≠ fb e ∧ fb e' ≠ fc e) ∨
      (fc e' ≠ fa e ∧ fc e' ≠ fb e ∧ fc e' ≠ fc e))
    (cv : Fin 4 → ℝ) (ce : Fin E → Nat → ℝ) (cf : Fin 4 → Nat → Nat → ℝ) (ci : Nat → Nat → Nat → ℝ)
    (h : ∀ w, Bary w → ∑ v, cv v * w v +
      ∑ e, ∑ j ∈ range 5, ce e j * (w (ea e) * w (eb e) * lobatto j (w (ea e) - w (eb e))) +
      (∑ e, ∑ i ∈ range 5, ∑ j ∈ range 5, cf e i j * (w (fa e) * w (fb e) * w (fc e) *
        lobatto i (w (fa e) - w (fb e)) * lobatto j (w (fb e) - w (fc e))) +
      ∑ i ∈ range 5, ∑ j ∈ range 5, ∑ k ∈ range 5, ci i j k * (w 0 * w 1 * w 2 * w 3 * lobatto i (w 0 - w 1) *
        lobatto j (w 1 - w 2) * lobatto k (w 2 - w 3))) = 0) :
    (∀ v, cv v = 0) ∧ (∀ e, ∀ j < 5, ce e j = 0) ∧ (∀ e, ∀ i < 5, ∀ j < 5, cf e i j = 0) ∧
      ∀ i < 5, ∀ j < 5, ∀ k < 5, ci i j k = 0 := by
  have two : ∀ (w : Fin 4 → ℝ) (a b c : Fin 4), a ≠ b ∧ a ≠ c ∧ b ≠ c → (∃ A B, ∀ k, k ≠ A → k ≠ B → w k = 0) →
      w a * w b * w c = 0 := by
    rintro w a b c hn ⟨A, B, hw⟩
    have : w a = 0 ∨ w b = 0 ∨ w c = 0 := by
      by_cases h1 : w a = 0
      · exact Or.inl h1
      by_cases h2 : w b = 0
      · exact Or.inr (Or.inl h2)
      refine Or.inr (Or.inr (hw c ?_ ?_))
      · rintro rfl
        have ha : a = B := by by_contra hne; exact h1 (hw a hn.2.1 hne)
        have hb : b = B := by by_contra hne; exact h2 (hw b hn.2.2 hne)
        exact hn.1 (ha.trans hb.symm)
      · rintro rfl
        have ha : a = A := by by_contra hne; exact h1 (hw a hne hn.2.1)
        have hb : b = A := by by_contra hne; exact h2 (hw b hne hn.2.2)
        exact hn.1 (ha.trans hb.symm)
    rcases this with e | e | e <;> rw [e] <;> simp
  have three : ∀ (w : Fin 4 → ℝ), (∃ A B C, ∀ k, k ≠ A → k ≠ B → k ≠ C → w k = 0) → w 0 * w 1 * w 2 * w 3 = 0 := by
    rintro w ⟨A, B, C, hw⟩
    obtain ⟨k, h1, h2, h3⟩ : ∃ k : Fin 4, k ≠ A ∧ k ≠ B ∧ k ≠ C := by clear hw; revert A B C; decide
    have := hw k h1 h2 h3
    obtain rfl | rfl | rfl | rfl : k = 0 ∨ k = 1 ∨ k = 2 ∨ k = 3 := by clear this h1 h2 h3; revert k; decide
    all_goals rw [this]; simp
  obtain ⟨hv, he⟩ := simplex_edges ea eb hab hd cv ce
    (fun w => ∑ e, ∑ i ∈ range 5, ∑ j ∈ range 5, cf e i j * (w (fa e) * w (fb e) * w (fc e) *
        lobatto i (w (fa e) - w (fb e)) * lobatto j (w (fb e) - w (fc e))) +
      ∑ i ∈ range 5, ∑ j ∈ range 5, ∑ k ∈ range 5, ci i j k * (w 0 * w 1 * w 2 * w 3 * lobatto i (w 0 - w 1) *
        lobatto j (w 1 - w 2) * lobatto k (w 2 - w 3)))
    (by
      intro w hw
      have t3 := three w (by obtain ⟨A, B, hw⟩ := hw; exact ⟨A, B, B, fun k a b _ => hw k a b⟩)
      simp only [two w _ _ _ (hf _) hw, t3]
      simp) h
  have hface := simplex_faces fa fb fc hf hfd cf
    (fun w => ∑ i ∈ range 5, ∑ j ∈ range 5, ∑ k ∈ range 5, ci i j k * (w 0 * w 1 * w 2 * w 3 * lobatto i (w 0 - w 1) *
        lobatto j (w 1 - w 2) * lobatto k (w 2 - w 3)))
    (by
      intro w hw
      simp only [three w hw]
      simp)
    (by
      intro w hw
      have := h w hw
      rw [sum_eq_zero (fun v _ => by rw [hv v, zero_mul]), zero_add,
        sum_eq_zero (fun e _ => sum_eq_zero fun j hj => by rw [he e j (mem_range.mp hj), zero_mul]), zero_add] at this
      exact this)
  refine ⟨hv, he, hface, lob555 ci fun x y z hx hy hz => ?_⟩
  obtain ⟨h1, h2⟩ := abs_le.mp hx
  obtain ⟨h3, h4⟩ := abs_le.mp hy
  obtain ⟨h5, h6⟩ := abs_le.mp hz
  let w : Fin 4 → ℝ := ![(1 + 3 * x + 2 * y + z) / 4, (1 - x + 2 * y + z) / 4, (1 - x - 2 * y + z) / 4, (1 - x - 2 * y - 3 * z) / 4]
  have p0 : 0 < w 0 := by change 0 < (1 + 3 * x + 2 * y + z) / 4; linarith
  have p1 : 0 < w 1 := by change 0 < (1 - x + 2 * y + z) / 4; linarith
  have p2 : 0 < w 2 := by change 0 < (1 - x - 2 * y + z) / 4; linarith
  have p3 : 0 < w 3 := by change 0 < (1 - x - 2 * y - 3 * z) / 4; linarith
  have := h w ⟨fun k => by
    obtain rfl | rfl | rfl | rfl : k = 0 ∨ k = 1 ∨ k = 2 ∨ k = 3 := by revert k; decide
    exacts [p0.le, p1.le, p2.le, p3.le], by
    rw [Fin.sum_univ_four]
    change (1 + 3 * x + 2 * y + z) / 4 + (1 - x + 2 * y + z) / 4 + (1 - x - 2 * y + z) / 4 + (1 - x - 2 * y - 3 * z) / 4 = 1
    ring⟩
  rw [sum_eq_zero (fun v _ => by rw [hv v, zero_mul]), zero_add,
    sum_eq_zero (fun e _ => sum_eq_zero fun j hj => by rw [he e j (mem_range.mp hj), zero_mul]), zero_add,
    sum_eq_zero (fun e _ => sum_eq_zero fun i hi => sum_eq_zero fun j hj => by
      rw [hface e i (mem_range.mp hi) j (mem_range.mp hj), zero_mul]), zero_add] at this
  refine ⟨w 0 * w 1 * w 2 * w 3, (mul_pos (mul_pos (mul_pos p0 p1) p2) p3).ne', ?_⟩
  rw [show w 0 - w 1 = x by change (1 + 3 * x + 2 * y + z) / 4 - (1 - x + 2 * y + z) / 4 = x; ring,
    show w 1 - w 2 = y by change (1 - x + 2 * y + z) / 4 - (1 - x - 2 * y + z) / 4 = y; ring,
    show w 2 - w 3 = z by change (1 - x - 2 * y + z) / 4 - (1 - x - 2 * y - 3 * z) / 4 = z; ring] at this
  exact this

/-! ### From lists to families -/

/-- The sum over a list without repetitions, as a sum over a family that contains the list. -/
theorem cover {F ι : Type} [DecidableEq F] (S : List F) (hS : S.Nodup) (c e : F → ℝ) (I : Finset ι) (g : ι → F)
    (hg : Set.InjOn g I) (hcov : ∀ f ∈ S, ∃ i ∈ I, g i = f) (h : (S.map fun f => c f * e f).sum = 0) :
    ∑ i ∈ I, (if g i ∈ S then c (g i) else 0) * e (g i) = 0 := by
  classical
  rw [← List.sum_toFinset _ hS] at h
  rw [← sum_image (f := fun f => (if f ∈ S then c f else 0) * e f) (g := g) hg]
  refine Eq.trans ?_ h
  symm
  rw [show ∑ f ∈ S.toFinset, c f * e f = ∑ f ∈ S.toFinset, (if f ∈ S then c f else 0) * e f from
    sum_congr rfl fun f hf => by rw [if_pos (List.mem_toFinset.mp hf)]]
  refine sum_subset ?_ ?_
  · intro f hf
    obtain ⟨i, hi, rfl⟩ := hcov f (List.mem_toFinset.mp hf)
    exact mem_image_of_mem g hi
  · intro f _ hf
    rw [if_neg (fun h => hf (List.mem_toFinset.mpr h)), zero_mul]

end Verif.Basis
