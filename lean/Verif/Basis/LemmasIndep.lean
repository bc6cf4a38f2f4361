import Verif.Basis.LemmasDefined
import Mathlib.Tactic.Linarith
import Mathlib.Tactic.FieldSimp
import Mathlib.Tactic.IntervalCases

set_option linter.all false
namespace Verif.Basis
open Verif.RefGeometry
open Verif.Legendre (lobatto lobattoDeriv)

theorem lobatto5_dep : ∃ a b : ℝ, ∀ x, lobatto 5 x = a * lobatto 1 x + b * lobatto 3 x := by
  have h1 : √(5 / 2 : ℝ) ≠ 0 := by positivity
  have h3 : √(9 / 2 : ℝ) ≠ 0 := by positivity
  refine ⟨√(13 / 2) / √(5 / 2) * (11 / 14), √(13 / 2) / √(9 / 2) * (3 / 14), ?_⟩
  intro x
  simp only [lobatto]
  field_simp
  ring

theorem upTo_mem (o : Nat) (ho : 7 ≤ o) : 1 ∈ upTo 2 o ∧ 3 ∈ upTo 2 o ∧ 5 ∈ upTo 2 o := by
  simp only [mem_upTo]; omega

theorem dependent (o : Nat) (ho : 7 ≤ o) :
    (∃ f ∈ lineDG o, ∃ g ∈ lineDG o, ∃ h ∈ lineDG o, f ≠ g ∧ f ≠ h ∧
      ∃ a b : ℝ, ∀ p, f.eval p = a * g.eval p + b * h.eval p) ∧
    (∃ f ∈ triangleDG o, ∃ g ∈ triangleDG o, ∃ h ∈ triangleDG o, f ≠ g ∧ f ≠ h ∧
      ∃ a b : ℝ, ∀ p, f.eval p = a * g.eval p + b * h.eval p) ∧
    (∃ f ∈ squareDG o, ∃ g ∈ squareDG o, ∃ h ∈ squareDG o, f ≠ g ∧ f ≠ h ∧
      ∃ a b : ℝ, ∀ p, f.eval p = a * g.eval p + b * h.eval p) ∧
    (∃ f ∈ tetDG o, ∃ g ∈ tetDG o, ∃ h ∈ tetDG o, f ≠ g ∧ f ≠ h ∧
      ∃ a b : ℝ, ∀ p, f.eval p = a * g.eval p + b * h.eval p) ∧
    (∃ f ∈ prismDG o, ∃ g ∈ prismDG o, ∃ h ∈ prismDG o, f ≠ g ∧ f ≠ h ∧
      ∃ a b : ℝ, ∀ p, f.eval p = a * g.eval p + b * h.eval p) ∧
    (∃ f ∈ cubeDG o, ∃ g ∈ cubeDG o, ∃ h ∈ cubeDG o, f ≠ g ∧ f ≠ h ∧
      ∃ a b : ℝ, ∀ p, f.eval p = a * g.eval p + b * h.eval p) := by
  obtain ⟨a, b, hab⟩ := lobatto5_dep
  obtain ⟨m1, m3, m5⟩ := upTo_mem o ho
  have hm : ∀ j, j = 1 ∨ j = 3 ∨ j = 5 → j ∈ upTo 2 o := by
    rintro j (rfl | rfl | rfl) <;> assumption
  have ho' : o > 0 := by omega
  have hl : ∀ j, j = 1 ∨ j = 3 ∨ j = 5 → LineFn.interior j ∈ lineDG o := by
    intro j hj; unfold lineDG; rw [if_pos ho']; simp [hm j hj]
  have ht : ∀ j, j = 1 ∨ j = 3 ∨ j = 5 → TriangleFn.face 1 0 j ∈ triangleDG o := by
    intro j hj; unfold triangleDG; rw [if_pos ho']; simp [hm j hj]
  have hs : ∀ j, j = 1 ∨ j = 3 ∨ j = 5 → SquareFn.face0 0 1 j ∈ squareDG o := by
    intro j hj; unfold squareDG; rw [if_pos ho']; simp [hm j hj]
  have hT : ∀ j, j = 1 ∨ j = 3 ∨ j = 5 → TetFn.edge 0 1 j ∈ tetDG o := by
    intro j hj; unfold tetDG; rw [if_pos ho']; simp [hm j hj, tetEdgeNodes]
  have hp : ∀ j, j = 1 ∨ j = 3 ∨ j = 5 → PrismFn.edge0 0 1 j ∈ prismDG o := by
    intro j hj; unfold prismDG; rw [if_pos ho']; simp [hm j hj, prismTriEdgeNodes]
  have hc : ∀ j, j = 1 ∨ j = 3 ∨ j = 5 → CubeFn.edge0 0 1 j ∈ cubeDG o := by
    intro j hj; unfold cubeDG; rw [if_pos ho']; simp [hm j hj, cubeEdgeNodes0]
  refine ⟨⟨_, hl 5 (by simp), _, hl 1 (by simp), _, hl 3 (by simp), by simp, by simp, a, b, ?_⟩,
    ⟨_, ht 5 (by simp), _, ht 1 (by simp), _, ht 3 (by simp), by simp, by simp, a, b, ?_⟩,
    ⟨_, hs 5 (by simp), _, hs 1 (by simp), _, hs 3 (by simp), by simp, by simp, a, b, ?_⟩,
    ⟨_, hT 5 (by simp), _, hT 1 (by simp), _, hT 3 (by simp), by simp, by simp, a, b, ?_⟩,
    ⟨_, hp 5 (by simp), _, hp 1 (by simp), _, hp 3 (by simp), by simp, by simp, a, b, ?_⟩,
    ⟨_, hc 5 (by simp), _, hc 1 (by simp), _, hc 3 (by simp), by simp, by simp, a, b, ?_⟩⟩
  · intro p; simp only [LineFn.eval, hab]; ring
  · intro p; simp only [TriangleFn.eval, hab]; ring
  · intro p; simp only [SquareFn.eval, hab]; ring
  · intro p; simp only [TetFn.eval, hab]; ring
  · intro p; simp only [PrismFn.eval, hab]; ring
  · intro p; simp only [CubeFn.eval, hab]; ring

theorem lob_forms (o : Nat) (ho : o ≤ 4) : ∃ k : ℝ, k ≠ 0 ∧ ∀ x, lobatto o x = k * (match o with
    | 0 => 1 | 1 => x | 2 => 5 * x * x - 1 | 3 => (7 * x * x - 3) * x
    | _ => (21 * x * x - 14) * x * x + 1) := by
  rcases o with _ | _ | _ | _ | _ | o
  · refine ⟨√(3 / 2) * -2, by simp, fun x => by simp [lobatto]⟩
  · refine ⟨√(5 / 2) * -2, by simp, fun x => by simp [lobatto]; ring⟩
  · refine ⟨√(7 / 2) / -2, by simp, fun x => by simp [lobatto]; ring⟩
  · refine ⟨√(9 / 2) / -2, by simp, fun x => by simp [lobatto]; ring⟩
  · refine ⟨√(11 / 2) / -4, by simp, fun x => by simp [lobatto]; ring⟩
  · omega

/-- The Lobatto polynomials of degree at most 4 are linearly independent on any five points of the
open interval; here 0, ±1/2, ±1/4. -/
theorem lob_indep (c : Nat → ℝ) (n : Nat) (hn : n ≤ 5)
    (h : ∀ x : ℝ, -1 < x → x < 1 → ((List.range n).map fun i => c i * lobatto i x).sum = 0) :
    ∀ i < n, c i = 0 := by
  obtain ⟨k0, n0, e0⟩ := lob_forms 0 (by omega)
  obtain ⟨k1, n1, e1⟩ := lob_forms 1 (by omega)
  obtain ⟨k2, n2, e2⟩ := lob_forms 2 (by omega)
  obtain ⟨k3, n3, e3⟩ := lob_forms 3 (by omega)
  obtain ⟨k4, n4, e4⟩ := lob_forms 4 (by omega)
  simp only at e0 e1 e2 e3 e4
  have fin : ∀ i k : ℝ, k ≠ 0 → i * k = 0 → i = 0 := fun i k hk h =>
    (mul_eq_zero.1 h).resolve_right hk
  have p0 := h 0 (by norm_num) (by norm_num)
  have p1 := h (1 / 2) (by norm_num) (by norm_num)
  have p2 := h (-1 / 2) (by norm_num) (by norm_num)
  have p3 := h (1 / 4) (by norm_num) (by norm_num)
  have p4 := h (-1 / 4) (by norm_num) (by norm_num)
  intro i hi
  interval_cases n
  · omega
  all_goals
    simp only [List.range_succ, List.range_zero, List.nil_append, List.map_append, List.map_cons,
      List.map_nil, List.sum_append, List.sum_cons, List.sum_nil, e0, e1, e2, e3, e4] at p0 p1 p2 p3 p4
    interval_cases i
  all_goals first
    | (apply fin _ k0 n0; linarith)
    | (apply fin _ k1 n1; linarith)
    | (apply fin _ k2 n2; linarith)
    | (apply fin _ k3 n3; linarith)
    | (apply fin _ k4 n4; linarith)

theorem line_indep (o : Nat) (ho : o ≤ 6) (c : LineFn → ℝ)
    (h : ∀ p, ((lineDG o).map fun f => c f * f.eval p).sum = 0) : ∀ f ∈ lineDG o, c f = 0 := by
  unfold lineDG at *
  split at h
  · rename_i ho'
    rw [if_pos ho']
    simp only [List.map_append, List.map_cons, List.map_nil, List.sum_append, List.sum_cons,
      List.sum_nil, List.map_map, Function.comp_def] at h
    have z : ∀ x : ℝ, (1 + x) * (1 - x) = 0 → ((upTo 2 o).map fun i => c (.interior i) *
        (LineFn.interior i).eval ![x]).sum = 0 := by
      intro x hx
      have : ∀ i, c (.interior i) * (LineFn.interior i).eval ![x] = 0 := by
        intro i; simp [LineFn.eval, hx]
      simp [this]
    have v0 : c (.vertex 0) = 0 := by
      have := h ![-1]
      rw [z (-1) (by norm_num)] at this
      simp [LineFn.eval] at this
      norm_num at this
      exact this
    have v1 : c (.vertex 1) = 0 := by
      have := h ![1]
      rw [z 1 (by norm_num)] at this
      simp [LineFn.eval] at this
      norm_num at this
      exact this
    have hi := lob_indep (fun i => c (.interior i)) (o + 1 - 2) (by omega) (by
      intro x hx1 hx2
      have := h ![x]
      rw [v0, v1] at this
      simp only [LineFn.eval, upTo, Matrix.cons_val_zero] at this
      have e : ∀ i, c (.interior i) * ((1 + x) * (1 - x) * lobatto i x / 4) =
          ((1 + x) * (1 - x) / 4) * (c (.interior i) * lobatto i x) := by intro i; ring
      simp only [e, zero_mul, zero_add] at this
      rw [List.sum_map_mul_left] at this
      exact (mul_eq_zero.1 this).resolve_left (by
        have : 0 < (1 + x) * (1 - x) := by apply mul_pos <;> linarith
        positivity))
    intro f hf
    simp only [List.mem_append, List.mem_cons, List.not_mem_nil, or_false, List.mem_map,
      mem_upTo] at hf
    rcases hf with (rfl | rfl) | ⟨i, hi', rfl⟩
    · exact v0
    · exact v1
    · exact hi i (by omega)
  · rename_i ho'
    rw [if_neg ho']
    intro f hf
    simp at hf; subst hf
    have := h ![0]
    simpa [LineFn.eval] using this

end Verif.Basis
