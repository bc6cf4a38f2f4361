import Verif.Refine.Place
import Mathlib.Tactic.IntervalCases
import Mathlib.Topology.Order.IntermediateValue

/-! # The sub-elements tile the element: refinements by affine maps -/
set_option linter.all false
namespace Verif.Refine
open Verif.RefGeometry (Pt Geom Face)

/-- From an interior point one can move a little in each direction. -/
theorem interior_move {d : Nat} (S : Set (Pt d)) (p v : Pt d) (hp : p ∈ interior S) : ∃ t : ℝ, t > 0 ∧ p + t • v ∈ S := by
  have hS : S ∈ nhds p := mem_interior_iff_mem_nhds.1 hp
  have hc : Filter.Tendsto (fun t : ℝ => p + t • v) (nhds 0) (nhds p) := by
    have : Continuous fun t : ℝ => p + t • v := continuous_const.add (continuous_id.smul continuous_const)
    simpa using this.tendsto 0
  obtain ⟨e, he, h⟩ := Metric.mem_nhds_iff.1 (hc hS)
  refine ⟨e / 2, by positivity, h ?_⟩
  rw [Metric.mem_ball, Real.dist_eq, sub_zero, abs_of_pos (by positivity)]
  linarith

theorem body_line (p : Pt 1) : p ∈ Shape.line.body ↔ -1 ≤ p 0 ∧ p 0 ≤ 1 := Iff.rfl

theorem body_square (p : Pt 2) : p ∈ Shape.square.body ↔ -1 ≤ p 0 ∧ p 0 ≤ 1 ∧ -1 ≤ p 1 ∧ p 1 ≤ 1 := Iff.rfl

theorem body_cube (p : Pt 3) :
    p ∈ Shape.cube.body ↔ -1 ≤ p 0 ∧ p 0 ≤ 1 ∧ -1 ≤ p 1 ∧ p 1 ≤ 1 ∧ -1 ≤ p 2 ∧ p 2 ≤ 1 := Iff.rfl

theorem body_triangle (p : Pt 2) : p ∈ Shape.triangle.body ↔ 0 ≤ p 0 ∧ 0 ≤ p 1 ∧ p 0 + p 1 ≤ 1 := by
  constructor
  · rintro ⟨a, b, c, e⟩; exact ⟨a, c, by linarith⟩
  · rintro ⟨a, b, c⟩; exact ⟨a, by linarith, b, by linarith⟩

theorem interior_line (p : Pt 1) (hp : p ∈ interior Shape.line.body) : -1 < p 0 ∧ p 0 < 1 := by
  obtain ⟨a, ha, h⟩ := interior_move _ p (fun _ => 1) hp
  obtain ⟨b, hb, h'⟩ := interior_move _ p (fun _ => -1) hp
  simp only [body_line, Pi.add_apply, Pi.smul_apply, smul_eq_mul] at h h'
  constructor <;> linarith

theorem interior_square (p : Pt 2) (hp : p ∈ interior Shape.square.body) : (-1 < p 0 ∧ p 0 < 1) ∧ -1 < p 1 ∧ p 1 < 1 := by
  obtain ⟨a, ha, h⟩ := interior_move _ p (fun _ => 1) hp
  obtain ⟨b, hb, h'⟩ := interior_move _ p (fun _ => -1) hp
  simp only [body_square, Pi.add_apply, Pi.smul_apply, smul_eq_mul] at h h'
  refine ⟨⟨?_, ?_⟩, ?_, ?_⟩ <;> linarith

theorem interior_cube (p : Pt 3) (hp : p ∈ interior Shape.cube.body) :
    (-1 < p 0 ∧ p 0 < 1) ∧ (-1 < p 1 ∧ p 1 < 1) ∧ -1 < p 2 ∧ p 2 < 1 := by
  obtain ⟨a, ha, h⟩ := interior_move _ p (fun _ => 1) hp
  obtain ⟨b, hb, h'⟩ := interior_move _ p (fun _ => -1) hp
  simp only [body_cube, Pi.add_apply, Pi.smul_apply, smul_eq_mul] at h h'
  refine ⟨⟨?_, ?_⟩, ⟨?_, ?_⟩, ?_, ?_⟩ <;> linarith

theorem interior_triangle (p : Pt 2) (hp : p ∈ interior Shape.triangle.body) : 0 < p 0 ∧ 0 < p 1 ∧ p 0 + p 1 < 1 := by
  obtain ⟨a, ha, h⟩ := interior_move _ p (fun _ => 1) hp
  obtain ⟨b, hb, h'⟩ := interior_move _ p (fun _ => -1) hp
  simp only [body_triangle, Pi.add_apply, Pi.smul_apply, smul_eq_mul] at h h'
  refine ⟨?_, ?_, ?_⟩ <;> linarith

theorem tiling_id {d : Nat} (sh : Shape d) : Tiling sh 1 (fun _ => sh) (fun _ p => p) where
  inside := fun _ _ p hp => hp
  cover := fun x hx => ⟨0, one_pos, x, hx, rfl⟩
  once := fun s hs s' hs' p _ p' _ h => ⟨by omega, h⟩

theorem tiling_line1 : Tiling .line 2 (fun _ => .line)
    (fun s p => match s with
      | 0 => ![p 0 / 2 + ((0 : ℕ) : ℝ) - 0.5]
      | _ => ![p 0 / 2 + ((1 : ℕ) : ℝ) - 0.5]) where
  inside := by
    intro s hs p hp
    rw [body_line] at hp ⊢
    interval_cases s <;> simp <;> norm_num <;> refine ⟨?_, ?_⟩ <;> linarith
  cover := by
    intro x hx
    rw [body_line] at hx
    rcases le_total (0) (x 0) with h0 | h0 <;>
    first
    | (refine ⟨0, by norm_num, ![(2) * x 0 + (1)], ?_, ?_⟩
       · rw [body_line]; simp; norm_num; refine ⟨?_, ?_⟩ <;> linarith
       · ext i; fin_cases i <;> simp <;> ring)
    | (refine ⟨1, by norm_num, ![(2) * x 0 + (-1)], ?_, ?_⟩
       · rw [body_line]; simp; norm_num; refine ⟨?_, ?_⟩ <;> linarith
       · ext i; fin_cases i <;> simp <;> ring)
  once := by
    intro s hs s' hs' p hp p' hp' he
    have hp := interior_line p hp
    rw [body_line] at hp'
    have e0 := congrFun he 0
    interval_cases s <;> interval_cases s' <;> simp at e0 <;> norm_num at e0 <;>
      first
      | (exfalso; linarith)
      | (refine ⟨rfl, ?_⟩; ext i; fin_cases i <;> simp <;> linarith)

theorem tiling_square1 : Tiling .square 2 (fun _ => .square)
    (fun s p => match s with
      | 0 => ![p 0 / 2 + ((0 : ℕ) : ℝ) - 0.5, p 1]
      | _ => ![p 0 / 2 + ((1 : ℕ) : ℝ) - 0.5, p 1]) where
  inside := by
    intro s hs p hp
    rw [body_square] at hp ⊢
    interval_cases s <;> simp <;> norm_num <;> refine ⟨?_, ?_, ?_, ?_⟩ <;> linarith
  cover := by
    intro x hx
    rw [body_square] at hx
    rcases le_total (0) (x 0) with h0 | h0 <;>
    first
    | (refine ⟨0, by norm_num, ![(2) * x 0 + (1), (1) * x 1], ?_, ?_⟩
       · rw [body_square]; simp; norm_num; refine ⟨?_, ?_, ?_, ?_⟩ <;> linarith
       · ext i; fin_cases i <;> simp <;> ring)
    | (refine ⟨1, by norm_num, ![(2) * x 0 + (-1), (1) * x 1], ?_, ?_⟩
       · rw [body_square]; simp; norm_num; refine ⟨?_, ?_, ?_, ?_⟩ <;> linarith
       · ext i; fin_cases i <;> simp <;> ring)
  once := by
    intro s hs s' hs' p hp p' hp' he
    have hp := interior_square p hp
    rw [body_square] at hp'
    have e0 := congrFun he 0
    have e1 := congrFun he 1
    interval_cases s <;> interval_cases s' <;> simp at e0 e1 <;> norm_num at e0 e1 <;>
      first
      | (exfalso; linarith)
      | (refine ⟨rfl, ?_⟩; ext i; fin_cases i <;> simp <;> linarith)

theorem tiling_square2 : Tiling .square 2 (fun _ => .square)
    (fun s p => match s with
      | 0 => ![p 0, p 1 / 2 + ((0 : ℕ) : ℝ) - 0.5]
      | _ => ![p 0, p 1 / 2 + ((1 : ℕ) : ℝ) - 0.5]) where
  inside := by
    intro s hs p hp
    rw [body_square] at hp ⊢
    interval_cases s <;> simp <;> norm_num <;> refine ⟨?_, ?_, ?_, ?_⟩ <;> linarith
  cover := by
    intro x hx
    rw [body_square] at hx
    rcases le_total (0) (x 1) with h0 | h0 <;>
    first
    | (refine ⟨0, by norm_num, ![(1) * x 0, (2) * x 1 + (1)], ?_, ?_⟩
       · rw [body_square]; simp; norm_num; refine ⟨?_, ?_, ?_, ?_⟩ <;> linarith
       · ext i; fin_cases i <;> simp <;> ring)
    | (refine ⟨1, by norm_num, ![(1) * x 0, (2) * x 1 + (-1)], ?_, ?_⟩
       · rw [body_square]; simp; norm_num; refine ⟨?_, ?_, ?_, ?_⟩ <;> linarith
       · ext i; fin_cases i <;> simp <;> ring)
  once := by
    intro s hs s' hs' p hp p' hp' he
    have hp := interior_square p hp
    rw [body_square] at hp'
    have e0 := congrFun he 0
    have e1 := congrFun he 1
    interval_cases s <;> interval_cases s' <;> simp at e0 e1 <;> norm_num at e0 e1 <;>
      first
      | (exfalso; linarith)
      | (refine ⟨rfl, ?_⟩; ext i; fin_cases i <;> simp <;> linarith)

theorem tiling_square3 : Tiling .square 4 (fun _ => .square)
    (fun s p => match s with
      | 0 => ![-0.5 + 0.5 * p 0, -0.5 + 0.5 * p 1]
      | 1 => ![0.5 + 0.5 * p 0, -0.5 + 0.5 * p 1]
      | 2 => ![-0.5 + 0.5 * p 0, 0.5 + 0.5 * p 1]
      | _ => ![0.5 + 0.5 * p 0, 0.5 + 0.5 * p 1]) where
  inside := by
    intro s hs p hp
    rw [body_square] at hp ⊢
    interval_cases s <;> simp <;> norm_num <;> refine ⟨?_, ?_, ?_, ?_⟩ <;> linarith
  cover := by
    intro x hx
    rw [body_square] at hx
    rcases le_total (0) (x 0) with h0 | h0 <;> rcases le_total (0) (x 1) with h1 | h1 <;>
    first
    | (refine ⟨0, by norm_num, ![(2) * x 0 + (1), (2) * x 1 + (1)], ?_, ?_⟩
       · rw [body_square]; simp; norm_num; refine ⟨?_, ?_, ?_, ?_⟩ <;> linarith
       · ext i; fin_cases i <;> simp <;> ring)
    | (refine ⟨1, by norm_num, ![(2) * x 0 + (-1), (2) * x 1 + (1)], ?_, ?_⟩
       · rw [body_square]; simp; norm_num; refine ⟨?_, ?_, ?_, ?_⟩ <;> linarith
       · ext i; fin_cases i <;> simp <;> ring)
    | (refine ⟨2, by norm_num, ![(2) * x 0 + (1), (2) * x 1 + (-1)], ?_, ?_⟩
       · rw [body_square]; simp; norm_num; refine ⟨?_, ?_, ?_, ?_⟩ <;> linarith
       · ext i; fin_cases i <;> simp <;> ring)
    | (refine ⟨3, by norm_num, ![(2) * x 0 + (-1), (2) * x 1 + (-1)], ?_, ?_⟩
       · rw [body_square]; simp; norm_num; refine ⟨?_, ?_, ?_, ?_⟩ <;> linarith
       · ext i; fin_cases i <;> simp <;> ring)
  once := by
    intro s hs s' hs' p hp p' hp' he
    have hp := interior_square p hp
    rw [body_square] at hp'
    have e0 := congrFun he 0
    have e1 := congrFun he 1
    interval_cases s <;> interval_cases s' <;> simp at e0 e1 <;> norm_num at e0 e1 <;>
      first
      | (exfalso; linarith)
      | (refine ⟨rfl, ?_⟩; ext i; fin_cases i <;> simp <;> linarith)

theorem tiling_triangle1 : Tiling .triangle 2 (fun _ => .triangle)
    (fun s p => match s with
      | 0 => ![(1 / 2) * p 0, p 1]
      | _ => ![1 / 2 + (1 / 2) * p 0 + (-1 / 2) * p 1, p 1]) where
  inside := by
    intro s hs p hp
    rw [body_triangle] at hp ⊢
    interval_cases s <;> simp <;> norm_num <;> refine ⟨?_, ?_, ?_⟩ <;> linarith
  cover := by
    intro x hx
    rw [body_triangle] at hx
    rcases le_total (2 * x 0 + x 1) (1) with h0 | h0 <;>
    first
    | (refine ⟨0, by norm_num, ![(2) * x 0, (1) * x 1], ?_, ?_⟩
       · rw [body_triangle]; simp; norm_num; refine ⟨?_, ?_, ?_⟩ <;> linarith
       · ext i; fin_cases i <;> simp <;> ring)
    | (refine ⟨1, by norm_num, ![(2) * x 0 + (1) * x 1 + (-1), (1) * x 1], ?_, ?_⟩
       · rw [body_triangle]; simp; norm_num; refine ⟨?_, ?_, ?_⟩ <;> linarith
       · ext i; fin_cases i <;> simp <;> ring)
  once := by
    intro s hs s' hs' p hp p' hp' he
    have hp := interior_triangle p hp
    rw [body_triangle] at hp'
    have e0 := congrFun he 0
    have e1 := congrFun he 1
    interval_cases s <;> interval_cases s' <;> simp at e0 e1 <;> norm_num at e0 e1 <;>
      first
      | (exfalso; linarith)
      | (refine ⟨rfl, ?_⟩; ext i; fin_cases i <;> simp <;> linarith)

theorem tiling_triangle2 : Tiling .triangle 2 (fun _ => .triangle)
    (fun s p => match s with
      | 0 => ![p 0, (1 / 2) * p 1]
      | _ => ![p 0, 1 / 2 + (-1 / 2) * p 0 + (1 / 2) * p 1]) where
  inside := by
    intro s hs p hp
    rw [body_triangle] at hp ⊢
    interval_cases s <;> simp <;> norm_num <;> refine ⟨?_, ?_, ?_⟩ <;> linarith
  cover := by
    intro x hx
    rw [body_triangle] at hx
    rcases le_total (x 0 + 2 * x 1) (1) with h0 | h0 <;>
    first
    | (refine ⟨0, by norm_num, ![(1) * x 0, (2) * x 1], ?_, ?_⟩
       · rw [body_triangle]; simp; norm_num; refine ⟨?_, ?_, ?_⟩ <;> linarith
       · ext i; fin_cases i <;> simp <;> ring)
    | (refine ⟨1, by norm_num, ![(1) * x 0, (1) * x 0 + (2) * x 1 + (-1)], ?_, ?_⟩
       · rw [body_triangle]; simp; norm_num; refine ⟨?_, ?_, ?_⟩ <;> linarith
       · ext i; fin_cases i <;> simp <;> ring)
  once := by
    intro s hs s' hs' p hp p' hp' he
    have hp := interior_triangle p hp
    rw [body_triangle] at hp'
    have e0 := congrFun he 0
    have e1 := congrFun he 1
    interval_cases s <;> interval_cases s' <;> simp at e0 e1 <;> norm_num at e0 e1 <;>
      first
      | (exfalso; linarith)
      | (refine ⟨rfl, ?_⟩; ext i; fin_cases i <;> simp <;> linarith)

theorem tiling_triangle3 : Tiling .triangle 2 (fun _ => .triangle)
    (fun s p => match s with
      | 0 => ![p 0 + (1 / 2) * p 1, (1 / 2) * p 1]
      | _ => ![(1 / 2) * p 0, (1 / 2) * p 0 + p 1]) where
  inside := by
    intro s hs p hp
    rw [body_triangle] at hp ⊢
    interval_cases s <;> simp <;> norm_num <;> refine ⟨?_, ?_, ?_⟩ <;> linarith
  cover := by
    intro x hx
    rw [body_triangle] at hx
    rcases le_total (x 0) (x 1) with h0 | h0 <;>
    first
    | (refine ⟨0, by norm_num, ![(1) * x 0 + (-1) * x 1, (2) * x 1], ?_, ?_⟩
       · rw [body_triangle]; simp; norm_num; refine ⟨?_, ?_, ?_⟩ <;> linarith
       · ext i; fin_cases i <;> simp <;> ring)
    | (refine ⟨1, by norm_num, ![(2) * x 0, (-1) * x 0 + (1) * x 1], ?_, ?_⟩
       · rw [body_triangle]; simp; norm_num; refine ⟨?_, ?_, ?_⟩ <;> linarith
       · ext i; fin_cases i <;> simp <;> ring)
  once := by
    intro s hs s' hs' p hp p' hp' he
    have hp := interior_triangle p hp
    rw [body_triangle] at hp'
    have e0 := congrFun he 0
    have e1 := congrFun he 1
    interval_cases s <;> interval_cases s' <;> simp at e0 e1 <;> norm_num at e0 e1 <;>
      first
      | (exfalso; linarith)
      | (refine ⟨rfl, ?_⟩; ext i; fin_cases i <;> simp <;> linarith)

theorem tiling_triangle4 : Tiling .triangle 4 (fun _ => .triangle)
    (fun s p => match s with
      | 0 => ![0.5 * p 0, 0.5 * p 1]
      | 1 => ![0.5 + 0.5 * p 0, 0.5 * p 1]
      | 2 => ![0.5 * p 0, 0.5 + 0.5 * p 1]
      | _ => ![0.5 - 0.5 * p 0, 0.5 - 0.5 * p 1]) where
  inside := by
    intro s hs p hp
    rw [body_triangle] at hp ⊢
    interval_cases s <;> simp <;> norm_num <;> refine ⟨?_, ?_, ?_⟩ <;> linarith
  cover := by
    intro x hx
    rw [body_triangle] at hx
    rcases le_total (x 0) (1 / 2) with h0 | h0 <;> rcases le_total (x 1) (1 / 2) with h1 | h1 <;> rcases le_total (x 0 + x 1) (1 / 2) with h2 | h2 <;>
    first
    | (refine ⟨0, by norm_num, ![(2) * x 0, (2) * x 1], ?_, ?_⟩
       · rw [body_triangle]; simp; norm_num; refine ⟨?_, ?_, ?_⟩ <;> linarith
       · ext i; fin_cases i <;> simp <;> ring)
    | (refine ⟨1, by norm_num, ![(2) * x 0 + (-1), (2) * x 1], ?_, ?_⟩
       · rw [body_triangle]; simp; norm_num; refine ⟨?_, ?_, ?_⟩ <;> linarith
       · ext i; fin_cases i <;> simp <;> ring)
    | (refine ⟨2, by norm_num, ![(2) * x 0, (2) * x 1 + (-1)], ?_, ?_⟩
       · rw [body_triangle]; simp; norm_num; refine ⟨?_, ?_, ?_⟩ <;> linarith
       · ext i; fin_cases i <;> simp <;> ring)
    | (refine ⟨3, by norm_num, ![(-2) * x 0 + (1), (-2) * x 1 + (1)], ?_, ?_⟩
       · rw [body_triangle]; simp; norm_num; refine ⟨?_, ?_, ?_⟩ <;> linarith
       · ext i; fin_cases i <;> simp <;> ring)
  once := by
    intro s hs s' hs' p hp p' hp' he
    have hp := interior_triangle p hp
    rw [body_triangle] at hp'
    have e0 := congrFun he 0
    have e1 := congrFun he 1
    interval_cases s <;> interval_cases s' <;> simp at e0 e1 <;> norm_num at e0 e1 <;>
      first
      | (exfalso; linarith)
      | (refine ⟨rfl, ?_⟩; ext i; fin_cases i <;> simp <;> linarith)

theorem tiling_cube1 : Tiling .cube 2 (fun _ => .cube)
    (fun s p => match s with
      | 0 => ![(p 0 - 1) / 2, p 1, p 2]
      | _ => ![(p 0 + 1) / 2, p 1, p 2]) where
  inside := by
    intro s hs p hp
    rw [body_cube] at hp ⊢
    interval_cases s <;> simp <;> norm_num <;> refine ⟨?_, ?_, ?_, ?_, ?_, ?_⟩ <;> linarith
  cover := by
    intro x hx
    rw [body_cube] at hx
    rcases le_total (0) (x 0) with h0 | h0 <;>
    first
    | (refine ⟨0, by norm_num, ![(2) * x 0 + (1), (1) * x 1, (1) * x 2], ?_, ?_⟩
       · rw [body_cube]; simp; norm_num; refine ⟨?_, ?_, ?_, ?_, ?_, ?_⟩ <;> linarith
       · ext i; fin_cases i <;> simp <;> ring)
    | (refine ⟨1, by norm_num, ![(2) * x 0 + (-1), (1) * x 1, (1) * x 2], ?_, ?_⟩
       · rw [body_cube]; simp; norm_num; refine ⟨?_, ?_, ?_, ?_, ?_, ?_⟩ <;> linarith
       · ext i; fin_cases i <;> simp <;> ring)
  once := by
    intro s hs s' hs' p hp p' hp' he
    have hp := interior_cube p hp
    rw [body_cube] at hp'
    have e0 := congrFun he 0
    have e1 := congrFun he 1
    have e2 := congrFun he 2
    interval_cases s <;> interval_cases s' <;> simp at e0 e1 e2 <;> norm_num at e0 e1 e2 <;>
      first
      | (exfalso; linarith)
      | (refine ⟨rfl, ?_⟩; ext i; fin_cases i <;> simp <;> linarith)

theorem tiling_cube2 : Tiling .cube 2 (fun _ => .cube)
    (fun s p => match s with
      | 0 => ![p 0, (p 1 - 1) / 2, p 2]
      | _ => ![p 0, (p 1 + 1) / 2, p 2]) where
  inside := by
    intro s hs p hp
    rw [body_cube] at hp ⊢
    interval_cases s <;> simp <;> norm_num <;> refine ⟨?_, ?_, ?_, ?_, ?_, ?_⟩ <;> linarith
  cover := by
    intro x hx
    rw [body_cube] at hx
    rcases le_total (0) (x 1) with h0 | h0 <;>
    first
    | (refine ⟨0, by norm_num, ![(1) * x 0, (2) * x 1 + (1), (1) * x 2], ?_, ?_⟩
       · rw [body_cube]; simp; norm_num; refine ⟨?_, ?_, ?_, ?_, ?_, ?_⟩ <;> linarith
       · ext i; fin_cases i <;> simp <;> ring)
    | (refine ⟨1, by norm_num, ![(1) * x 0, (2) * x 1 + (-1), (1) * x 2], ?_, ?_⟩
       · rw [body_cube]; simp; norm_num; refine ⟨?_, ?_, ?_, ?_, ?_, ?_⟩ <;> linarith
       · ext i; fin_cases i <;> simp <;> ring)
  once := by
    intro s hs s' hs' p hp p' hp' he
    have hp := interior_cube p hp
    rw [body_cube] at hp'
    have e0 := congrFun he 0
    have e1 := congrFun he 1
    have e2 := congrFun he 2
    interval_cases s <;> interval_cases s' <;> simp at e0 e1 e2 <;> norm_num at e0 e1 e2 <;>
      first
      | (exfalso; linarith)
      | (refine ⟨rfl, ?_⟩; ext i; fin_cases i <;> simp <;> linarith)

theorem tiling_cube3 : Tiling .cube 2 (fun _ => .cube)
    (fun s p => match s with
      | 0 => ![p 0, p 1, (p 2 - 1) / 2]
      | _ => ![p 0, p 1, (p 2 + 1) / 2]) where
  inside := by
    intro s hs p hp
    rw [body_cube] at hp ⊢
    interval_cases s <;> simp <;> norm_num <;> refine ⟨?_, ?_, ?_, ?_, ?_, ?_⟩ <;> linarith
  cover := by
    intro x hx
    rw [body_cube] at hx
    rcases le_total (0) (x 2) with h0 | h0 <;>
    first
    | (refine ⟨0, by norm_num, ![(1) * x 0, (1) * x 1, (2) * x 2 + (1)], ?_, ?_⟩
       · rw [body_cube]; simp; norm_num; refine ⟨?_, ?_, ?_, ?_, ?_, ?_⟩ <;> linarith
       · ext i; fin_cases i <;> simp <;> ring)
    | (refine ⟨1, by norm_num, ![(1) * x 0, (1) * x 1, (2) * x 2 + (-1)], ?_, ?_⟩
       · rw [body_cube]; simp; norm_num; refine ⟨?_, ?_, ?_, ?_, ?_, ?_⟩ <;> linarith
       · ext i; fin_cases i <;> simp <;> ring)
  once := by
    intro s hs s' hs' p hp p' hp' he
    have hp := interior_cube p hp
    rw [body_cube] at hp'
    have e0 := congrFun he 0
    have e1 := congrFun he 1
    have e2 := congrFun he 2
    interval_cases s <;> interval_cases s' <;> simp at e0 e1 e2 <;> norm_num at e0 e1 e2 <;>
      first
      | (exfalso; linarith)
      | (refine ⟨rfl, ?_⟩; ext i; fin_cases i <;> simp <;> linarith)

theorem tiling_cube4 : Tiling .cube 4 (fun _ => .cube)
    (fun s p => match s with
      | 0 => ![(p 0 - 1) / 2, (p 1 - 1) / 2, p 2]
      | 1 => ![(p 0 + 1) / 2, (p 1 - 1) / 2, p 2]
      | 2 => ![(p 0 - 1) / 2, (p 1 + 1) / 2, p 2]
      | _ => ![(p 0 + 1) / 2, (p 1 + 1) / 2, p 2]) where
  inside := by
    intro s hs p hp
    rw [body_cube] at hp ⊢
    interval_cases s <;> simp <;> norm_num <;> refine ⟨?_, ?_, ?_, ?_, ?_, ?_⟩ <;> linarith
  cover := by
    intro x hx
    rw [body_cube] at hx
    rcases le_total (0) (x 0) with h0 | h0 <;> rcases le_total (0) (x 1) with h1 | h1 <;>
    first
    | (refine ⟨0, by norm_num, ![(2) * x 0 + (1), (2) * x 1 + (1), (1) * x 2], ?_, ?_⟩
       · rw [body_cube]; simp; norm_num; refine ⟨?_, ?_, ?_, ?_, ?_, ?_⟩ <;> linarith
       · ext i; fin_cases i <;> simp <;> ring)
    | (refine ⟨1, by norm_num, ![(2) * x 0 + (-1), (2) * x 1 + (1), (1) * x 2], ?_, ?_⟩
       · rw [body_cube]; simp; norm_num; refine ⟨?_, ?_, ?_, ?_, ?_, ?_⟩ <;> linarith
       · ext i; fin_cases i <;> simp <;> ring)
    | (refine ⟨2, by norm_num, ![(2) * x 0 + (1), (2) * x 1 + (-1), (1) * x 2], ?_, ?_⟩
       · rw [body_cube]; simp; norm_num; refine ⟨?_, ?_, ?_, ?_, ?_, ?_⟩ <;> linarith
       · ext i; fin_cases i <;> simp <;> ring)
    | (refine ⟨3, by norm_num, ![(2) * x 0 + (-1), (2) * x 1 + (-1), (1) * x 2], ?_, ?_⟩
       · rw [body_cube]; simp; norm_num; refine ⟨?_, ?_, ?_, ?_, ?_, ?_⟩ <;> linarith
       · ext i; fin_cases i <;> simp <;> ring)
  once := by
    intro s hs s' hs' p hp p' hp' he
    have hp := interior_cube p hp
    rw [body_cube] at hp'
    have e0 := congrFun he 0
    have e1 := congrFun he 1
    have e2 := congrFun he 2
    interval_cases s <;> interval_cases s' <;> simp at e0 e1 e2 <;> norm_num at e0 e1 e2 <;>
      first
      | (exfalso; linarith)
      | (refine ⟨rfl, ?_⟩; ext i; fin_cases i <;> simp <;> linarith)

theorem tiling_triangle3T : Tiling .triangle 2 (fun _ => .triangle)
    (fun s p => match s with
      | 0 => ![0.5 * p 0, 0.5 * p 0 + p 1]
      | _ => ![p 0 + 0.5 * p 1, 0.5 * p 1]) where
  inside := by
    intro s hs p hp
    rw [body_triangle] at hp ⊢
    interval_cases s <;> simp <;> norm_num <;> refine ⟨?_, ?_, ?_⟩ <;> linarith
  cover := by
    intro x hx
    rw [body_triangle] at hx
    rcases le_total (x 0) (x 1) with h0 | h0 <;>
    first
    | (refine ⟨1, by norm_num, ![(1) * x 0 + (-1) * x 1, (2) * x 1], ?_, ?_⟩
       · rw [body_triangle]; simp; norm_num; refine ⟨?_, ?_, ?_⟩ <;> linarith
       · ext i; fin_cases i <;> simp <;> norm_num <;> ring)
    | (refine ⟨0, by norm_num, ![(2) * x 0, (-1) * x 0 + (1) * x 1], ?_, ?_⟩
       · rw [body_triangle]; simp; norm_num; refine ⟨?_, ?_, ?_⟩ <;> linarith
       · ext i; fin_cases i <;> simp <;> norm_num <;> ring)
  once := by
    intro s hs s' hs' p hp p' hp' he
    have hp := interior_triangle p hp
    rw [body_triangle] at hp'
    have e0 := congrFun he 0
    have e1 := congrFun he 1
    interval_cases s <;> interval_cases s' <;> simp at e0 e1 <;> norm_num at e0 e1 <;>
      first
      | (exfalso; linarith)
      | (refine ⟨rfl, ?_⟩; ext i; fin_cases i <;> simp <;> linarith)

end Verif.Refine
