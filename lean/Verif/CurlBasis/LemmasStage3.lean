import Verif.CurlBasis.LemmasStage2

set_option linter.all false
namespace Verif.CurlBasis
open Verif.RefGeometry (Pt tetrahedronG)
open Verif.Basis (bary3)
open Verif.Legendre (legendre legendreDeriv rodrigues)

theorem stage2b_0f (order : Nat) (c : AinsworthFn → ℝ) (H : Vanish order c) :
    ∀ l m, l + m < order - 2 → c (AinsworthFn.face l m 0 false) = 0 := by
  refine legendre_ind2 (order - 2) (fun l m => c (AinsworthFn.face l m 0 false)) fun x y h0 h1 h2 h3 => ?_
  obtain ⟨P, hb0, hb1, hb2, hb3, hin⟩ := exists_pt (0) ((1 - x - y) / 3) ((1 - x - y) / 3 + x) ((1 - x - y) / 3 + y) (by ring)
    (by linarith) (by linarith) (by linarith) (by linarith)
  have := H P ![-1, 1, 0] hin
  have e1 := edgeSum_zero order c H P ![-1, 1, 0]
  have e2 := stage2a order c H P ![-1, 1, 0]
  have e4 : interiorSum order (gg c P ![-1, 1, 0]) = 0 := by zeroI
  rw [e1, e2, e4, add_zero, zero_add, zero_add] at this
  have hne : (1 - x - y) / 3 * ((1 - x - y) / 3 + x) * ((1 - x - y) / 3 + y) ≠ 0 := by
    have : 0 < (1 - x - y) / 3 * ((1 - x - y) / 3 + x) * ((1 - x - y) / 3 + y) :=
      mul_pos (mul_pos (by linarith) (by linarith)) (by linarith)
    exact ne_of_gt this
  refine (mul_eq_zero.mp ?_).resolve_left hne
  refine Eq.trans ?_ this
  unfold faceSum
  rw [Finset.mul_sum]
  refine Finset.sum_congr rfl fun l _ => ?_
  rw [Finset.mul_sum]
  refine Finset.sum_congr rfl fun m _ => ?_
  simp [gg, AinsworthFn.eval, faceNodes, faceNodesDir, faceDirection, hb0, hb1, hb2, hb3, baryGrad, dot,
    add_sub_cancel_left]
  ring

theorem stage2b_0s (order : Nat) (c : AinsworthFn → ℝ) (H : Vanish order c) :
    ∀ l m, l + m < order - 2 → c (AinsworthFn.face l m 0 true) = 0 := by
  refine legendre_ind2 (order - 2) (fun l m => c (AinsworthFn.face l m 0 true)) fun x y h0 h1 h2 h3 => ?_
  obtain ⟨P, hb0, hb1, hb2, hb3, hin⟩ := exists_pt (0) ((1 - x - y) / 3) ((1 - x - y) / 3 + y) ((1 - x - y) / 3 + x) (by ring)
    (by linarith) (by linarith) (by linarith) (by linarith)
  have := H P ![-1, 0, 1] hin
  have e1 := edgeSum_zero order c H P ![-1, 0, 1]
  have e2 := stage2a order c H P ![-1, 0, 1]
  have e4 : interiorSum order (gg c P ![-1, 0, 1]) = 0 := by zeroI
  rw [e1, e2, e4, add_zero, zero_add, zero_add] at this
  have hne : (1 - x - y) / 3 * ((1 - x - y) / 3 + x) * ((1 - x - y) / 3 + y) ≠ 0 := by
    have : 0 < (1 - x - y) / 3 * ((1 - x - y) / 3 + x) * ((1 - x - y) / 3 + y) :=
      mul_pos (mul_pos (by linarith) (by linarith)) (by linarith)
    exact ne_of_gt this
  refine (mul_eq_zero.mp ?_).resolve_left hne
  refine Eq.trans ?_ this
  unfold faceSum
  rw [Finset.mul_sum]
  refine Finset.sum_congr rfl fun l _ => ?_
  rw [Finset.mul_sum]
  refine Finset.sum_congr rfl fun m _ => ?_
  simp [gg, AinsworthFn.eval, faceNodes, faceNodesDir, faceDirection, hb0, hb1, hb2, hb3, baryGrad, dot,
    add_sub_cancel_left]
  ring

theorem stage2b_0i (order : Nat) (c : AinsworthFn → ℝ) (H : Vanish order c) :
    ∀ l m, l + m < order - 2 → c (AinsworthFn.faceInterior l m 0) = 0 := by
  refine legendre_ind2 (order - 2) (fun l m => c (AinsworthFn.faceInterior l m 0)) fun x y h0 h1 h2 h3 => ?_
  obtain ⟨P, hb0, hb1, hb2, hb3, hin⟩ := exists_pt (0) ((1 - x - y) / 3) ((1 - x - y) / 3 + x) ((1 - x - y) / 3 + y) (by ring)
    (by linarith) (by linarith) (by linarith) (by linarith)
  have := H P ![-1, 0, 0] hin
  have e1 := edgeSum_zero order c H P ![-1, 0, 0]
  have e2 := stage2a order c H P ![-1, 0, 0]
  have e4 : interiorSum order (gg c P ![-1, 0, 0]) = 0 := by zeroI
  rw [e1, e2, e4, add_zero, zero_add, zero_add] at this
  have hne : (1 - x - y) / 3 * ((1 - x - y) / 3 + x) * ((1 - x - y) / 3 + y) ≠ 0 := by
    have : 0 < (1 - x - y) / 3 * ((1 - x - y) / 3 + x) * ((1 - x - y) / 3 + y) :=
      mul_pos (mul_pos (by linarith) (by linarith)) (by linarith)
    exact ne_of_gt this
  refine (mul_eq_zero.mp ?_).resolve_left hne
  refine Eq.trans ?_ this
  unfold faceSum
  rw [Finset.mul_sum]
  refine Finset.sum_congr rfl fun l _ => ?_
  rw [Finset.mul_sum]
  refine Finset.sum_congr rfl fun m _ => ?_
  simp [gg, AinsworthFn.eval, faceNodes, faceNodesDir, faceDirection, hb0, hb1, hb2, hb3, baryGrad, dot,
    add_sub_cancel_left]
  ring

theorem stage2b_1f (order : Nat) (c : AinsworthFn → ℝ) (H : Vanish order c) :
    ∀ l m, l + m < order - 2 → c (AinsworthFn.face l m 1 false) = 0 := by
  refine legendre_ind2 (order - 2) (fun l m => c (AinsworthFn.face l m 1 false)) fun x y h0 h1 h2 h3 => ?_
  obtain ⟨P, hb0, hb1, hb2, hb3, hin⟩ := exists_pt ((1 - x - y) / 3) (0) ((1 - x - y) / 3 + x) ((1 - x - y) / 3 + y) (by ring)
    (by linarith) (by linarith) (by linarith) (by linarith)
  have := H P ![0, 1, 0] hin
  have e1 := edgeSum_zero order c H P ![0, 1, 0]
  have e2 := stage2a order c H P ![0, 1, 0]
  have e4 : interiorSum order (gg c P ![0, 1, 0]) = 0 := by zeroI
  rw [e1, e2, e4, add_zero, zero_add, zero_add] at this
  have hne : (1 - x - y) / 3 * ((1 - x - y) / 3 + x) * ((1 - x - y) / 3 + y) ≠ 0 := by
    have : 0 < (1 - x - y) / 3 * ((1 - x - y) / 3 + x) * ((1 - x - y) / 3 + y) :=
      mul_pos (mul_pos (by linarith) (by linarith)) (by linarith)
    exact ne_of_gt this
  refine (mul_eq_zero.mp ?_).resolve_left hne
  refine Eq.trans ?_ this
  unfold faceSum
  rw [Finset.mul_sum]
  refine Finset.sum_congr rfl fun l _ => ?_
  rw [Finset.mul_sum]
  refine Finset.sum_congr rfl fun m _ => ?_
  simp [gg, AinsworthFn.eval, faceNodes, faceNodesDir, faceDirection, hb0, hb1, hb2, hb3, baryGrad, dot,
    add_sub_cancel_left]
  ring

theorem stage2b_1s (order : Nat) (c : AinsworthFn → ℝ) (H : Vanish order c) :
    ∀ l m, l + m < order - 2 → c (AinsworthFn.face l m 1 true) = 0 := by
  refine legendre_ind2 (order - 2) (fun l m => c (AinsworthFn.face l m 1 true)) fun x y h0 h1 h2 h3 => ?_
  obtain ⟨P, hb0, hb1, hb2, hb3, hin⟩ := exists_pt ((1 - x - y) / 3) (0) ((1 - x - y) / 3 + y) ((1 - x - y) / 3 + x) (by ring)
    (by linarith) (by linarith) (by linarith) (by linarith)
  have := H P ![0, 0, 1] hin
  have e1 := edgeSum_zero order c H P ![0, 0, 1]
  have e2 := stage2a order c H P ![0, 0, 1]
  have e4 : interiorSum order (gg c P ![0, 0, 1]) = 0 := by zeroI
  rw [e1, e2, e4, add_zero, zero_add, zero_add] at this
  have hne : (1 - x - y) / 3 * ((1 - x - y) / 3 + x) * ((1 - x - y) / 3 + y) ≠ 0 := by
    have : 0 < (1 - x - y) / 3 * ((1 - x - y) / 3 + x) * ((1 - x - y) / 3 + y) :=
      mul_pos (mul_pos (by linarith) (by linarith)) (by linarith)
    exact ne_of_gt this
  refine (mul_eq_zero.mp ?_).resolve_left hne
  refine Eq.trans ?_ this
  unfold faceSum
  rw [Finset.mul_sum]
  refine Finset.sum_congr rfl fun l _ => ?_
  rw [Finset.mul_sum]
  refine Finset.sum_congr rfl fun m _ => ?_
  simp [gg, AinsworthFn.eval, faceNodes, faceNodesDir, faceDirection, hb0, hb1, hb2, hb3, baryGrad, dot,
    add_sub_cancel_left]
  ring

theorem stage2b_1i (order : Nat) (c : AinsworthFn → ℝ) (H : Vanish order c) :
    ∀ l m, l + m < order - 2 → c (AinsworthFn.faceInterior l m 1) = 0 := by
  refine legendre_ind2 (order - 2) (fun l m => c (AinsworthFn.faceInterior l m 1)) fun x y h0 h1 h2 h3 => ?_
  obtain ⟨P, hb0, hb1, hb2, hb3, hin⟩ := exists_pt ((1 - x - y) / 3) (0) ((1 - x - y) / 3 + x) ((1 - x - y) / 3 + y) (by ring)
    (by linarith) (by linarith) (by linarith) (by linarith)
  have := H P ![1, 0, 0] hin
  have e1 := edgeSum_zero order c H P ![1, 0, 0]
  have e2 := stage2a order c H P ![1, 0, 0]
  have e4 : interiorSum order (gg c P ![1, 0, 0]) = 0 := by zeroI
  rw [e1, e2, e4, add_zero, zero_add, zero_add] at this
  have hne : (1 - x - y) / 3 * ((1 - x - y) / 3 + x) * ((1 - x - y) / 3 + y) ≠ 0 := by
    have : 0 < (1 - x - y) / 3 * ((1 - x - y) / 3 + x) * ((1 - x - y) / 3 + y) :=
      mul_pos (mul_pos (by linarith) (by linarith)) (by linarith)
    exact ne_of_gt this
  refine (mul_eq_zero.mp ?_).resolve_left hne
  refine Eq.trans ?_ this
  unfold faceSum
  rw [Finset.mul_sum]
  refine Finset.sum_congr rfl fun l _ => ?_
  rw [Finset.mul_sum]
  refine Finset.sum_congr rfl fun m _ => ?_
  simp [gg, AinsworthFn.eval, faceNodes, faceNodesDir, faceDirection, hb0, hb1, hb2, hb3, baryGrad, dot,
    add_sub_cancel_left]
  ring

theorem stage2b_2f (order : Nat) (c : AinsworthFn → ℝ) (H : Vanish order c) :
    ∀ l m, l + m < order - 2 → c (AinsworthFn.face l m 2 false) = 0 := by
  refine legendre_ind2 (order - 2) (fun l m => c (AinsworthFn.face l m 2 false)) fun x y h0 h1 h2 h3 => ?_
  obtain ⟨P, hb0, hb1, hb2, hb3, hin⟩ := exists_pt ((1 - x - y) / 3) ((1 - x - y) / 3 + x) (0) ((1 - x - y) / 3 + y) (by ring)
    (by linarith) (by linarith) (by linarith) (by linarith)
  have := H P ![1, 0, 0] hin
  have e1 := edgeSum_zero order c H P ![1, 0, 0]
  have e2 := stage2a order c H P ![1, 0, 0]
  have e4 : interiorSum order (gg c P ![1, 0, 0]) = 0 := by zeroI
  rw [e1, e2, e4, add_zero, zero_add, zero_add] at this
  have hne : (1 - x - y) / 3 * ((1 - x - y) / 3 + x) * ((1 - x - y) / 3 + y) ≠ 0 := by
    have : 0 < (1 - x - y) / 3 * ((1 - x - y) / 3 + x) * ((1 - x - y) / 3 + y) :=
      mul_pos (mul_pos (by linarith) (by linarith)) (by linarith)
    exact ne_of_gt this
  refine (mul_eq_zero.mp ?_).resolve_left hne
  refine Eq.trans ?_ this
  unfold faceSum
  rw [Finset.mul_sum]
  refine Finset.sum_congr rfl fun l _ => ?_
  rw [Finset.mul_sum]
  refine Finset.sum_congr rfl fun m _ => ?_
  simp [gg, AinsworthFn.eval, faceNodes, faceNodesDir, faceDirection, hb0, hb1, hb2, hb3, baryGrad, dot,
    add_sub_cancel_left]
  ring

theorem stage2b_2s (order : Nat) (c : AinsworthFn → ℝ) (H : Vanish order c) :
    ∀ l m, l + m < order - 2 → c (AinsworthFn.face l m 2 true) = 0 := by
  refine legendre_ind2 (order - 2) (fun l m => c (AinsworthFn.face l m 2 true)) fun x y h0 h1 h2 h3 => ?_
  obtain ⟨P, hb0, hb1, hb2, hb3, hin⟩ := exists_pt ((1 - x - y) / 3) ((1 - x - y) / 3 + y) (0) ((1 - x - y) / 3 + x) (by ring)
    (by linarith) (by linarith) (by linarith) (by linarith)
  have := H P ![0, 0, 1] hin
  have e1 := edgeSum_zero order c H P ![0, 0, 1]
  have e2 := stage2a order c H P ![0, 0, 1]
  have e4 : interiorSum order (gg c P ![0, 0, 1]) = 0 := by zeroI
  rw [e1, e2, e4, add_zero, zero_add, zero_add] at this
  have hne : (1 - x - y) / 3 * ((1 - x - y) / 3 + x) * ((1 - x - y) / 3 + y) ≠ 0 := by
    have : 0 < (1 - x - y) / 3 * ((1 - x - y) / 3 + x) * ((1 - x - y) / 3 + y) :=
      mul_pos (mul_pos (by linarith) (by linarith)) (by linarith)
    exact ne_of_gt this
  refine (mul_eq_zero.mp ?_).resolve_left hne
  refine Eq.trans ?_ this
  unfold faceSum
  rw [Finset.mul_sum]
  refine Finset.sum_congr rfl fun l _ => ?_
  rw [Finset.mul_sum]
  refine Finset.sum_congr rfl fun m _ => ?_
  simp [gg, AinsworthFn.eval, faceNodes, faceNodesDir, faceDirection, hb0, hb1, hb2, hb3, baryGrad, dot,
    add_sub_cancel_left]
  ring

theorem stage2b_2i (order : Nat) (c : AinsworthFn → ℝ) (H : Vanish order c) :
    ∀ l m, l + m < order - 2 → c (AinsworthFn.faceInterior l m 2) = 0 := by
  refine legendre_ind2 (order - 2) (fun l m => c (AinsworthFn.faceInterior l m 2)) fun x y h0 h1 h2 h3 => ?_
  obtain ⟨P, hb0, hb1, hb2, hb3, hin⟩ := exists_pt ((1 - x - y) / 3) ((1 - x - y) / 3 + x) (0) ((1 - x - y) / 3 + y) (by ring)
    (by linarith) (by linarith) (by linarith) (by linarith)
  have := H P ![0, 1, 0] hin
  have e1 := edgeSum_zero order c H P ![0, 1, 0]
  have e2 := stage2a order c H P ![0, 1, 0]
  have e4 : interiorSum order (gg c P ![0, 1, 0]) = 0 := by zeroI
  rw [e1, e2, e4, add_zero, zero_add, zero_add] at this
  have hne : (1 - x - y) / 3 * ((1 - x - y) / 3 + x) * ((1 - x - y) / 3 + y) ≠ 0 := by
    have : 0 < (1 - x - y) / 3 * ((1 - x - y) / 3 + x) * ((1 - x - y) / 3 + y) :=
      mul_pos (mul_pos (by linarith) (by linarith)) (by linarith)
    exact ne_of_gt this
  refine (mul_eq_zero.mp ?_).resolve_left hne
  refine Eq.trans ?_ this
  unfold faceSum
  rw [Finset.mul_sum]
  refine Finset.sum_congr rfl fun l _ => ?_
  rw [Finset.mul_sum]
  refine Finset.sum_congr rfl fun m _ => ?_
  simp [gg, AinsworthFn.eval, faceNodes, faceNodesDir, faceDirection, hb0, hb1, hb2, hb3, baryGrad, dot,
    add_sub_cancel_left]
  ring

theorem stage2b_3f (order : Nat) (c : AinsworthFn → ℝ) (H : Vanish order c) :
    ∀ l m, l + m < order - 2 → c (AinsworthFn.face l m 3 false) = 0 := by
  refine legendre_ind2 (order - 2) (fun l m => c (AinsworthFn.face l m 3 false)) fun x y h0 h1 h2 h3 => ?_
  obtain ⟨P, hb0, hb1, hb2, hb3, hin⟩ := exists_pt ((1 - x - y) / 3) ((1 - x - y) / 3 + x) ((1 - x - y) / 3 + y) (0) (by ring)
    (by linarith) (by linarith) (by linarith) (by linarith)
  have := H P ![1, 0, 0] hin
  have e1 := edgeSum_zero order c H P ![1, 0, 0]
  have e2 := stage2a order c H P ![1, 0, 0]
  have e4 : interiorSum order (gg c P ![1, 0, 0]) = 0 := by zeroI
  rw [e1, e2, e4, add_zero, zero_add, zero_add] at this
  have hne : (1 - x - y) / 3 * ((1 - x - y) / 3 + x) * ((1 - x - y) / 3 + y) ≠ 0 := by
    have : 0 < (1 - x - y) / 3 * ((1 - x - y) / 3 + x) * ((1 - x - y) / 3 + y) :=
      mul_pos (mul_pos (by linarith) (by linarith)) (by linarith)
    exact ne_of_gt this
  refine (mul_eq_zero.mp ?_).resolve_left hne
  refine Eq.trans ?_ this
  unfold faceSum
  rw [Finset.mul_sum]
  refine Finset.sum_congr rfl fun l _ => ?_
  rw [Finset.mul_sum]
  refine Finset.sum_congr rfl fun m _ => ?_
  simp [gg, AinsworthFn.eval, faceNodes, faceNodesDir, faceDirection, hb0, hb1, hb2, hb3, baryGrad, dot,
    add_sub_cancel_left]
  ring

theorem stage2b_3s (order : Nat) (c : AinsworthFn → ℝ) (H : Vanish order c) :
    ∀ l m, l + m < order - 2 → c (AinsworthFn.face l m 3 true) = 0 := by
  refine legendre_ind2 (order - 2) (fun l m => c (AinsworthFn.face l m 3 true)) fun x y h0 h1 h2 h3 => ?_
  obtain ⟨P, hb0, hb1, hb2, hb3, hin⟩ := exists_pt ((1 - x - y) / 3) ((1 - x - y) / 3 + y) ((1 - x - y) / 3 + x) (0) (by ring)
    (by linarith) (by linarith) (by linarith) (by linarith)
  have := H P ![0, 1, 0] hin
  have e1 := edgeSum_zero order c H P ![0, 1, 0]
  have e2 := stage2a order c H P ![0, 1, 0]
  have e4 : interiorSum order (gg c P ![0, 1, 0]) = 0 := by zeroI
  rw [e1, e2, e4, add_zero, zero_add, zero_add] at this
  have hne : (1 - x - y) / 3 * ((1 - x - y) / 3 + x) * ((1 - x - y) / 3 + y) ≠ 0 := by
    have : 0 < (1 - x - y) / 3 * ((1 - x - y) / 3 + x) * ((1 - x - y) / 3 + y) :=
      mul_pos (mul_pos (by linarith) (by linarith)) (by linarith)
    exact ne_of_gt this
  refine (mul_eq_zero.mp ?_).resolve_left hne
  refine Eq.trans ?_ this
  unfold faceSum
  rw [Finset.mul_sum]
  refine Finset.sum_congr rfl fun l _ => ?_
  rw [Finset.mul_sum]
  refine Finset.sum_congr rfl fun m _ => ?_
  simp [gg, AinsworthFn.eval, faceNodes, faceNodesDir, faceDirection, hb0, hb1, hb2, hb3, baryGrad, dot,
    add_sub_cancel_left]
  ring

theorem stage2b_3i (order : Nat) (c : AinsworthFn → ℝ) (H : Vanish order c) :
    ∀ l m, l + m < order - 2 → c (AinsworthFn.faceInterior l m 3) = 0 := by
  refine legendre_ind2 (order - 2) (fun l m => c (AinsworthFn.faceInterior l m 3)) fun x y h0 h1 h2 h3 => ?_
  obtain ⟨P, hb0, hb1, hb2, hb3, hin⟩ := exists_pt ((1 - x - y) / 3) ((1 - x - y) / 3 + x) ((1 - x - y) / 3 + y) (0) (by ring)
    (by linarith) (by linarith) (by linarith) (by linarith)
  have := H P ![0, 0, 1] hin
  have e1 := edgeSum_zero order c H P ![0, 0, 1]
  have e2 := stage2a order c H P ![0, 0, 1]
  have e4 : interiorSum order (gg c P ![0, 0, 1]) = 0 := by zeroI
  rw [e1, e2, e4, add_zero, zero_add, zero_add] at this
  have hne : (1 - x - y) / 3 * ((1 - x - y) / 3 + x) * ((1 - x - y) / 3 + y) ≠ 0 := by
    have : 0 < (1 - x - y) / 3 * ((1 - x - y) / 3 + x) * ((1 - x - y) / 3 + y) :=
      mul_pos (mul_pos (by linarith) (by linarith)) (by linarith)
    exact ne_of_gt this
  refine (mul_eq_zero.mp ?_).resolve_left hne
  refine Eq.trans ?_ this
  unfold faceSum
  rw [Finset.mul_sum]
  refine Finset.sum_congr rfl fun l _ => ?_
  rw [Finset.mul_sum]
  refine Finset.sum_congr rfl fun m _ => ?_
  simp [gg, AinsworthFn.eval, faceNodes, faceNodesDir, faceDirection, hb0, hb1, hb2, hb3, baryGrad, dot,
    add_sub_cancel_left]
  ring

theorem stage2b (order : Nat) (c : AinsworthFn → ℝ) (H : Vanish order c) (p t : Pt 3) :
    faceSum order (gg c p t) = 0 := by
  unfold faceSum
  refine Finset.sum_eq_zero fun l hl => Finset.sum_eq_zero fun m hm => ?_
  have hl := Finset.mem_range.mp hl
  have hm := Finset.mem_range.mp hm
  have hlm : l + m < order - 2 := by omega
  simp only [gg, stage2b_0f order c H l m hlm, stage2b_0s order c H l m hlm, stage2b_0i order c H l m hlm, stage2b_1f order c H l m hlm, stage2b_1s order c H l m hlm, stage2b_1i order c H l m hlm, stage2b_2f order c H l m hlm, stage2b_2s order c H l m hlm, stage2b_2i order c H l m hlm, stage2b_3f order c H l m hlm, stage2b_3s order c H l m hlm, stage2b_3i order c H l m hlm, zero_mul, add_zero]

theorem stage3_0 (order : Nat) (c : AinsworthFn → ℝ) (H : Vanish order c) :
    ∀ l m n, l + m + n < order - 3 → c (.interior l m n 0) = 0 := by
  refine legendre_ind3 (order - 3) (fun l m n => c (.interior l m n 0))
    fun x y z h0 h1 h2 h3 h4 h5 => ?_
  obtain ⟨P, hb0, hb1, hb2, hb3, hin⟩ := exists_pt ((1 - x - y - z) / 4) ((1 - x - y - z) / 4 + x) ((1 - x - y - z) / 4 + y) ((1 - x - y - z) / 4 + z) (by ring)
    (by linarith) (by linarith) (by linarith) (by linarith)
  have := H P ![1, 0, 0] hin
  have e1 := edgeSum_zero order c H P ![1, 0, 0]
  have e2 := stage2a order c H P ![1, 0, 0]
  have e3 := stage2b order c H P ![1, 0, 0]
  rw [e1, e2, e3, zero_add, zero_add, zero_add] at this
  have hne : (1 - x - y - z) / 4 * ((1 - x - y - z) / 4 + x) * ((1 - x - y - z) / 4 + y) *
      ((1 - x - y - z) / 4 + z) ≠ 0 := by
    have : 0 < (1 - x - y - z) / 4 * ((1 - x - y - z) / 4 + x) * ((1 - x - y - z) / 4 + y) *
        ((1 - x - y - z) / 4 + z) :=
      mul_pos (mul_pos (mul_pos (by linarith) (by linarith)) (by linarith)) (by linarith)
    exact ne_of_gt this
  refine (mul_eq_zero.mp ?_).resolve_left hne
  refine Eq.trans ?_ this
  unfold interiorSum
  rw [Finset.mul_sum]
  refine Finset.sum_congr rfl fun l _ => ?_
  rw [Finset.mul_sum]
  refine Finset.sum_congr rfl fun m _ => ?_
  rw [Finset.mul_sum]
  refine Finset.sum_congr rfl fun n _ => ?_
  simp [gg, AinsworthFn.eval, unitVector, hb0, hb1, hb2, hb3, dot, add_sub_cancel_left]
  ring

theorem stage3_1 (order : Nat) (c : AinsworthFn → ℝ) (H : Vanish order c) :
    ∀ l m n, l + m + n < order - 3 → c (.interior l m n 1) = 0 := by
  refine legendre_ind3 (order - 3) (fun l m n => c (.interior l m n 1))
    fun x y z h0 h1 h2 h3 h4 h5 => ?_
  obtain ⟨P, hb0, hb1, hb2, hb3, hin⟩ := exists_pt ((1 - x - y - z) / 4) ((1 - x - y - z) / 4 + x) ((1 - x - y - z) / 4 + y) ((1 - x - y - z) / 4 + z) (by ring)
    (by linarith) (by linarith) (by linarith) (by linarith)
  have := H P ![0, 1, 0] hin
  have e1 := edgeSum_zero order c H P ![0, 1, 0]
  have e2 := stage2a order c H P ![0, 1, 0]
  have e3 := stage2b order c H P ![0, 1, 0]
  rw [e1, e2, e3, zero_add, zero_add, zero_add] at this
  have hne : (1 - x - y - z) / 4 * ((1 - x - y - z) / 4 + x) * ((1 - x - y - z) / 4 + y) *
      ((1 - x - y - z) / 4 + z) ≠ 0 := by
    have : 0 < (1 - x - y - z) / 4 * ((1 - x - y - z) / 4 + x) * ((1 - x - y - z) / 4 + y) *
        ((1 - x - y - z) / 4 + z) :=
      mul_pos (mul_pos (mul_pos (by linarith) (by linarith)) (by linarith)) (by linarith)
    exact ne_of_gt this
  refine (mul_eq_zero.mp ?_).resolve_left hne
  refine Eq.trans ?_ this
  unfold interiorSum
  rw [Finset.mul_sum]
  refine Finset.sum_congr rfl fun l _ => ?_
  rw [Finset.mul_sum]
  refine Finset.sum_congr rfl fun m _ => ?_
  rw [Finset.mul_sum]
  refine Finset.sum_congr rfl fun n _ => ?_
  simp [gg, AinsworthFn.eval, unitVector, hb0, hb1, hb2, hb3, dot, add_sub_cancel_left]
  ring

theorem stage3_2 (order : Nat) (c : AinsworthFn → ℝ) (H : Vanish order c) :
    ∀ l m n, l + m + n < order - 3 → c (.interior l m n 2) = 0 := by
  refine legendre_ind3 (order - 3) (fun l m n => c (.interior l m n 2))
    fun x y z h0 h1 h2 h3 h4 h5 => ?_
  obtain ⟨P, hb0, hb1, hb2, hb3, hin⟩ := exists_pt ((1 - x - y - z) / 4) ((1 - x - y - z) / 4 + x) ((1 - x - y - z) / 4 + y) ((1 - x - y - z) / 4 + z) (by ring)
    (by linarith) (by linarith) (by linarith) (by linarith)
  have := H P ![0, 0, 1] hin
  have e1 := edgeSum_zero order c H P ![0, 0, 1]
  have e2 := stage2a order c H P ![0, 0, 1]
  have e3 := stage2b order c H P ![0, 0, 1]
  rw [e1, e2, e3, zero_add, zero_add, zero_add] at this
  have hne : (1 - x - y - z) / 4 * ((1 - x - y - z) / 4 + x) * ((1 - x - y - z) / 4 + y) *
      ((1 - x - y - z) / 4 + z) ≠ 0 := by
    have : 0 < (1 - x - y - z) / 4 * ((1 - x - y - z) / 4 + x) * ((1 - x - y - z) / 4 + y) *
        ((1 - x - y - z) / 4 + z) :=
      mul_pos (mul_pos (mul_pos (by linarith) (by linarith)) (by linarith)) (by linarith)
    exact ne_of_gt this
  refine (mul_eq_zero.mp ?_).resolve_left hne
  refine Eq.trans ?_ this
  unfold interiorSum
  rw [Finset.mul_sum]
  refine Finset.sum_congr rfl fun l _ => ?_
  rw [Finset.mul_sum]
  refine Finset.sum_congr rfl fun m _ => ?_
  rw [Finset.mul_sum]
  refine Finset.sum_congr rfl fun n _ => ?_
  simp [gg, AinsworthFn.eval, unitVector, hb0, hb1, hb2, hb3, dot, add_sub_cancel_left]
  ring

theorem ainsworth_forms {order : Nat} {f : AinsworthFn} (hf : f ∈ ainsworth3 order) :
    (∃ q, q < order + 1 ∧ (f = .edge q 0 1 ∨ f = .edge q 0 2 ∨ f = .edge q 0 3 ∨ f = .edge q 2 3 ∨
      f = .edge q 1 3 ∨ f = .edge q 1 2)) ∨
    (∃ q, q < order - 1 ∧ (f = .edgeFace (q + 2) 3 0 ∨ f = .edgeFace (q + 2) 3 1 ∨ f = .edgeFace (q + 2) 3 2 ∨ f = .edgeFace (q + 2) 2 0 ∨ f = .edgeFace (q + 2) 2 1 ∨ f = .edgeFace (q + 2) 2 3 ∨ f = .edgeFace (q + 2) 1 0 ∨ f = .edgeFace (q + 2) 1 2 ∨ f = .edgeFace (q + 2) 1 3 ∨ f = .edgeFace (q + 2) 0 1 ∨ f = .edgeFace (q + 2) 0 2 ∨ f = .edgeFace (q + 2) 0 3)) ∨
    (∃ l m, l + m < order - 2 ∧ (f = .face l m 3 false ∨ f = .face l m 3 true ∨
      f = .face l m 2 false ∨ f = .face l m 2 true ∨ f = .face l m 1 false ∨ f = .face l m 1 true ∨
      f = .face l m 0 false ∨ f = .face l m 0 true ∨ f = .faceInterior l m 3 ∨
      f = .faceInterior l m 2 ∨ f = .faceInterior l m 1 ∨ f = .faceInterior l m 0)) ∨
    (∃ l m n, l + m + n < order - 3 ∧ (f = .interior l m n 0 ∨ f = .interior l m n 1 ∨
      f = .interior l m n 2)) := by
  unfold ainsworth3 at hf
  rw [filter_two] at hf
  simp only [List.mem_append, List.mem_flatMap, List.mem_range, List.mem_map] at hf
  rcases hf with ((⟨q, hq, h⟩ | ⟨q', ⟨q, hq, rfl⟩, h⟩) | ⟨l, hl, m, hm, h⟩) | ⟨l, hl, m, hm, n, hn, h⟩
  · exact Or.inl ⟨q, hq, by simpa using h⟩
  · exact Or.inr (Or.inl ⟨q, hq, by simpa using h⟩)
  · exact Or.inr (Or.inr (Or.inl ⟨l, m, by omega, by simpa using h⟩))
  · exact Or.inr (Or.inr (Or.inr ⟨l, m, n, by omega, by simpa using h⟩))

theorem ainsworth_ind (order : Nat) (c : AinsworthFn → ℝ)
    (h : ∀ p, tetrahedronG.isInternal p → ((ainsworth3 order).map fun f => c f • f.eval p).sum = 0) :
    ∀ f ∈ ainsworth3 order, c f = 0 := by
  have H := vanish_of order c h
  intro f hf
  rcases ainsworth_forms hf with ⟨q, hq, h⟩ | ⟨q, hq, h⟩ | ⟨l, m, hlm, h⟩ | ⟨l, m, n, hlm, h⟩
  · obtain ⟨h1, h2, h3, h4, h5, h6⟩ := stage1 order c H q hq
    rcases h with rfl | rfl | rfl | rfl | rfl | rfl <;> assumption
  · rcases h with rfl | rfl | rfl | rfl | rfl | rfl | rfl | rfl | rfl | rfl | rfl | rfl
    · exact stage2a_30 order c H q hq
    · exact stage2a_31 order c H q hq
    · exact stage2a_32 order c H q hq
    · exact stage2a_20 order c H q hq
    · exact stage2a_21 order c H q hq
    · exact stage2a_23 order c H q hq
    · exact stage2a_10 order c H q hq
    · exact stage2a_12 order c H q hq
    · exact stage2a_13 order c H q hq
    · exact stage2a_01 order c H q hq
    · exact stage2a_02 order c H q hq
    · exact stage2a_03 order c H q hq
  · rcases h with rfl | rfl | rfl | rfl | rfl | rfl | rfl | rfl | rfl | rfl | rfl | rfl
    · exact stage2b_3f order c H l m hlm
    · exact stage2b_3s order c H l m hlm
    · exact stage2b_2f order c H l m hlm
    · exact stage2b_2s order c H l m hlm
    · exact stage2b_1f order c H l m hlm
    · exact stage2b_1s order c H l m hlm
    · exact stage2b_0f order c H l m hlm
    · exact stage2b_0s order c H l m hlm
    · exact stage2b_3i order c H l m hlm
    · exact stage2b_2i order c H l m hlm
    · exact stage2b_1i order c H l m hlm
    · exact stage2b_0i order c H l m hlm
  · rcases h with rfl | rfl | rfl
    · exact stage3_0 order c H l m n hlm
    · exact stage3_1 order c H l m n hlm
    · exact stage3_2 order c H l m n hlm

end Verif.CurlBasis
