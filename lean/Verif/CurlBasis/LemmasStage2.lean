import Verif.CurlBasis.LemmasStage1

set_option linter.all false
namespace Verif.CurlBasis
open Verif.RefGeometry (Pt tetrahedronG)
open Verif.Basis (bary3)
open Verif.Legendre (legendre legendreDeriv rodrigues)

theorem stage2a_30 (order : Nat) (c : AinsworthFn → ℝ) (H : Vanish order c) :
    ∀ q < order - 1, c (.edgeFace (q + 2) 3 0) = 0 := by
  refine legendre_ind (order - 1) (fun q => c (.edgeFace (q + 2) 3 0)) fun x h0 h1 => ?_
  obtain ⟨P, hb0, hb1, hb2, hb3, hin⟩ := exists_pt (0) ((1 - x) / 2) ((1 + x) / 2) (0) (by ring)
    (by linarith) (by linarith) (by linarith) (by linarith)
  have := H P ![-1, 0, 0] hin
  have e1 := edgeSum_zero order c H P ![-1, 0, 0]
  have e3 : faceSum order (gg c P ![-1, 0, 0]) = 0 := by zeroF
  have e4 : interiorSum order (gg c P ![-1, 0, 0]) = 0 := by zeroI
  rw [e1, e3, e4, add_zero, add_zero, zero_add] at this
  have hne : (1 - x) / 2 * ((1 + x) / 2) ≠ 0 := by
    have : 0 < (1 - x) / 2 * ((1 + x) / 2) := mul_pos (by linarith) (by linarith)
    exact ne_of_gt this
  refine (mul_eq_zero.mp ?_).resolve_left hne
  refine Eq.trans ?_ this
  unfold edgeFaceSum
  rw [Finset.mul_sum]
  refine Finset.sum_congr rfl fun q _ => ?_
  have ex : (1 + x) / 2 - (1 - x) / 2 = x := by ring
  simp [gg, AinsworthFn.eval, edgeNodes_table, hb0, hb1, hb2, hb3, baryGrad, dot, ex]
  ring

theorem stage2a_31 (order : Nat) (c : AinsworthFn → ℝ) (H : Vanish order c) :
    ∀ q < order - 1, c (.edgeFace (q + 2) 3 1) = 0 := by
  refine legendre_ind (order - 1) (fun q => c (.edgeFace (q + 2) 3 1)) fun x h0 h1 => ?_
  obtain ⟨P, hb0, hb1, hb2, hb3, hin⟩ := exists_pt ((1 - x) / 2) (0) ((1 + x) / 2) (0) (by ring)
    (by linarith) (by linarith) (by linarith) (by linarith)
  have := H P ![1, 0, 0] hin
  have e1 := edgeSum_zero order c H P ![1, 0, 0]
  have e3 : faceSum order (gg c P ![1, 0, 0]) = 0 := by zeroF
  have e4 : interiorSum order (gg c P ![1, 0, 0]) = 0 := by zeroI
  rw [e1, e3, e4, add_zero, add_zero, zero_add] at this
  have hne : (1 - x) / 2 * ((1 + x) / 2) ≠ 0 := by
    have : 0 < (1 - x) / 2 * ((1 + x) / 2) := mul_pos (by linarith) (by linarith)
    exact ne_of_gt this
  refine (mul_eq_zero.mp ?_).resolve_left hne
  refine Eq.trans ?_ this
  unfold edgeFaceSum
  rw [Finset.mul_sum]
  refine Finset.sum_congr rfl fun q _ => ?_
  have ex : (1 + x) / 2 - (1 - x) / 2 = x := by ring
  simp [gg, AinsworthFn.eval, edgeNodes_table, hb0, hb1, hb2, hb3, baryGrad, dot, ex]
  ring

theorem stage2a_32 (order : Nat) (c : AinsworthFn → ℝ) (H : Vanish order c) :
    ∀ q < order - 1, c (.edgeFace (q + 2) 3 2) = 0 := by
  refine legendre_ind (order - 1) (fun q => c (.edgeFace (q + 2) 3 2)) fun x h0 h1 => ?_
  obtain ⟨P, hb0, hb1, hb2, hb3, hin⟩ := exists_pt ((1 - x) / 2) ((1 + x) / 2) (0) (0) (by ring)
    (by linarith) (by linarith) (by linarith) (by linarith)
  have := H P ![0, 1, 0] hin
  have e1 := edgeSum_zero order c H P ![0, 1, 0]
  have e3 : faceSum order (gg c P ![0, 1, 0]) = 0 := by zeroF
  have e4 : interiorSum order (gg c P ![0, 1, 0]) = 0 := by zeroI
  rw [e1, e3, e4, add_zero, add_zero, zero_add] at this
  have hne : (1 - x) / 2 * ((1 + x) / 2) ≠ 0 := by
    have : 0 < (1 - x) / 2 * ((1 + x) / 2) := mul_pos (by linarith) (by linarith)
    exact ne_of_gt this
  refine (mul_eq_zero.mp ?_).resolve_left hne
  refine Eq.trans ?_ this
  unfold edgeFaceSum
  rw [Finset.mul_sum]
  refine Finset.sum_congr rfl fun q _ => ?_
  have ex : (1 + x) / 2 - (1 - x) / 2 = x := by ring
  simp [gg, AinsworthFn.eval, edgeNodes_table, hb0, hb1, hb2, hb3, baryGrad, dot, ex]
  ring

theorem stage2a_20 (order : Nat) (c : AinsworthFn → ℝ) (H : Vanish order c) :
    ∀ q < order - 1, c (.edgeFace (q + 2) 2 0) = 0 := by
  refine legendre_ind (order - 1) (fun q => c (.edgeFace (q + 2) 2 0)) fun x h0 h1 => ?_
  obtain ⟨P, hb0, hb1, hb2, hb3, hin⟩ := exists_pt (0) ((1 - x) / 2) (0) ((1 + x) / 2) (by ring)
    (by linarith) (by linarith) (by linarith) (by linarith)
  have := H P ![-1, 0, 0] hin
  have e1 := edgeSum_zero order c H P ![-1, 0, 0]
  have e3 : faceSum order (gg c P ![-1, 0, 0]) = 0 := by zeroF
  have e4 : interiorSum order (gg c P ![-1, 0, 0]) = 0 := by zeroI
  rw [e1, e3, e4, add_zero, add_zero, zero_add] at this
  have hne : (1 - x) / 2 * ((1 + x) / 2) ≠ 0 := by
    have : 0 < (1 - x) / 2 * ((1 + x) / 2) := mul_pos (by linarith) (by linarith)
    exact ne_of_gt this
  refine (mul_eq_zero.mp ?_).resolve_left hne
  refine Eq.trans ?_ this
  unfold edgeFaceSum
  rw [Finset.mul_sum]
  refine Finset.sum_congr rfl fun q _ => ?_
  have ex : (1 + x) / 2 - (1 - x) / 2 = x := by ring
  simp [gg, AinsworthFn.eval, edgeNodes_table, hb0, hb1, hb2, hb3, baryGrad, dot, ex]
  ring

theorem stage2a_21 (order : Nat) (c : AinsworthFn → ℝ) (H : Vanish order c) :
    ∀ q < order - 1, c (.edgeFace (q + 2) 2 1) = 0 := by
  refine legendre_ind (order - 1) (fun q => c (.edgeFace (q + 2) 2 1)) fun x h0 h1 => ?_
  obtain ⟨P, hb0, hb1, hb2, hb3, hin⟩ := exists_pt ((1 - x) / 2) (0) (0) ((1 + x) / 2) (by ring)
    (by linarith) (by linarith) (by linarith) (by linarith)
  have := H P ![1, 0, 0] hin
  have e1 := edgeSum_zero order c H P ![1, 0, 0]
  have e3 : faceSum order (gg c P ![1, 0, 0]) = 0 := by zeroF
  have e4 : interiorSum order (gg c P ![1, 0, 0]) = 0 := by zeroI
  rw [e1, e3, e4, add_zero, add_zero, zero_add] at this
  have hne : (1 - x) / 2 * ((1 + x) / 2) ≠ 0 := by
    have : 0 < (1 - x) / 2 * ((1 + x) / 2) := mul_pos (by linarith) (by linarith)
    exact ne_of_gt this
  refine (mul_eq_zero.mp ?_).resolve_left hne
  refine Eq.trans ?_ this
  unfold edgeFaceSum
  rw [Finset.mul_sum]
  refine Finset.sum_congr rfl fun q _ => ?_
  have ex : (1 + x) / 2 - (1 - x) / 2 = x := by ring
  simp [gg, AinsworthFn.eval, edgeNodes_table, hb0, hb1, hb2, hb3, baryGrad, dot, ex]
  ring

theorem stage2a_23 (order : Nat) (c : AinsworthFn → ℝ) (H : Vanish order c) :
    ∀ q < order - 1, c (.edgeFace (q + 2) 2 3) = 0 := by
  refine legendre_ind (order - 1) (fun q => c (.edgeFace (q + 2) 2 3)) fun x h0 h1 => ?_
  obtain ⟨P, hb0, hb1, hb2, hb3, hin⟩ := exists_pt ((1 - x) / 2) ((1 + x) / 2) (0) (0) (by ring)
    (by linarith) (by linarith) (by linarith) (by linarith)
  have := H P ![0, 0, 1] hin
  have e1 := edgeSum_zero order c H P ![0, 0, 1]
  have e3 : faceSum order (gg c P ![0, 0, 1]) = 0 := by zeroF
  have e4 : interiorSum order (gg c P ![0, 0, 1]) = 0 := by zeroI
  rw [e1, e3, e4, add_zero, add_zero, zero_add] at this
  have hne : (1 - x) / 2 * ((1 + x) / 2) ≠ 0 := by
    have : 0 < (1 - x) / 2 * ((1 + x) / 2) := mul_pos (by linarith) (by linarith)
    exact ne_of_gt this
  refine (mul_eq_zero.mp ?_).resolve_left hne
  refine Eq.trans ?_ this
  unfold edgeFaceSum
  rw [Finset.mul_sum]
  refine Finset.sum_congr rfl fun q _ => ?_
  have ex : (1 + x) / 2 - (1 - x) / 2 = x := by ring
  simp [gg, AinsworthFn.eval, edgeNodes_table, hb0, hb1, hb2, hb3, baryGrad, dot, ex]
  ring

theorem stage2a_10 (order : Nat) (c : AinsworthFn → ℝ) (H : Vanish order c) :
    ∀ q < order - 1, c (.edgeFace (q + 2) 1 0) = 0 := by
  refine legendre_ind (order - 1) (fun q => c (.edgeFace (q + 2) 1 0)) fun x h0 h1 => ?_
  obtain ⟨P, hb0, hb1, hb2, hb3, hin⟩ := exists_pt (0) (0) ((1 - x) / 2) ((1 + x) / 2) (by ring)
    (by linarith) (by linarith) (by linarith) (by linarith)
  have := H P ![0, -1, 0] hin
  have e1 := edgeSum_zero order c H P ![0, -1, 0]
  have e3 : faceSum order (gg c P ![0, -1, 0]) = 0 := by zeroF
  have e4 : interiorSum order (gg c P ![0, -1, 0]) = 0 := by zeroI
  rw [e1, e3, e4, add_zero, add_zero, zero_add] at this
  have hne : (1 - x) / 2 * ((1 + x) / 2) ≠ 0 := by
    have : 0 < (1 - x) / 2 * ((1 + x) / 2) := mul_pos (by linarith) (by linarith)
    exact ne_of_gt this
  refine (mul_eq_zero.mp ?_).resolve_left hne
  refine Eq.trans ?_ this
  unfold edgeFaceSum
  rw [Finset.mul_sum]
  refine Finset.sum_congr rfl fun q _ => ?_
  have ex : (1 + x) / 2 - (1 - x) / 2 = x := by ring
  simp [gg, AinsworthFn.eval, edgeNodes_table, hb0, hb1, hb2, hb3, baryGrad, dot, ex]
  ring

theorem stage2a_12 (order : Nat) (c : AinsworthFn → ℝ) (H : Vanish order c) :
    ∀ q < order - 1, c (.edgeFace (q + 2) 1 2) = 0 := by
  refine legendre_ind (order - 1) (fun q => c (.edgeFace (q + 2) 1 2)) fun x h0 h1 => ?_
  obtain ⟨P, hb0, hb1, hb2, hb3, hin⟩ := exists_pt ((1 - x) / 2) (0) (0) ((1 + x) / 2) (by ring)
    (by linarith) (by linarith) (by linarith) (by linarith)
  have := H P ![0, 1, 0] hin
  have e1 := edgeSum_zero order c H P ![0, 1, 0]
  have e3 : faceSum order (gg c P ![0, 1, 0]) = 0 := by zeroF
  have e4 : interiorSum order (gg c P ![0, 1, 0]) = 0 := by zeroI
  rw [e1, e3, e4, add_zero, add_zero, zero_add] at this
  have hne : (1 - x) / 2 * ((1 + x) / 2) ≠ 0 := by
    have : 0 < (1 - x) / 2 * ((1 + x) / 2) := mul_pos (by linarith) (by linarith)
    exact ne_of_gt this
  refine (mul_eq_zero.mp ?_).resolve_left hne
  refine Eq.trans ?_ this
  unfold edgeFaceSum
  rw [Finset.mul_sum]
  refine Finset.sum_congr rfl fun q _ => ?_
  have ex : (1 + x) / 2 - (1 - x) / 2 = x := by ring
  simp [gg, AinsworthFn.eval, edgeNodes_table, hb0, hb1, hb2, hb3, baryGrad, dot, ex]
  ring

theorem stage2a_13 (order : Nat) (c : AinsworthFn → ℝ) (H : Vanish order c) :
    ∀ q < order - 1, c (.edgeFace (q + 2) 1 3) = 0 := by
  refine legendre_ind (order - 1) (fun q => c (.edgeFace (q + 2) 1 3)) fun x h0 h1 => ?_
  obtain ⟨P, hb0, hb1, hb2, hb3, hin⟩ := exists_pt ((1 - x) / 2) (0) ((1 + x) / 2) (0) (by ring)
    (by linarith) (by linarith) (by linarith) (by linarith)
  have := H P ![0, 0, 1] hin
  have e1 := edgeSum_zero order c H P ![0, 0, 1]
  have e3 : faceSum order (gg c P ![0, 0, 1]) = 0 := by zeroF
  have e4 : interiorSum order (gg c P ![0, 0, 1]) = 0 := by zeroI
  rw [e1, e3, e4, add_zero, add_zero, zero_add] at this
  have hne : (1 - x) / 2 * ((1 + x) / 2) ≠ 0 := by
    have : 0 < (1 - x) / 2 * ((1 + x) / 2) := mul_pos (by linarith) (by linarith)
    exact ne_of_gt this
  refine (mul_eq_zero.mp ?_).resolve_left hne
  refine Eq.trans ?_ this
  unfold edgeFaceSum
  rw [Finset.mul_sum]
  refine Finset.sum_congr rfl fun q _ => ?_
  have ex : (1 + x) / 2 - (1 - x) / 2 = x := by ring
  simp [gg, AinsworthFn.eval, edgeNodes_table, hb0, hb1, hb2, hb3, baryGrad, dot, ex]
  ring

theorem stage2a_01 (order : Nat) (c : AinsworthFn → ℝ) (H : Vanish order c) :
    ∀ q < order - 1, c (.edgeFace (q + 2) 0 1) = 0 := by
  refine legendre_ind (order - 1) (fun q => c (.edgeFace (q + 2) 0 1)) fun x h0 h1 => ?_
  obtain ⟨P, hb0, hb1, hb2, hb3, hin⟩ := exists_pt (0) (0) ((1 - x) / 2) ((1 + x) / 2) (by ring)
    (by linarith) (by linarith) (by linarith) (by linarith)
  have := H P ![1, -1, 0] hin
  have e1 := edgeSum_zero order c H P ![1, -1, 0]
  have e3 : faceSum order (gg c P ![1, -1, 0]) = 0 := by zeroF
  have e4 : interiorSum order (gg c P ![1, -1, 0]) = 0 := by zeroI
  rw [e1, e3, e4, add_zero, add_zero, zero_add] at this
  have hne : (1 - x) / 2 * ((1 + x) / 2) ≠ 0 := by
    have : 0 < (1 - x) / 2 * ((1 + x) / 2) := mul_pos (by linarith) (by linarith)
    exact ne_of_gt this
  refine (mul_eq_zero.mp ?_).resolve_left hne
  refine Eq.trans ?_ this
  unfold edgeFaceSum
  rw [Finset.mul_sum]
  refine Finset.sum_congr rfl fun q _ => ?_
  have ex : (1 + x) / 2 - (1 - x) / 2 = x := by ring
  simp [gg, AinsworthFn.eval, edgeNodes_table, hb0, hb1, hb2, hb3, baryGrad, dot, ex]
  ring

theorem stage2a_02 (order : Nat) (c : AinsworthFn → ℝ) (H : Vanish order c) :
    ∀ q < order - 1, c (.edgeFace (q + 2) 0 2) = 0 := by
  refine legendre_ind (order - 1) (fun q => c (.edgeFace (q + 2) 0 2)) fun x h0 h1 => ?_
  obtain ⟨P, hb0, hb1, hb2, hb3, hin⟩ := exists_pt (0) ((1 - x) / 2) (0) ((1 + x) / 2) (by ring)
    (by linarith) (by linarith) (by linarith) (by linarith)
  have := H P ![-1, 1, 0] hin
  have e1 := edgeSum_zero order c H P ![-1, 1, 0]
  have e3 : faceSum order (gg c P ![-1, 1, 0]) = 0 := by zeroF
  have e4 : interiorSum order (gg c P ![-1, 1, 0]) = 0 := by zeroI
  rw [e1, e3, e4, add_zero, add_zero, zero_add] at this
  have hne : (1 - x) / 2 * ((1 + x) / 2) ≠ 0 := by
    have : 0 < (1 - x) / 2 * ((1 + x) / 2) := mul_pos (by linarith) (by linarith)
    exact ne_of_gt this
  refine (mul_eq_zero.mp ?_).resolve_left hne
  refine Eq.trans ?_ this
  unfold edgeFaceSum
  rw [Finset.mul_sum]
  refine Finset.sum_congr rfl fun q _ => ?_
  have ex : (1 + x) / 2 - (1 - x) / 2 = x := by ring
  simp [gg, AinsworthFn.eval, edgeNodes_table, hb0, hb1, hb2, hb3, baryGrad, dot, ex]
  ring

theorem stage2a_03 (order : Nat) (c : AinsworthFn → ℝ) (H : Vanish order c) :
    ∀ q < order - 1, c (.edgeFace (q + 2) 0 3) = 0 := by
  refine legendre_ind (order - 1) (fun q => c (.edgeFace (q + 2) 0 3)) fun x h0 h1 => ?_
  obtain ⟨P, hb0, hb1, hb2, hb3, hin⟩ := exists_pt (0) ((1 - x) / 2) ((1 + x) / 2) (0) (by ring)
    (by linarith) (by linarith) (by linarith) (by linarith)
  have := H P ![-1, 0, 1] hin
  have e1 := edgeSum_zero order c H P ![-1, 0, 1]
  have e3 : faceSum order (gg c P ![-1, 0, 1]) = 0 := by zeroF
  have e4 : interiorSum order (gg c P ![-1, 0, 1]) = 0 := by zeroI
  rw [e1, e3, e4, add_zero, add_zero, zero_add] at this
  have hne : (1 - x) / 2 * ((1 + x) / 2) ≠ 0 := by
    have : 0 < (1 - x) / 2 * ((1 + x) / 2) := mul_pos (by linarith) (by linarith)
    exact ne_of_gt this
  refine (mul_eq_zero.mp ?_).resolve_left hne
  refine Eq.trans ?_ this
  unfold edgeFaceSum
  rw [Finset.mul_sum]
  refine Finset.sum_congr rfl fun q _ => ?_
  have ex : (1 + x) / 2 - (1 - x) / 2 = x := by ring
  simp [gg, AinsworthFn.eval, edgeNodes_table, hb0, hb1, hb2, hb3, baryGrad, dot, ex]
  ring

theorem stage2a (order : Nat) (c : AinsworthFn → ℝ) (H : Vanish order c) (p t : Pt 3) :
    edgeFaceSum order (gg c p t) = 0 := by
  unfold edgeFaceSum
  refine Finset.sum_eq_zero fun q hq => ?_
  have hq := Finset.mem_range.mp hq
  simp only [gg, stage2a_30 order c H q hq, stage2a_31 order c H q hq, stage2a_32 order c H q hq, stage2a_20 order c H q hq, stage2a_21 order c H q hq, stage2a_23 order c H q hq, stage2a_10 order c H q hq, stage2a_12 order c H q hq, stage2a_13 order c H q hq, stage2a_01 order c H q hq, stage2a_02 order c H q hq, stage2a_03 order c H q hq, zero_mul, add_zero]

end Verif.CurlBasis
