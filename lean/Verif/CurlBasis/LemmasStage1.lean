import Verif.CurlBasis.LemmasAinsworth

set_option linter.all false
namespace Verif.CurlBasis
open Verif.RefGeometry (Pt tetrahedronG)
open Verif.Basis (bary3)
open Verif.Legendre (legendre legendreDeriv rodrigues)

theorem edgeNodes_table : edgeNodes 3 0 = (1, 2) ∧ edgeNodes 3 1 = (0, 2) ∧ edgeNodes 3 2 = (0, 1) ∧
    edgeNodes 2 0 = (1, 3) ∧ edgeNodes 2 1 = (0, 3) ∧ edgeNodes 2 3 = (0, 1) ∧
    edgeNodes 1 0 = (2, 3) ∧ edgeNodes 1 2 = (0, 3) ∧ edgeNodes 1 3 = (0, 2) ∧
    edgeNodes 0 1 = (2, 3) ∧ edgeNodes 0 2 = (1, 3) ∧ edgeNodes 0 3 = (1, 2) := by decide

noncomputable abbrev gg (c : AinsworthFn → ℝ) (p t : Pt 3) (f : AinsworthFn) : ℝ := c f * dot (f.eval p) t

def Vanish (order : Nat) (c : AinsworthFn → ℝ) : Prop := ∀ p t, tetrahedronG.isInternal p →
  edgeSum order (gg c p t) + edgeFaceSum order (gg c p t) + faceSum order (gg c p t) +
    interiorSum order (gg c p t) = 0

theorem vanish_of (order : Nat) (c : AinsworthFn → ℝ)
    (h : ∀ p, tetrahedronG.isInternal p → ((ainsworth3 order).map fun f => c f • f.eval p).sum = 0) :
    Vanish order c := by
  intro p t hp
  rw [← ainsworth_sum]
  have := congrArg (dotHom t) (h p hp)
  rw [map_list_sum, map_zero, List.map_map] at this
  rw [← this]
  congr 1
  refine List.map_congr_left fun f _ => ?_
  simp [dotHom, dot_smul]

theorem exists_pt (b0 b1 b2 b3 : ℝ) (h : b0 + b1 + b2 + b3 = 1) (h0 : 0 ≤ b0) (h1 : 0 ≤ b1)
    (h2 : 0 ≤ b2) (h3 : 0 ≤ b3) : ∃ P : Pt 3, bary3 0 P = b0 ∧ bary3 1 P = b1 ∧ bary3 2 P = b2 ∧
      bary3 3 P = b3 ∧ tetrahedronG.isInternal P := by
  refine ⟨![b1, b2, b3], ?_, rfl, rfl, rfl, ?_⟩
  · simp [bary3]; linarith
  · refine ⟨?_, ?_, ?_, ?_, ?_, ?_⟩ <;> simp <;> linarith

set_option hygiene false in
macro "zeroEF" : tactic => `(tactic| (
  unfold edgeFaceSum
  refine Finset.sum_eq_zero fun q _ => ?_
  simp [gg, AinsworthFn.eval, edgeNodes_table, hb0, hb1, hb2, hb3, baryGrad, dot]))

set_option hygiene false in
macro "zeroF" : tactic => `(tactic| (
  unfold faceSum
  refine Finset.sum_eq_zero fun q _ => Finset.sum_eq_zero fun m _ => ?_
  simp [gg, AinsworthFn.eval, faceNodes, faceNodesDir, faceDirection, hb0, hb1, hb2, hb3, baryGrad, dot]))

set_option hygiene false in
macro "zeroI" : tactic => `(tactic| (
  unfold interiorSum
  refine Finset.sum_eq_zero fun q _ => Finset.sum_eq_zero fun m _ => Finset.sum_eq_zero fun n _ => ?_
  simp [gg, AinsworthFn.eval, unitVector, hb0, hb1, hb2, hb3, baryGrad, dot]))

theorem stage1_01 (order : Nat) (c : AinsworthFn → ℝ) (H : Vanish order c) :
    ∀ q < order + 1, c (.edge q 0 1) = 0 := by
  refine legendre_ind (order + 1) (fun q => c (.edge q 0 1)) fun x h0 h1 => ?_
  obtain ⟨P, hb0, hb1, hb2, hb3, hin⟩ := exists_pt ((1 - x) / 2) ((1 + x) / 2) (0) (0) (by ring)
    (by linarith) (by linarith) (by linarith) (by linarith)
  have := H P ![1, 0, 0] hin
  have e2 : edgeFaceSum order (gg c P ![1, 0, 0]) = 0 := by zeroEF
  have e3 : faceSum order (gg c P ![1, 0, 0]) = 0 := by zeroF
  have e4 : interiorSum order (gg c P ![1, 0, 0]) = 0 := by zeroI
  rw [e2, e3, e4, add_zero, add_zero, add_zero] at this
  rw [← neg_eq_zero, ← Finset.sum_neg_distrib, ← this]
  unfold edgeSum
  refine Finset.sum_congr rfl fun q _ => ?_
  have z02 : dot ((AinsworthFn.edge q 0 2).eval P) ![1, 0, 0] = 0 := by
    apply edge_zero <;> simp [hb0, hb1, hb2, hb3, baryGrad, dot]
  have z03 : dot ((AinsworthFn.edge q 0 3).eval P) ![1, 0, 0] = 0 := by
    apply edge_zero <;> simp [hb0, hb1, hb2, hb3, baryGrad, dot]
  have z23 : dot ((AinsworthFn.edge q 2 3).eval P) ![1, 0, 0] = 0 := by
    apply edge_zero <;> simp [hb0, hb1, hb2, hb3, baryGrad, dot]
  have z13 : dot ((AinsworthFn.edge q 1 3).eval P) ![1, 0, 0] = 0 := by
    apply edge_zero <;> simp [hb0, hb1, hb2, hb3, baryGrad, dot]
  have z12 : dot ((AinsworthFn.edge q 1 2).eval P) ![1, 0, 0] = 0 := by
    apply edge_zero <;> simp [hb0, hb1, hb2, hb3, baryGrad, dot]
  have v := edge_value q 0 1 P ![1, 0, 0] (by rw [hb0, hb1]; ring) (by simp [baryGrad, dot]) (by simp [baryGrad, dot])
  simp only [gg, z02, z03, z23, z13, z12, v, mul_zero, zero_add, add_zero]
  have ex : bary3 1 P - bary3 0 P = x := by rw [hb0, hb1]; ring
  rw [ex]; ring

theorem stage1_02 (order : Nat) (c : AinsworthFn → ℝ) (H : Vanish order c) :
    ∀ q < order + 1, c (.edge q 0 2) = 0 := by
  refine legendre_ind (order + 1) (fun q => c (.edge q 0 2)) fun x h0 h1 => ?_
  obtain ⟨P, hb0, hb1, hb2, hb3, hin⟩ := exists_pt ((1 - x) / 2) (0) ((1 + x) / 2) (0) (by ring)
    (by linarith) (by linarith) (by linarith) (by linarith)
  have := H P ![0, 1, 0] hin
  have e2 : edgeFaceSum order (gg c P ![0, 1, 0]) = 0 := by zeroEF
  have e3 : faceSum order (gg c P ![0, 1, 0]) = 0 := by zeroF
  have e4 : interiorSum order (gg c P ![0, 1, 0]) = 0 := by zeroI
  rw [e2, e3, e4, add_zero, add_zero, add_zero] at this
  rw [← neg_eq_zero, ← Finset.sum_neg_distrib, ← this]
  unfold edgeSum
  refine Finset.sum_congr rfl fun q _ => ?_
  have z01 : dot ((AinsworthFn.edge q 0 1).eval P) ![0, 1, 0] = 0 := by
    apply edge_zero <;> simp [hb0, hb1, hb2, hb3, baryGrad, dot]
  have z03 : dot ((AinsworthFn.edge q 0 3).eval P) ![0, 1, 0] = 0 := by
    apply edge_zero <;> simp [hb0, hb1, hb2, hb3, baryGrad, dot]
  have z23 : dot ((AinsworthFn.edge q 2 3).eval P) ![0, 1, 0] = 0 := by
    apply edge_zero <;> simp [hb0, hb1, hb2, hb3, baryGrad, dot]
  have z13 : dot ((AinsworthFn.edge q 1 3).eval P) ![0, 1, 0] = 0 := by
    apply edge_zero <;> simp [hb0, hb1, hb2, hb3, baryGrad, dot]
  have z12 : dot ((AinsworthFn.edge q 1 2).eval P) ![0, 1, 0] = 0 := by
    apply edge_zero <;> simp [hb0, hb1, hb2, hb3, baryGrad, dot]
  have v := edge_value q 0 2 P ![0, 1, 0] (by rw [hb0, hb2]; ring) (by simp [baryGrad, dot]) (by simp [baryGrad, dot])
  simp only [gg, z01, z03, z23, z13, z12, v, mul_zero, zero_add, add_zero]
  have ex : bary3 2 P - bary3 0 P = x := by rw [hb0, hb2]; ring
  rw [ex]; ring

theorem stage1_03 (order : Nat) (c : AinsworthFn → ℝ) (H : Vanish order c) :
    ∀ q < order + 1, c (.edge q 0 3) = 0 := by
  refine legendre_ind (order + 1) (fun q => c (.edge q 0 3)) fun x h0 h1 => ?_
  obtain ⟨P, hb0, hb1, hb2, hb3, hin⟩ := exists_pt ((1 - x) / 2) (0) (0) ((1 + x) / 2) (by ring)
    (by linarith) (by linarith) (by linarith) (by linarith)
  have := H P ![0, 0, 1] hin
  have e2 : edgeFaceSum order (gg c P ![0, 0, 1]) = 0 := by zeroEF
  have e3 : faceSum order (gg c P ![0, 0, 1]) = 0 := by zeroF
  have e4 : interiorSum order (gg c P ![0, 0, 1]) = 0 := by zeroI
  rw [e2, e3, e4, add_zero, add_zero, add_zero] at this
  rw [← neg_eq_zero, ← Finset.sum_neg_distrib, ← this]
  unfold edgeSum
  refine Finset.sum_congr rfl fun q _ => ?_
  have z01 : dot ((AinsworthFn.edge q 0 1).eval P) ![0, 0, 1] = 0 := by
    apply edge_zero <;> simp [hb0, hb1, hb2, hb3, baryGrad, dot]
  have z02 : dot ((AinsworthFn.edge q 0 2).eval P) ![0, 0, 1] = 0 := by
    apply edge_zero <;> simp [hb0, hb1, hb2, hb3, baryGrad, dot]
  have z23 : dot ((AinsworthFn.edge q 2 3).eval P) ![0, 0, 1] = 0 := by
    apply edge_zero <;> simp [hb0, hb1, hb2, hb3, baryGrad, dot]
  have z13 : dot ((AinsworthFn.edge q 1 3).eval P) ![0, 0, 1] = 0 := by
    apply edge_zero <;> simp [hb0, hb1, hb2, hb3, baryGrad, dot]
  have z12 : dot ((AinsworthFn.edge q 1 2).eval P) ![0, 0, 1] = 0 := by
    apply edge_zero <;> simp [hb0, hb1, hb2, hb3, baryGrad, dot]
  have v := edge_value q 0 3 P ![0, 0, 1] (by rw [hb0, hb3]; ring) (by simp [baryGrad, dot]) (by simp [baryGrad, dot])
  simp only [gg, z01, z02, z23, z13, z12, v, mul_zero, zero_add, add_zero]
  have ex : bary3 3 P - bary3 0 P = x := by rw [hb0, hb3]; ring
  rw [ex]; ring

theorem stage1_23 (order : Nat) (c : AinsworthFn → ℝ) (H : Vanish order c) :
    ∀ q < order + 1, c (.edge q 2 3) = 0 := by
  refine legendre_ind (order + 1) (fun q => c (.edge q 2 3)) fun x h0 h1 => ?_
  obtain ⟨P, hb0, hb1, hb2, hb3, hin⟩ := exists_pt (0) (0) ((1 - x) / 2) ((1 + x) / 2) (by ring)
    (by linarith) (by linarith) (by linarith) (by linarith)
  have := H P ![0, -1, 1] hin
  have e2 : edgeFaceSum order (gg c P ![0, -1, 1]) = 0 := by zeroEF
  have e3 : faceSum order (gg c P ![0, -1, 1]) = 0 := by zeroF
  have e4 : interiorSum order (gg c P ![0, -1, 1]) = 0 := by zeroI
  rw [e2, e3, e4, add_zero, add_zero, add_zero] at this
  rw [← neg_eq_zero, ← Finset.sum_neg_distrib, ← this]
  unfold edgeSum
  refine Finset.sum_congr rfl fun q _ => ?_
  have z01 : dot ((AinsworthFn.edge q 0 1).eval P) ![0, -1, 1] = 0 := by
    apply edge_zero <;> simp [hb0, hb1, hb2, hb3, baryGrad, dot]
  have z02 : dot ((AinsworthFn.edge q 0 2).eval P) ![0, -1, 1] = 0 := by
    apply edge_zero <;> simp [hb0, hb1, hb2, hb3, baryGrad, dot]
  have z03 : dot ((AinsworthFn.edge q 0 3).eval P) ![0, -1, 1] = 0 := by
    apply edge_zero <;> simp [hb0, hb1, hb2, hb3, baryGrad, dot]
  have z13 : dot ((AinsworthFn.edge q 1 3).eval P) ![0, -1, 1] = 0 := by
    apply edge_zero <;> simp [hb0, hb1, hb2, hb3, baryGrad, dot]
  have z12 : dot ((AinsworthFn.edge q 1 2).eval P) ![0, -1, 1] = 0 := by
    apply edge_zero <;> simp [hb0, hb1, hb2, hb3, baryGrad, dot]
  have v := edge_value q 2 3 P ![0, -1, 1] (by rw [hb2, hb3]; ring) (by simp [baryGrad, dot]) (by simp [baryGrad, dot])
  simp only [gg, z01, z02, z03, z13, z12, v, mul_zero, zero_add, add_zero]
  have ex : bary3 3 P - bary3 2 P = x := by rw [hb2, hb3]; ring
  rw [ex]; ring

theorem stage1_13 (order : Nat) (c : AinsworthFn → ℝ) (H : Vanish order c) :
    ∀ q < order + 1, c (.edge q 1 3) = 0 := by
  refine legendre_ind (order + 1) (fun q => c (.edge q 1 3)) fun x h0 h1 => ?_
  obtain ⟨P, hb0, hb1, hb2, hb3, hin⟩ := exists_pt (0) ((1 - x) / 2) (0) ((1 + x) / 2) (by ring)
    (by linarith) (by linarith) (by linarith) (by linarith)
  have := H P ![-1, 0, 1] hin
  have e2 : edgeFaceSum order (gg c P ![-1, 0, 1]) = 0 := by zeroEF
  have e3 : faceSum order (gg c P ![-1, 0, 1]) = 0 := by zeroF
  have e4 : interiorSum order (gg c P ![-1, 0, 1]) = 0 := by zeroI
  rw [e2, e3, e4, add_zero, add_zero, add_zero] at this
  rw [← neg_eq_zero, ← Finset.sum_neg_distrib, ← this]
  unfold edgeSum
  refine Finset.sum_congr rfl fun q _ => ?_
  have z01 : dot ((AinsworthFn.edge q 0 1).eval P) ![-1, 0, 1] = 0 := by
    apply edge_zero <;> simp [hb0, hb1, hb2, hb3, baryGrad, dot]
  have z02 : dot ((AinsworthFn.edge q 0 2).eval P) ![-1, 0, 1] = 0 := by
    apply edge_zero <;> simp [hb0, hb1, hb2, hb3, baryGrad, dot]
  have z03 : dot ((AinsworthFn.edge q 0 3).eval P) ![-1, 0, 1] = 0 := by
    apply edge_zero <;> simp [hb0, hb1, hb2, hb3, baryGrad, dot]
  have z23 : dot ((AinsworthFn.edge q 2 3).eval P) ![-1, 0, 1] = 0 := by
    apply edge_zero <;> simp [hb0, hb1, hb2, hb3, baryGrad, dot]
  have z12 : dot ((AinsworthFn.edge q 1 2).eval P) ![-1, 0, 1] = 0 := by
    apply edge_zero <;> simp [hb0, hb1, hb2, hb3, baryGrad, dot]
  have v := edge_value q 1 3 P ![-1, 0, 1] (by rw [hb1, hb3]; ring) (by simp [baryGrad, dot]) (by simp [baryGrad, dot])
  simp only [gg, z01, z02, z03, z23, z12, v, mul_zero, zero_add, add_zero]
  have ex : bary3 3 P - bary3 1 P = x := by rw [hb1, hb3]; ring
  rw [ex]; ring

theorem stage1_12 (order : Nat) (c : AinsworthFn → ℝ) (H : Vanish order c) :
    ∀ q < order + 1, c (.edge q 1 2) = 0 := by
  refine legendre_ind (order + 1) (fun q => c (.edge q 1 2)) fun x h0 h1 => ?_
  obtain ⟨P, hb0, hb1, hb2, hb3, hin⟩ := exists_pt (0) ((1 - x) / 2) ((1 + x) / 2) (0) (by ring)
    (by linarith) (by linarith) (by linarith) (by linarith)
  have := H P ![-1, 1, 0] hin
  have e2 : edgeFaceSum order (gg c P ![-1, 1, 0]) = 0 := by zeroEF
  have e3 : faceSum order (gg c P ![-1, 1, 0]) = 0 := by zeroF
  have e4 : interiorSum order (gg c P ![-1, 1, 0]) = 0 := by zeroI
  rw [e2, e3, e4, add_zero, add_zero, add_zero] at this
  rw [← neg_eq_zero, ← Finset.sum_neg_distrib, ← this]
  unfold edgeSum
  refine Finset.sum_congr rfl fun q _ => ?_
  have z01 : dot ((AinsworthFn.edge q 0 1).eval P) ![-1, 1, 0] = 0 := by
    apply edge_zero <;> simp [hb0, hb1, hb2, hb3, baryGrad, dot]
  have z02 : dot ((AinsworthFn.edge q 0 2).eval P) ![-1, 1, 0] = 0 := by
    apply edge_zero <;> simp [hb0, hb1, hb2, hb3, baryGrad, dot]
  have z03 : dot ((AinsworthFn.edge q 0 3).eval P) ![-1, 1, 0] = 0 := by
    apply edge_zero <;> simp [hb0, hb1, hb2, hb3, baryGrad, dot]
  have z23 : dot ((AinsworthFn.edge q 2 3).eval P) ![-1, 1, 0] = 0 := by
    apply edge_zero <;> simp [hb0, hb1, hb2, hb3, baryGrad, dot]
  have z13 : dot ((AinsworthFn.edge q 1 3).eval P) ![-1, 1, 0] = 0 := by
    apply edge_zero <;> simp [hb0, hb1, hb2, hb3, baryGrad, dot]
  have v := edge_value q 1 2 P ![-1, 1, 0] (by rw [hb1, hb2]; ring) (by simp [baryGrad, dot]) (by simp [baryGrad, dot])
  simp only [gg, z01, z02, z03, z23, z13, v, mul_zero, zero_add, add_zero]
  have ex : bary3 2 P - bary3 1 P = x := by rw [hb1, hb2]; ring
  rw [ex]; ring

theorem stage1 (order : Nat) (c : AinsworthFn → ℝ) (H : Vanish order c) (q : Nat) (hq : q < order + 1) :
    c (.edge q 0 1) = 0 ∧ c (.edge q 0 2) = 0 ∧ c (.edge q 0 3) = 0 ∧ c (.edge q 2 3) = 0 ∧ c (.edge q 1 3) = 0 ∧ c (.edge q 1 2) = 0 :=
  ⟨stage1_01 order c H q hq, stage1_02 order c H q hq, stage1_03 order c H q hq, stage1_23 order c H q hq, stage1_13 order c H q hq, stage1_12 order c H q hq⟩

theorem edgeSum_zero (order : Nat) (c : AinsworthFn → ℝ) (H : Vanish order c) (p t : Pt 3) :
    edgeSum order (gg c p t) = 0 := by
  unfold edgeSum
  refine Finset.sum_eq_zero fun q hq => ?_
  obtain ⟨h1, h2, h3, h4, h5, h6⟩ := stage1 order c H q (Finset.mem_range.mp hq)
  simp [gg, h1, h2, h3, h4, h5, h6]

end Verif.CurlBasis
