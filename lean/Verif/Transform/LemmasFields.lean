import Verif.Transform.Lemmas
import Verif.RefGeometry.Normals
import Mathlib.Algebra.BigOperators.Field

set_option linter.all false
namespace Verif.Transform
open Verif.RefGeometry (Pt)
open Verif.PhysMap (solve)
open Matrix Topology

variable {d : Nat}

theorem pderiv_congr {E : Type*} [NormedAddCommGroup E] [NormedSpace ℝ E] {f g : Pt d → E} {x : Pt d}
    (h : f =ᶠ[𝓝 x] g) (k : Fin d) : pderiv k f x = pderiv k g x := by
  rw [pderiv, pderiv, h.fderiv_eq]

section
variable {F : Pt d → Pt d} {J : Pt d → Matrix (Fin d) (Fin d) ℝ} {x : Pt d}

theorem grad_aux (h : ElementMap F J x) (v w : Pt d → ℝ) (hw : DifferentiableAt ℝ w x)
    (hv : ∀ᶠ y in 𝓝 x, v (F y) = w y) :
    DifferentiableAt ℝ v (F x) ∧ grad v (F x) = solve (J x)ᵀ (grad w x) := by
  have hd := h.diff v w hv hw
  refine ⟨hd, (solve_unique _ (by rw [det_transpose]; exact h.regular) _ _ ?_).symm⟩
  ext k
  rw [grad, ← pderiv_congr hv, h.chain v hd, mulVec, dotProduct]
  exact Finset.sum_congr rfl fun l _ => by rw [transpose_apply, mul_comm]; rfl

theorem solve_diff (h : ElementMap F J x) (w : Pt d → Pt d) (hw : DifferentiableAt ℝ w x) :
    DifferentiableAt ℝ (fun y => solve (J y)ᵀ (w y)) x := by
  have e : (fun y => solve (J y)ᵀ (w y)) =ᶠ[𝓝 x]
      fun y i => (∑ j, (J y).adjugate j i * w y j) * (J y).det⁻¹ := by
    filter_upwards [h.det_ne] with y hy
    have hy' : ((J y)ᵀ).det ≠ 0 := by rw [det_transpose]; exact hy
    refine solve_unique _ hy' _ _ ?_
    ext i
    have h1 : (J y)ᵀ *ᵥ ((J y).adjugateᵀ *ᵥ w y) = (J y).det • w y := by
      rw [mulVec_mulVec, adjugate_transpose, mul_adjugate, det_transpose, smul_mulVec, one_mulVec]
    have h2 := congrFun h1 i
    have h3 : (fun i => (∑ j, (J y).adjugate j i * w y j) * (J y).det⁻¹)
        = (J y).det⁻¹ • ((J y).adjugateᵀ *ᵥ w y) := by
      ext i; simp [mulVec, dotProduct, mul_comm]
    rw [h3, mulVec_smul, h1, smul_smul, inv_mul_cancel₀ hy, one_smul]
  refine DifferentiableAt.congr_of_eventuallyEq ?_ e
  rw [differentiableAt_pi]
  intro i
  refine DifferentiableAt.mul ?_ ((det_diff J x h.smooth).inv h.regular)
  refine DifferentiableAt.fun_sum fun j _ => ?_
  exact (adj_diff J x h.smooth j i).mul (differentiableAt_pi.1 hw j)

/-- the derivatives of a covariant field -/
theorem cov_aux (h : ElementMap F J x) (u w : Pt d → Pt d) (hw : DifferentiableAt ℝ w x)
    (hv : ∀ᶠ y in 𝓝 x, u (F y) = solve (J y)ᵀ (w y)) :
    DifferentiableAt ℝ u (F x) ∧ ∀ j k, pderiv k (fun y => w y j) x - pderiv j (fun y => w y k) x
      = ∑ i, ∑ l, J x i j * J x l k * (pderiv l (fun z => u z i) (F x) - pderiv i (fun z => u z l) (F x)) := by
  have hd := h.diff u _ hv (solve_diff h w hw)
  have hdi : ∀ i, DifferentiableAt ℝ (fun z => u z i) (F x) := differentiableAt_pi.1 hd
  refine ⟨hd, ?_⟩
  have hFd : DifferentiableAt ℝ F x := h.deriv.self_of_nhds.differentiableAt
  have hc : ∀ i, DifferentiableAt ℝ (fun y => u (F y) i) x := fun i =>
    DifferentiableAt.comp x (hdi i) hFd
  have key : ∀ j k, pderiv k (fun y => w y j) x
      = ∑ i, (pderiv k (fun y => J y i j) x * u (F x) i + J x i j * ∑ l, pderiv l (fun z => u z i) (F x) * J x l k) := by
    intro j k
    have e : (fun y => w y j) =ᶠ[𝓝 x] fun y => ∑ i, J y i j * u (F y) i := by
      filter_upwards [hv, h.det_ne] with y hy hy'
      have : (J y)ᵀ *ᵥ u (F y) = w y := by
        rw [hy]; exact solve_spec _ (by rw [det_transpose]; exact hy') _
      rw [← this, mulVec, dotProduct]; rfl
    rw [pderiv_congr e, pderiv_sum _ (fun i y => J y i j * u (F y) i) x fun i _ => (h.smooth i j).mul (hc i)]
    refine Finset.sum_congr rfl fun i _ => ?_
    rw [pderiv_mul _ _ _ (h.smooth i j) (hc i), h.chain (fun z => u z i) (hdi i)]
  intro j k
  rw [key j k, key k j]
  simp only [Finset.sum_add_distrib, h.symm _ k j, Finset.mul_sum]
  have s : ∑ i, ∑ l, J x i k * (pderiv l (fun z => u z i) (F x) * J x l j)
      = ∑ i, ∑ l, J x l k * (pderiv i (fun z => u z l) (F x) * J x i j) := Finset.sum_comm
  rw [s]
  have : ∀ a b c : ℝ, a + b - (a + c) = b - c := fun a b c => by ring
  rw [this, ← Finset.sum_sub_distrib]
  refine Finset.sum_congr rfl fun i _ => ?_
  rw [← Finset.sum_sub_distrib]
  refine Finset.sum_congr rfl fun l _ => ?_
  ring

/-- the divergence of a contravariant field -/
theorem con_aux (h : ElementMap F J x) (u w : Pt d → Pt d) (hw : DifferentiableAt ℝ w x)
    (hv : ∀ᶠ y in 𝓝 x, u (F y) = fun i => (J y *ᵥ w y) i / (J y).det) :
    DifferentiableAt ℝ u (F x) ∧ divergence u (F x) = divergence w x / (J x).det := by
  have hwi : ∀ i, DifferentiableAt ℝ (fun y => w y i) x := differentiableAt_pi.1 hw
  have hD := det_diff J x h.smooth
  have hmul : ∀ i, DifferentiableAt ℝ (fun y => (J y *ᵥ w y) i) x := by
    intro i
    simp only [mulVec, dotProduct]
    exact DifferentiableAt.fun_sum fun j _ => (h.smooth i j).mul (hwi j)
  have hd : DifferentiableAt ℝ u (F x) := by
    refine h.diff u _ hv ?_
    rw [differentiableAt_pi]
    intro i
    simp only [div_eq_mul_inv]
    exact (hmul i).mul (hD.inv h.regular)
  refine ⟨hd, ?_⟩
  have hdi : ∀ i, DifferentiableAt ℝ (fun z => u z i) (F x) := differentiableAt_pi.1 hd
  have hFd : DifferentiableAt ℝ F x := h.deriv.self_of_nhds.differentiableAt
  have hc : ∀ i, DifferentiableAt ℝ (fun y => u (F y) i) x := fun i =>
    DifferentiableAt.comp x (hdi i) hFd
  set D := (J x).det with hDdef
  set A := (J x).adjugate with hA
  have key : ∀ i k, pderiv k (fun y => (J y).det) x * u (F x) i + D * ∑ l, pderiv l (fun z => u z i) (F x) * J x l k
      = ∑ j, (pderiv k (fun y => J y i j) x * w x j + J x i j * pderiv k (fun y => w y j) x) := by
    intro i k
    have e : (fun y => (J y).det * u (F y) i) =ᶠ[𝓝 x] fun y => ∑ j, J y i j * w y j := by
      filter_upwards [hv, h.det_ne] with y hy hy'
      rw [hy, mul_div_cancel₀ _ hy', mulVec, dotProduct]
    have e2 := pderiv_congr e k
    rw [pderiv_mul _ _ _ hD (hc i), h.chain (fun z => u z i) (hdi i),
      pderiv_sum _ (fun j y => J y i j * w y j) x fun j _ => (h.smooth i j).mul (hwi j)] at e2
    rw [e2]
    exact Finset.sum_congr rfl fun j _ => pderiv_mul _ _ _ (h.smooth i j) (hwi j) k
  -- multiply by the adjugate and add
  have sum := Finset.sum_congr (rfl : (Finset.univ : Finset (Fin d)) = Finset.univ) fun i _ =>
    Finset.sum_congr (rfl : (Finset.univ : Finset (Fin d)) = Finset.univ) fun k _ => congrArg (A k i * ·) (key i k)
  simp only [mul_add, Finset.sum_add_distrib] at sum
  have hAJ : ∀ k j, ∑ i, A k i * J x i j = if k = j then D else 0 := by
    intro k j
    have := congrFun (congrFun (adjugate_mul (J x)) k) j
    rw [Matrix.mul_apply] at this
    rw [this]; simp [Matrix.one_apply, hDdef]
  have hJA : ∀ l i, ∑ k, J x l k * A k i = if l = i then D else 0 := by
    intro k j
    have := congrFun (congrFun (mul_adjugate (J x)) k) j
    rw [Matrix.mul_apply] at this
    rw [this]; simp [Matrix.one_apply, hDdef]
  have hu : ∀ k, ∑ i, A k i * u (F x) i = w x k := by
    intro k
    have : ∀ i, u (F x) i = (∑ j, J x i j * w x j) / D := fun i => by
      have h0 := hv.self_of_nhds
      exact congrFun h0 i
    simp only [this, mul_div_assoc', Finset.mul_sum]
    rw [← Finset.sum_div, Finset.sum_comm, div_eq_iff h.regular]
    have : ∀ j, ∑ i, A k i * (J x i j * w x j) = (if k = j then D else 0) * w x j := fun j => by
      rw [← hAJ, Finset.sum_mul]; exact Finset.sum_congr rfl fun i _ => by ring
    simp only [this]
    simp [mul_comm]
    exact Or.inl rfl
  have t1 : ∑ i, ∑ k, A k i * (pderiv k (fun y => (J y).det) x * u (F x) i)
      = ∑ k, pderiv k (fun y => (J y).det) x * w x k := by
    rw [Finset.sum_comm]
    refine Finset.sum_congr rfl fun k _ => ?_
    rw [← hu k, Finset.mul_sum]
    exact Finset.sum_congr rfl fun i _ => by ring
  have t2 : ∑ i, ∑ k, A k i * (D * ∑ l, pderiv l (fun z => u z i) (F x) * J x l k) = D * D * divergence u (F x) := by
    rw [divergence, Finset.mul_sum]
    refine Finset.sum_congr rfl fun i _ => ?_
    simp only [Finset.mul_sum]
    rw [Finset.sum_comm]
    have : ∀ l, ∑ k, A k i * (D * (pderiv l (fun z => u z i) (F x) * J x l k))
        = (if l = i then D else 0) * (D * pderiv l (fun z => u z i) (F x)) := fun l => by
      rw [← hJA, Finset.sum_mul]; exact Finset.sum_congr rfl fun k _ => by ring
    simp only [this]
    simp [mul_assoc]
  have t3 : ∑ i, ∑ k, A k i * ∑ j, pderiv k (fun y => J y i j) x * w x j
      = ∑ k, pderiv k (fun y => (J y).det) x * w x k := by
    simp only [det_pderiv J x h.smooth, Finset.mul_sum, Finset.sum_mul]
    calc _ = ∑ i, ∑ j, ∑ k, A k i * (pderiv k (fun y => J y i j) x * w x j) :=
          Finset.sum_congr rfl fun i _ => Finset.sum_comm
      _ = ∑ j, ∑ i, ∑ k, A k i * (pderiv k (fun y => J y i j) x * w x j) := Finset.sum_comm
      _ = _ := by
        refine Finset.sum_congr rfl fun j _ => Finset.sum_congr rfl fun i _ => Finset.sum_congr rfl fun k _ => ?_
        rw [h.symm i j k]; ring
  have t4 : ∑ i, ∑ k, A k i * ∑ j, J x i j * pderiv k (fun y => w y j) x = D * divergence w x := by
    rw [divergence, Finset.mul_sum, Finset.sum_comm]
    refine Finset.sum_congr rfl fun k _ => ?_
    simp only [Finset.mul_sum]
    rw [Finset.sum_comm]
    have : ∀ j, ∑ i, A k i * (J x i j * pderiv k (fun y => w y j) x)
        = (if k = j then D else 0) * pderiv k (fun y => w y j) x := fun j => by
      rw [← hAJ, Finset.sum_mul]; exact Finset.sum_congr rfl fun i _ => by ring
    simp only [this]
    simp
  rw [t1, t2, t3, t4, add_right_inj, mul_assoc] at sum
  rw [eq_div_iff h.regular, mul_comm]
  exact mul_left_cancel₀ h.regular sum

end

open Verif.RefGeometry in
theorem det_append {n : Nat} (J : Matrix (Fin (n + 1)) (Fin (n + 1)) ℝ) (w : Pt (n + 1)) (T : Matrix (Fin (n + 1)) (Fin n) ℝ) :
      (appendCol (J * T) (J *ᵥ w)).det = J.det * (appendCol T w).det := by
  rw [← det_mul]
  congr 1
  ext i j
  rw [mul_apply]
  refine Fin.lastCases ?_ (fun j => ?_) j
  · simp only [appendCol_last]; rfl
  · simp only [appendCol_castSucc]; rfl

/-! ### Transposing in place -/

theorem swaps_invariant (M : Matrix (Fin d) (Fin d) ℝ) (l : List (Fin d × Fin d)) (hl : ∀ q ∈ l, q.2 < q.1) (hn : l.Nodup) :
    ∀ a b, l.foldl swapEntry M a b = if (a, b) ∈ l ∨ (b, a) ∈ l then M b a else M a b := by
  induction l using List.reverseRecOn with
  | nil => intro a b; simp
  | append_singleton l q ih =>
    intro a b
    have hl' : ∀ q ∈ l, q.2 < q.1 := fun r hr => hl r (by simp [hr])
    have hq : q.2 < q.1 := hl q (by simp)
    rw [List.nodup_append] at hn
    have hn' : q ∉ l := fun h => hn.2.2 q h q (by simp) rfl
    have hn2 : (q.2, q.1) ∉ l := fun h => absurd (hl' _ h) (by simpa using hq.le)
    have ih := ih hl' hn.1
    obtain ⟨i, j⟩ := q
    simp only at hq hn2
    rw [List.foldl_append, List.foldl_cons, List.foldl_nil, swapEntry, Matrix.of_apply]
    have e1 := ih i j
    have e2 := ih j i
    rw [if_neg (by tauto)] at e1 e2
    by_cases h1 : (a, b) = (i, j)
    · obtain ⟨rfl, rfl⟩ := Prod.mk.inj h1
      simp [e2]
    · rw [if_neg h1]
      by_cases h2 : (a, b) = (j, i)
      · obtain ⟨rfl, rfl⟩ := Prod.mk.inj h2
        simp [e1]
      · rw [if_neg h2, ih]
        have h2' : (b, a) ≠ (i, j) := fun h => h2 (by obtain ⟨rfl, rfl⟩ := Prod.mk.inj h; rfl)
        simp [h1, h2']

theorem swaps_transpose (M : Matrix (Fin d) (Fin d) ℝ) : (lowerPairs d).foldl swapEntry M = Mᵀ := by
  have mem : ∀ a b : Fin d, (a, b) ∈ lowerPairs d ↔ b < a := by
    intro a b; simp [lowerPairs]
  have hn : (lowerPairs d).Nodup := by
    refine List.nodup_flatMap.2 ⟨fun i _ => ?_, ?_⟩
    · exact ((List.nodup_finRange d).filter _).map fun a b h => (Prod.mk.inj h).2
    · refine (List.nodup_finRange d).imp fun {a b} hab => ?_
      rw [Function.onFun, List.disjoint_left]
      intro q h1 h2
      simp only [List.mem_map] at h1 h2
      obtain ⟨_, _, rfl⟩ := h1
      obtain ⟨_, _, h⟩ := h2
      exact hab (Prod.mk.inj h).1.symm
  ext a b
  rw [swaps_invariant M _ (fun q hq => (mem q.1 q.2).1 hq) hn, transpose_apply]
  simp only [mem]
  rcases lt_trichotomy a b with h | h | h
  · rw [if_pos (Or.inr h)]
  · subst h; simp
  · rw [if_pos (Or.inl h)]

end Verif.Transform
