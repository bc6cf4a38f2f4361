import Verif.Bloch.ProjectorModel
import Verif.Bloch.Lemmas
import Mathlib.Tactic.NormNum
import Mathlib.Tactic.LinearCombination
import Mathlib.LinearAlgebra.Matrix.Notation
import Mathlib.LinearAlgebra.Matrix.ConjTranspose

/-!
# The projector of the eigenvalue solver
-/

namespace Verif.Bloch

open Spec
open Verif.DenseMatrix (Mat)

variable {d : ℕ}

/-- The couplings of the functions of an entity with those of an element: the
functions are continued to the element displaced by the difference of the places
of the entity. -/
def Spec.support (e : Entity d) (s : Support d) : List (Coupling d) :=
  (List.range e.rows.length).flatMap fun i => (List.range s.cols.length).map fun j =>
    ⟨e.rows.getD i 0, s.cols.getD j 0, fun a => e.own a - s.coord a, s.mat.get (i + s.offset) j⟩

/-- All couplings of the entities on the boundary. -/
def Spec.supports (es : List (Entity d)) : List (Coupling d) :=
  es.flatMap fun e => e.supports.flatMap (support e)

section lemmas

private theorem getD_flatMap_range {n c i j : ℕ} (hi : i < n) (hj : j < c) (g : ℕ → ℕ → ℂ) :
    ((List.range c).flatMap fun j => (List.range n).map fun i => g i j).getD (n * j + i) 0 =
      g i j := by
  induction c with
  | zero => omega
  | succ c ih =>
    have hlen : ∀ c : ℕ, ((List.range c).flatMap fun j => (List.range n).map fun i => g i j).length =
        n * c := by
      intro c
      induction c with
      | zero => simp
      | succ c ih => rw [List.range_succ, List.flatMap_append, List.length_append, ih]; simp; ring
    rw [List.range_succ, List.flatMap_append, List.getD_eq_getElem?_getD]
    by_cases h : j < c
    · rw [List.getElem?_append_left (by rw [hlen]; exact idx_lt hi h), ← List.getD_eq_getElem?_getD,
        ih h]
    · obtain rfl : j = c := by omega
      rw [List.getElem?_append_right (by rw [hlen]; omega), hlen]
      simp [hi]

private theorem subMatrix_getD (m : Mat ℂ) (o n c i j : ℕ) (hi : i < n) (hj : j < c) :
    (subMatrix m o n c).data.getD (n * j + i) 0 = m.get (i + o) j :=
  getD_flatMap_range hi hj fun i j => m.get (i + o) j

private theorem addElement_spec (e : Entity d) (s : Support d) (k : Vec d) (w : ℕ → ℕ → ℂ)
    (hn : Real.sqrt (dot (fun i => e.own i - s.coord i) (fun i => e.own i - s.coord i)) ≤ 1e-12 →
      s.coord = e.own)
    (hw : ∀ r ∈ e.rows, ∀ c ∈ s.cols, w r c = phase (-dot k s.extra)) (t : ℕ × ℕ × ℂ) :
    t ∈ (e.addElement s).flatMap (fun b => triples b k) ↔
      s.coord ≠ e.own ∧ ∃ x ∈ support e s, trip w k x = t := by
  unfold Entity.addElement
  simp only
  split
  · rename_i hgt
    have hne : s.coord ≠ e.own := by
      intro hcon
      rw [hcon] at hgt
      simp only [sub_self, dot_zero_left, Real.sqrt_zero] at hgt
      norm_num at hgt
    split
    · rename_i h0
      simp [support, h0]
    · simp only [List.flatMap_cons, List.flatMap_nil, List.append_nil, triples, trip1, support,
        List.mem_flatMap, List.mem_map, List.mem_range]
      have key : ∀ i < e.rows.length, ∀ j < s.cols.length,
          trip w k ⟨e.rows.getD i 0, s.cols.getD j 0, fun a => e.own a - s.coord a,
            s.mat.get (i + s.offset) j⟩ =
          (e.rows.getD i 0, s.cols.getD j 0,
            (subMatrix s.mat s.offset e.rows.length s.cols.length).data.getD
              (e.rows.length * j + i) 0 *
            phase (dot k fun i => e.own i - s.coord i - s.extra i)) := by
        intro i hi j hj
        rw [subMatrix_getD _ _ _ _ _ _ hi hj]
        unfold trip
        simp only
        rw [hw _ (mem_getD hi) _ (mem_getD hj)]
        refine Prod.ext rfl (Prod.ext rfl ?_)
        simp only
        rw [mul_assoc, ← phase_add]
        congr 2
        unfold dot
        rw [← Finset.sum_neg_distrib, ← Finset.sum_add_distrib]
        exact Finset.sum_congr rfl fun i _ => by ring
      constructor
      · rintro ⟨i, hi, j, hj, rfl⟩
        exact ⟨hne, _, ⟨i, hi, j, hj, rfl⟩, key i hi j hj⟩
      · rintro ⟨-, x, ⟨i, hi, j, hj, rfl⟩, rfl⟩
        exact ⟨i, hi, j, hj, (key i hi j hj).symm⟩
  · rename_i hgt
    have := hn (not_lt.1 hgt)
    simp [this]

/-- Insertions that are exactly those of some couplings. -/
private theorem foldl_bloch (cs p : List (Coupling d)) (k k0 : Vec d) (w : ℕ → ℕ → ℂ) (m : PMat)
    (T : List (ℕ × ℕ × ℂ)) (hT : ∀ t, t ∈ T ↔ ∃ x ∈ p, trip w k x = t) (ha : Alone cs p)
    (hz : ∀ x ∈ cs, x ∉ p → x.shift = fun _ => 0)
    (h0 : ∀ r c, m r c = bloch cs k0 r c * w r c) :
    T.foldl insT m = fun r c => bloch cs k r c * w r c := by
  funext r c
  by_cases hx : ∃ x ∈ p, x.row = r ∧ x.col = c
  · obtain ⟨x, hx, rfl, rfl⟩ := hx
    have hb := bloch_alone _ _ ha x hx
    refine foldl_insT_some T m _ _ _ ?_ ?_ ?_
    · intro hz
      rw [h0, hb k0]
      rw [hb k] at hz
      rcases mul_eq_zero.1 hz with hz | hz
      · rcases mul_eq_zero.1 hz with hz | hz
        · simp [hz]
        · exact absurd hz (phase_ne _)
      · simp [hz]
    · intro t ht e1 e2
      obtain ⟨y, hy, rfl⟩ := (hT t).1 ht
      have e1' : y.row = x.row := e1
      have e2' : y.col = x.col := e2
      rw [← e1', ← e2', bloch_alone _ _ ha y hy k]
      rfl
    · exact Or.inr ⟨trip w k x, (hT _).2 ⟨x, hx, rfl⟩, rfl, rfl⟩
  · rw [foldl_insT_none]
    · rw [h0]
      congr 1
      rw [bloch_phase, bloch_phase]
      congr 1
      refine List.map_congr_left fun y hy => ?_
      rw [List.mem_filter] at hy
      rw [hz y hy.1 (fun hyp => hx ⟨y, hyp, by simpa [Coupling.at] using hy.2⟩), dot_zero_right,
        dot_zero_right]
    · intro t ht hh
      obtain ⟨y, hy, rfl⟩ := (hT t).1 ht
      exact hx ⟨y, hy, hh⟩

end lemmas

/-- **C73.** The matrix between the continuous functions and the field: whatever wave
vectors have been visited, after moving to `k` its entries are those of functions
that are continued with the factor `exp(i k a)` to the other side of the periodic
boundary, with the factor `exp(-i f k x)` for the centre `x` of the element in each
column.  Provided: elements from which an entity is seen at its own place see it at
exactly that place, an element sees an entity in one place, and the steps are equal or
clearly different. -/
theorem projector_history_partial (es : List (Entity d)) (rest : List (Coupling d))
    (x : ℕ → Vec d) (f : ℝ) (hr : ∀ y ∈ rest, y.shift = fun _ => 0)
    (hnear : ∀ e ∈ es, ∀ s ∈ e.supports,
      Real.sqrt (dot (fun i => e.own i - s.coord i) (fun i => e.own i - s.coord i)) ≤ 1e-12 →
      s.coord = e.own)
    (hx : ∀ e ∈ es, ∀ s ∈ e.supports, ∀ c ∈ s.cols, s.extra = fun i => x c i * f)
    (ha : Alone (rest ++ supports es)
      ((supports es).filter fun y => open Classical in decide (y.shift ≠ fun _ => 0)))
    (ks : List (Vec d))
    (hs : ∀ a ∈ (fun _ => 0) :: steps (fun _ => 0) ks, ∀ b ∈ steps (fun _ => 0) ks,
      Real.sqrt (dot (fun i => b i - a i) (fun i => b i - a i)) < 1e-12 → a = b) :
    (ks.foldl (fun w k => w.updateProjector (buildProjector es) x f k)
        (⟨bloch (rest ++ supports es) (fun _ => 0), fun _ => 0, fun _ => 0⟩ : Work d)).mat =
      fun r c => bloch (rest ++ supports es) (ks.getLastD fun _ => 0) r c *
        Complex.exp (-(f * dot (ks.getLastD fun _ => 0) (x c)) * Complex.I) := by
  set cs := rest ++ supports es with hcs
  set p := (supports es).filter fun y => open Classical in decide (y.shift ≠ fun _ => 0) with hp
  let W : Vec d → ℕ → ℕ → ℂ := fun k _ c => phase (-(f * dot k (x c)))
  have hshift : ∀ e : Entity d, ∀ s : Support d, ∀ y ∈ support e s,
      y.shift = fun a => e.own a - s.coord a := by
    intro e s y hy
    simp only [support, List.mem_flatMap, List.mem_map] at hy
    obtain ⟨i, -, j, -, rfl⟩ := hy
    rfl
  have hmem : ∀ y, y ∈ p ↔ ∃ e ∈ es, ∃ s ∈ e.supports, s.coord ≠ e.own ∧ y ∈ support e s := by
    intro y
    rw [hp, List.mem_filter]
    simp only [supports, List.mem_flatMap, decide_eq_true_eq]
    have hiff : ∀ e : Entity d, ∀ s : Support d, y ∈ support e s →
        ((y.shift ≠ fun _ => 0) ↔ s.coord ≠ e.own) := by
      intro e s hy
      rw [hshift e s y hy]
      refine not_congr ⟨fun h => ?_, fun h => by rw [h]; simp⟩
      funext i
      have := congrFun h i
      linarith
    constructor
    · rintro ⟨⟨e, he, s, hs, hy⟩, hne⟩
      exact ⟨e, he, s, hs, (hiff e s hy).1 hne, hy⟩
    · rintro ⟨e, he, s, hs, hne, hy⟩
      exact ⟨⟨e, he, s, hs, hy⟩, (hiff e s hy).2 hne⟩
  have hT : ∀ k t, t ∈ (buildProjector es).flatMap (fun b => triples b k) ↔
      ∃ y ∈ p, trip (W k) k y = t := by
    intro k t
    have hadd : ∀ e ∈ es, ∀ s ∈ e.supports, ∀ t, t ∈ (e.addElement s).flatMap (fun b => triples b k) ↔
        s.coord ≠ e.own ∧ ∃ y ∈ support e s, trip (W k) k y = t := by
      intro e he s hs t
      refine addElement_spec e s k (W k) (hnear e he s hs) (fun r _ c hc => ?_) t
      change phase _ = phase _
      rw [hx e he s hs c hc]
      congr 2
      unfold dot
      rw [Finset.mul_sum]
      exact Finset.sum_congr rfl fun i _ => by ring
    unfold buildProjector
    simp only [List.mem_flatMap]
    constructor
    · rintro ⟨b, ⟨e, he, s, hs, hb⟩, ht⟩
      obtain ⟨h1, y, hy, rfl⟩ := (hadd e he s hs t).1 (List.mem_flatMap.2 ⟨b, hb, ht⟩)
      exact ⟨y, (hmem y).2 ⟨e, he, s, hs, h1, hy⟩, rfl⟩
    · rintro ⟨y, hy, rfl⟩
      obtain ⟨e, he, s, hs, h1, hy⟩ := (hmem y).1 hy
      obtain ⟨b, hb, ht⟩ := List.mem_flatMap.1 ((hadd e he s hs _).2 ⟨h1, y, hy, rfl⟩)
      exact ⟨b, ⟨e, he, s, hs, hb⟩, ht⟩
  have hz : ∀ y ∈ cs, y ∉ p → y.shift = fun _ => 0 := by
    intro y hy hyp
    rcases List.mem_append.1 hy with hy | hy
    · exact hr y hy
    · by_contra hcon
      exact hyp (by rw [hp, List.mem_filter]; exact ⟨hy, by simpa using hcon⟩)
  have happ : ∀ (k k0 : Vec d) (m : PMat), (∀ r c, m r c = bloch cs k0 r c * W k r c) →
      applyShifts (buildProjector es) k m = fun r c => bloch cs k r c * W k r c := by
    intro k k0 m hm
    rw [applyShifts_eq]
    exact foldl_bloch cs p k k0 (W k) m _ (hT k) ha hz hm
  have main : ∀ (ks : List (Vec d)) (k0 dk0 : Vec d),
      (f ≠ 0 → ∀ a ∈ dk0 :: steps k0 ks, ∀ b ∈ steps k0 ks,
        Real.sqrt (dot (fun i => b i - a i) (fun i => b i - a i)) < 1e-12 → a = b) →
      (ks.foldl (fun w k => w.updateProjector (buildProjector es) x f k)
        (⟨fun r c => bloch cs k0 r c * W k0 r c, k0, dk0⟩ : Work d)).mat =
      fun r c => bloch cs (ks.getLastD k0) r c * W (ks.getLastD k0) r c := by
    intro ks
    induction ks with
    | nil => intro k0 dk0 _; rfl
    | cons k ks ih =>
      intro k0 dk0 hs
      rw [List.foldl_cons, List.getLastD_cons]
      by_cases hf : f ≠ 0
      · have hs := hs hf
        have hn : nextDK dk0 (fun i => k i - k0 i) = (fun i => k i - k0 i) := by
          unfold nextDK
          split
          · rename_i hlt
            exact hs dk0 (by simp) _ (by simp [steps]) hlt
          · rfl
        have e1 : Work.updateProjector (buildProjector es) x f
            ⟨fun r c => bloch cs k0 r c * W k0 r c, k0, dk0⟩ k =
            ⟨fun r c => bloch cs k r c * W k r c, k, fun i => k i - k0 i⟩ := by
          unfold Work.updateProjector
          rw [if_pos hf]
          simp only [hn]
          rw [happ k k0 _ ?_]
          intro r c
          unfold scaleColumns
          change _ * phase _ * _ = _ * phase _
          rw [conj_phase, dot_sub_left, mul_assoc, ← phase_add]
          congr 2
          ring
        rw [e1]
        exact ih k _ (fun _ a ha b hb => hs a (List.mem_cons_of_mem _ ha) b
          (List.mem_cons_of_mem _ hb))
      · have e1 : Work.updateProjector (buildProjector es) x f
            ⟨fun r c => bloch cs k0 r c * W k0 r c, k0, dk0⟩ k =
            ⟨fun r c => bloch cs k r c * W k r c, k, dk0⟩ := by
          unfold Work.updateProjector
          rw [if_neg hf]
          simp only
          rw [happ k k0 _ ?_]
          intro r c
          push Not at hf
          simp [W, hf]
        rw [e1]
        exact ih k dk0 (fun h => absurd h hf)
  have hinit : bloch cs (fun _ => 0) = fun r c => bloch cs (fun _ => 0) r c * W (fun _ => 0) r c := by
    funext r c; simp [W, dot_zero_left, phase_zero]
  rw [hinit, main ks _ _ (fun _ => hs)]
  funext r c
  simp only [W, phase]
  push_cast
  rfl

/-! ## The projection -/

section project

open Matrix

variable {p n : Type} [Fintype p] [Fintype n] [DecidableEq p] [DecidableEq n]

/-- Both cases at once. -/
private theorem project_eq (B : Matrix p n ℂ) (minv : Option (Matrix n n ℂ)) (u : n → ℂ) :
    project B minv u = u - (minv.getD 1) *ᵥ (Bᴴ *ᵥ ((B * minv.getD 1 * Bᴴ)⁻¹ *ᵥ (B *ᵥ u))) := by
  unfold project projectionStiffness
  cases minv with
  | none => simp [sub_eq_add_neg, Matrix.mulVec_neg]
  | some N => simp [sub_eq_add_neg, Matrix.mulVec_neg]

/-- **C74.** Provided the inner matrix is invertible, the projected vector satisfies
the constraint. -/
theorem project_constraint (B : Matrix p n ℂ) (minv : Option (Matrix n n ℂ))
    (h : IsUnit (projectionStiffness B minv).det) (u : n → ℂ) : B *ᵥ project B minv u = 0 := by
  have hC : IsUnit (B * minv.getD 1 * Bᴴ).det := by
    cases minv with
    | none => simpa [projectionStiffness] using h
    | some N => simpa [projectionStiffness] using h
  rw [project_eq, Matrix.mulVec_sub]
  simp only [Matrix.mulVec_mulVec]
  rw [← Matrix.mul_assoc, ← Matrix.mul_assoc, ← Matrix.mul_assoc, Matrix.mul_nonsing_inv _ hC,
    Matrix.one_mul, sub_self]

/-- **C74.** A vector that satisfies the constraint is not changed. -/
theorem project_fixes (B : Matrix p n ℂ) (minv : Option (Matrix n n ℂ)) (u : n → ℂ)
    (hu : B *ᵥ u = 0) : project B minv u = u := by
  rw [project_eq, hu]; simp

/-- **C74.** Projecting twice is projecting once. -/
theorem project_idempotent (B : Matrix p n ℂ) (minv : Option (Matrix n n ℂ))
    (h : IsUnit (projectionStiffness B minv).det) (u : n → ℂ) :
    project B minv (project B minv u) = project B minv u :=
  project_fixes B minv _ (project_constraint B minv h u)

/-- **C74.** What is taken away is orthogonal, in the product of the mass matrix `M`,
to everything that satisfies the constraint: the result is the vector closest to the
given one. -/
theorem project_orthogonal (B : Matrix p n ℂ) (M : Matrix n n ℂ) (minv : Option (Matrix n n ℂ))
    (hM : M * minv.getD 1 = 1) (u v : n → ℂ) (hv : B *ᵥ v = 0) :
    star v ⬝ᵥ (M *ᵥ (u - project B minv u)) = 0 := by
  rw [project_eq, sub_sub_cancel, Matrix.mulVec_mulVec, hM, Matrix.one_mulVec,
    Matrix.dotProduct_mulVec, ← Matrix.star_mulVec, hv]
  simp

/-- A case: the average of two values is removed. -/
example : project (!![1, 1] : Matrix (Fin 1) (Fin 2) ℂ) none ![3, 1] = ![1, -1] := by
  have hC : projectionStiffness (!![1, 1] : Matrix (Fin 1) (Fin 2) ℂ) none = !![2] := by
    ext i j; fin_cases i; fin_cases j
    simp [projectionStiffness, Matrix.mul_apply, Fin.sum_univ_two]; norm_num
  have hI : (!![2] : Matrix (Fin 1) (Fin 1) ℂ)⁻¹ = !![1 / 2] := by
    refine Matrix.inv_eq_right_inv ?_
    ext i j; fin_cases i; fin_cases j
    simp [Matrix.mul_apply]
  unfold project
  simp only [hC, hI]
  funext i
  fin_cases i <;>
    simp [Matrix.mulVec, dotProduct, Fin.sum_univ_two, Matrix.conjTranspose_apply] <;> norm_num

end project

/-! ## The order of the eigenvalues -/

open Classical in
/-- How far an eigenvalue is from the target: zero is further away than anything. -/
noncomputable def Spec.distance (a : ℂ) (ctx : ℝ) : WithTop ℝ :=
  if a = 0 then ⊤ else ((|Real.log ‖a‖ - Real.log (ctx ^ 2)| : ℝ) : WithTop ℝ)

/-- **C75.** The comparison given to the eigenvalue solver sorts by the distance of the
logarithm of the modulus to that of the squared target. -/
theorem compareEigen_spec (a b : ℂ) (ctx : ℝ) :
    (compareEigen a 0 b 0 ctx = -1 ↔ distance a ctx < distance b ctx) ∧
    (compareEigen a 0 b 0 ctx = 1 ↔ distance b ctx < distance a ctx) ∧
    (compareEigen a 0 b 0 ctx = 0 ↔ distance a ctx = distance b ctx) := by
  have hl : Real.log (ctx ^ 2) = 2 * Real.log ctx := by rw [Real.log_pow]; norm_num
  unfold compareEigen distance
  simp only [norm_zero, add_zero, hl]
  by_cases ha : a = 0
  · by_cases hb : b = 0
    · simp [ha, hb]
    · have : 0 < ‖b‖ := norm_pos_iff.2 hb
      simp [ha, hb]
  · have h1 : 0 < ‖a‖ := norm_pos_iff.2 ha
    by_cases hb : b = 0
    · simp [ha, hb]
    · have h2 : 0 < ‖b‖ := norm_pos_iff.2 hb
      rw [if_neg (by simp [ha]), if_neg (by simp [hb]), if_neg (by simp [ha]), if_neg ha, if_neg hb]
      simp only [WithTop.coe_lt_coe, WithTop.coe_inj]
      generalize |Real.log ‖a‖ - 2 * Real.log ctx| = l1
      generalize |Real.log ‖b‖ - 2 * Real.log ctx| = l2
      rcases lt_trichotomy l1 l2 with h | h | h
      · simp [h, h.ne, h.le.not_gt]
      · simp [h]
      · simp [h, h.ne', h.le.not_gt]

/-- **C75, counterexample.** Negative eigenvalues are not sorted after the positive
ones, contrary to the comment: a negative eigenvalue at the target comes before every
positive one that is not at the target. -/
theorem compareEigen_negative (ctx : ℝ) (hc : 0 < ctx) (b : ℝ) (hb : 0 < b) (hne : b ≠ ctx ^ 2) :
    compareEigen (((-ctx ^ 2 : ℝ)) : ℂ) 0 (b : ℂ) 0 ctx = -1 := by
  refine (compareEigen_spec _ _ _).1.2 ?_
  have h2 : 0 < ctx ^ 2 := by positivity
  unfold distance
  rw [if_neg (by exact_mod_cast (neg_ne_zero.2 h2.ne' : -ctx ^ 2 ≠ 0)),
    if_neg (by exact_mod_cast hb.ne')]
  rw [WithTop.coe_lt_coe, Complex.norm_real, Complex.norm_real, Real.norm_eq_abs, Real.norm_eq_abs,
    abs_neg, abs_of_pos h2, abs_of_pos hb, sub_self, abs_zero, abs_pos, sub_ne_zero]
  intro h
  exact hne (Real.log_injOn_pos (Set.mem_Ioi.2 hb) (Set.mem_Ioi.2 h2) h)

/-- **C75.** The eigenvalues found are put in a definite order: the comparison is a
strict total order on the positions, by real part, imaginary part and position. -/
theorem eigenBefore_order (ev : ℕ → ℂ) :
    (∀ i, eigenBefore ev i i = false) ∧
    (∀ i j k, eigenBefore ev i j = true → eigenBefore ev j k = true → eigenBefore ev i k = true) ∧
    (∀ i j, i ≠ j → eigenBefore ev i j = true ∨ eigenBefore ev j i = true) ∧
    (∀ i j, eigenBefore ev i j = true → (ev i).re ≤ (ev j).re) := by
  have key : ∀ i j, eigenBefore ev i j = true ↔ (ev i).re < (ev j).re ∨ (ev i).re = (ev j).re ∧
      ((ev i).im < (ev j).im ∨ (ev i).im = (ev j).im ∧ i < j) := by
    intro i j
    unfold eigenBefore
    by_cases h1 : (ev i).re = (ev j).re
    · by_cases h2 : (ev i).im = (ev j).im
      · simp [h1, h2]
      · simp [h1, h2]
    · simp [h1]
  refine ⟨fun i => ?_, fun i j k h1 h2 => ?_, fun i j h => ?_, fun i j h => ?_⟩
  · rw [← Bool.not_eq_true, key]; simp
  · rw [key] at *
    rcases h1 with h1 | ⟨e1, h1⟩ <;> rcases h2 with h2 | ⟨e2, h2⟩
    · left; linarith
    · left; linarith
    · left; linarith
    · refine Or.inr ⟨by linarith, ?_⟩
      rcases h1 with h1 | ⟨f1, h1⟩ <;> rcases h2 with h2 | ⟨f2, h2⟩
      · left; linarith
      · left; linarith
      · left; linarith
      · exact Or.inr ⟨by linarith, by omega⟩
  · rw [key, key]
    rcases lt_trichotomy (ev i).re (ev j).re with h1 | h1 | h1
    · left; left; exact h1
    · rcases lt_trichotomy (ev i).im (ev j).im with h2 | h2 | h2
      · left; right; exact ⟨h1, Or.inl h2⟩
      · rcases Nat.lt_or_gt_of_ne h with h3 | h3
        · left; right; exact ⟨h1, Or.inr ⟨h2, h3⟩⟩
        · right; right; exact ⟨h1.symm, Or.inr ⟨h2.symm, h3⟩⟩
      · right; right; exact ⟨h1.symm, Or.inl h2⟩
    · right; left; exact h1
  · rcases (key i j).1 h with h | h
    · exact h.le
    · exact h.1.le

/-! ## Cases -/

/-- A node of a ring of two elements, seen at 0 by the first and at 2 by the second. -/
private noncomputable def ringNode : Entity 1 :=
  ⟨[0], fun _ => 0, [⟨fun _ => 0, [0], ⟨1, 1, [5]⟩, 0, fun _ => 0⟩,
    ⟨fun _ => 2, [1], ⟨1, 1, [7]⟩, 0, fun _ => 0⟩]⟩

/-- The hypotheses of `projector_history_partial` that concern the mesh. -/
example : Alone ([] ++ supports [ringNode])
    ((supports [ringNode]).filter fun y => open Classical in decide (y.shift ≠ fun _ => 0)) := by
  intro y hy
  rw [List.mem_filter] at hy
  obtain ⟨hy, hne⟩ := hy
  simp [supports, support, ringNode, Mat.get] at hy
  rcases hy with rfl | rfl
  · simp at hne
  · simp [supports, support, ringNode, Mat.get, Coupling.at]

/-- The hypothesis on the steps, for equidistant wave vectors. -/
example : ∀ a ∈ (fun _ => 0) :: steps (fun _ => 0) [(fun _ => 1 : Vec 1), fun _ => 2],
    ∀ b ∈ steps (fun _ => 0) [(fun _ => 1 : Vec 1), fun _ => 2],
    Real.sqrt (dot (fun i => b i - a i) (fun i => b i - a i)) < 1e-12 → a = b := by
  intro a ha b hb h
  have e : (2 : ℝ) - 1 = 1 := by norm_num
  simp [steps, e] at ha hb
  subst hb
  rcases ha with rfl | rfl
  · simp [dot] at h; norm_num at h
  · rfl

end Verif.Bloch
