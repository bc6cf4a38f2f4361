import Verif.Advection.Lemmas
import Mathlib.Analysis.Calculus.MeanValue
import Mathlib.Analysis.Calculus.Deriv.MeanValue
import Mathlib.Analysis.SpecialFunctions.Trigonometric.Deriv
import Mathlib.Analysis.SpecialFunctions.ExpDeriv
import Mathlib.Tactic.FieldSimp

/-!
# Properties of the advection programs
-/

namespace Verif.Advection

open DgMesh Spec

variable {d : ℕ} {E F G : Type}

theorem taken_carried {A : ℝ} (h : |A| ≠ 1 / 10 ^ 12) (l r : ℝ) : taken A l r = carried A l r := by
  have ht : tolerance = 1 / 10 ^ 12 := rfl
  have hp := tol_pos
  unfold taken carried
  rw [ht] at *
  rcases lt_or_gt_of_ne h with h1 | h1
  · have := abs_lt.mp h1
    rw [if_neg (by linarith [this.2]), if_neg (by linarith [this.1]), if_pos h1, if_pos h1]
  · rcases lt_abs.mp h1 with h2 | h2
    · rw [if_pos h2, if_neg (not_lt.mpr h1.le), if_pos (by linarith)]
    · rw [if_neg (by linarith), if_pos (by linarith), if_neg (not_lt.mpr h1.le),
        if_neg (by linarith)]

section

variable [Fintype E] [Fintype F] [Fintype G] [DecidableEq E]

/-- The coefficients follow the equations the program hands to the time integrator. -/
def Evolves (a : Fin d → ℝ) (m : Mesh d E F G) (U D : ℝ → Vec E) : Prop :=
  ∀ t e i, i < m.nb e → HasDerivAt (fun t => U t e i) (D t e i) t ∧
    ∑ j ∈ Finset.range (m.nb e), mass m e i j * D t e j = multiply m (integrands a) (U t) e i

theorem evolves_pair {a : Fin d → ℝ} {m : Mesh d E F G} {U D : ℝ → Vec E} (h : Evolves a m U D)
    (V : Vec E) (t : ℝ) :
    ∑ e, ∑ q, (m.elem e q).weight * (value (m.nb e) (m.elem e q).toTrace (V e) *
        value (m.nb e) (m.elem e q).toTrace (D t e)) =
      pair m V (multiply m (integrands a) (U t)) := by
  rw [← DgMesh.pair_mass]
  unfold pair
  refine Finset.sum_congr rfl fun e _ => Finset.sum_congr rfl fun i hi => ?_
  exact congrArg _ (h t e i (Finset.mem_range.mp hi)).2

omit [Fintype E] in
theorem value_deriv {a : Fin d → ℝ} {m : Mesh d E F G} {U D : ℝ → Vec E} (h : Evolves a m U D)
    (e : E) (p : Trace d) (t : ℝ) :
    HasDerivAt (fun t => value (m.nb e) p (U t e)) (value (m.nb e) p (D t e)) t := by
  unfold value
  exact HasDerivAt.fun_sum fun i hi => (h t e i (Finset.mem_range.mp hi)).1.const_mul _

/-- **C144, what is lost.**  The energy changes by the jumps at the faces with wind
and what leaves or is blown in at the boundary, all with the same sign. -/
theorem energy_rate {a : Fin d → ℝ} {m : Mesh d E F G} (hp : ByParts a m) (ho : OffThreshold a m)
    {U D : ℝ → Vec E} (h : Evolves a m U D) (t : ℝ) :
    open Classical in
    HasDerivAt (fun t => energy m (U t)) (-(
      (∑ f, ∑ q, (m.inner f q).weight * (if |through a (m.inner f q).normal| < 1 / 10 ^ 12 then 0
        else |through a (m.inner f q).normal| *
          (onLeft m (U t) f q - onRight m (U t) f q) ^ 2)) +
      ∑ g, ∑ q, (m.boundary g q).weight *
        (if |through a (m.boundary g q).normal| < 1 / 10 ^ 12 then 0
        else |through a (m.boundary g q).normal| * onBoundary m (U t) g q ^ 2))) t := by
  classical
  have hd : HasDerivAt (fun t => energy m (U t))
      (∑ e, ∑ q, (m.elem e q).weight * (2 * value (m.nb e) (m.elem e q).toTrace (U t e) *
        value (m.nb e) (m.elem e q).toTrace (D t e))) t := by
    unfold energy
    exact HasDerivAt.fun_sum fun e _ => HasDerivAt.fun_sum fun q _ => HasDerivAt.const_mul _
      (((value_deriv h e _ t).pow 2).congr_deriv (by simp))
  refine hd.congr_deriv ?_
  have e1 := evolves_pair h (U t) t
  rw [pair_rhs] at e1
  have e2 := byParts_sum hp (U t) (U t)
  have e3 : ∑ e, ∑ q, (m.elem e q).weight * (2 * value (m.nb e) (m.elem e q).toTrace (U t e) *
        value (m.nb e) (m.elem e q).toTrace (D t e)) =
      2 * ∑ e, ∑ q, (m.elem e q).weight * (value (m.nb e) (m.elem e q).toTrace (U t e) *
        value (m.nb e) (m.elem e q).toTrace (D t e)) := by
    simp only [Finset.mul_sum]
    exact Finset.sum_congr rfl fun e _ => Finset.sum_congr rfl fun q _ => by ring
  have e4 : ∑ e, ∑ q, (m.elem e q).weight *
      (value (m.nb e) (m.elem e q).toTrace (U t e) * along a (m.nb e) (m.elem e q).toTrace (U t e) +
        value (m.nb e) (m.elem e q).toTrace (U t e) *
          along a (m.nb e) (m.elem e q).toTrace (U t e)) =
      2 * ∑ e, ∑ q, (m.elem e q).weight * (value (m.nb e) (m.elem e q).toTrace (U t e) *
        along a (m.nb e) (m.elem e q).toTrace (U t e)) := by
    simp only [Finset.mul_sum]
    exact Finset.sum_congr rfl fun e _ => Finset.sum_congr rfl fun q _ => by ring
  rw [e4] at e2
  have e5 : ∀ f (q : Fin (m.innerPoints f)), (m.inner f q).weight *
      (if |through a (m.inner f q).normal| < 1 / 10 ^ 12 then 0
        else |through a (m.inner f q).normal| * (onLeft m (U t) f q - onRight m (U t) f q) ^ 2) =
      2 * ((m.inner f q).weight * (through a (m.inner f q).normal *
        ((onLeft m (U t) f q - onRight m (U t) f q) *
          taken (through a (m.inner f q).normal) (onLeft m (U t) f q) (onRight m (U t) f q)))) -
      (m.inner f q).weight * (through a (m.inner f q).normal *
        (onLeft m (U t) f q * onLeft m (U t) f q - onRight m (U t) f q * onRight m (U t) f q)) := by
    intro f q
    rw [taken_carried (ho.1 f q)]
    unfold carried
    split_ifs with h1 h2
    · ring
    · rw [abs_of_pos h2]; ring
    · rw [abs_of_nonpos (not_lt.mp h2)]; ring
  have e6 : ∀ g (q : Fin (m.boundaryPoints g)), (m.boundary g q).weight *
      (if |through a (m.boundary g q).normal| < 1 / 10 ^ 12 then 0
        else |through a (m.boundary g q).normal| * onBoundary m (U t) g q ^ 2) =
      2 * ((m.boundary g q).weight * (through a (m.boundary g q).normal *
        (onBoundary m (U t) g q *
          taken (through a (m.boundary g q).normal) (onBoundary m (U t) g q) 0))) -
      (m.boundary g q).weight * (through a (m.boundary g q).normal *
        (onBoundary m (U t) g q * onBoundary m (U t) g q)) := by
    intro g q
    rw [taken_carried (ho.2 g q)]
    unfold carried
    split_ifs with h1 h2
    · ring
    · rw [abs_of_pos h2]; ring
    · rw [abs_of_nonpos (not_lt.mp h2)]; ring
  rw [Finset.sum_congr rfl fun f _ => Finset.sum_congr rfl fun q _ => e5 f q,
    Finset.sum_congr rfl fun g _ => Finset.sum_congr rfl fun q _ => e6 g q, e3, e1]
  simp only [Finset.sum_sub_distrib, ← Finset.mul_sum] at e2 ⊢
  linear_combination e2

/-- **C144, stability.**  The energy never grows, on every mesh and for every
direction of the wind whose strength through no face is exactly the threshold. -/
theorem energy_antitone {a : Fin d → ℝ} {m : Mesh d E F G} (hp : ByParts a m)
    (ho : OffThreshold a m) (hw : FaceWeights m) {U D : ℝ → Vec E} (h : Evolves a m U D) :
    Antitone fun t => energy m (U t) := by
  classical
  refine antitone_of_deriv_nonpos (fun t => (energy_rate hp ho h t).differentiableAt) fun t => ?_
  rw [(energy_rate hp ho h t).deriv]
  rw [neg_nonpos]
  refine add_nonneg (Finset.sum_nonneg fun f _ => Finset.sum_nonneg fun q _ =>
    mul_nonneg (hw.1 f q) ?_) (Finset.sum_nonneg fun g _ => Finset.sum_nonneg fun q _ =>
    mul_nonneg (hw.2 g q) ?_)
  · split_ifs <;> positivity
  · split_ifs <;> positivity

/-- **C144, conservation.**  The integral of the solution changes only by what the
wind carries through the boundary; nothing comes in from outside. -/
theorem total_rate {a : Fin d → ℝ} {m : Mesh d E F G} {one : Vec E} (h1 : HasOne m one)
    (ho : OffThreshold a m) {U D : ℝ → Vec E} (h : Evolves a m U D) (t : ℝ) :
    HasDerivAt (fun t => total m (U t)) (-∑ g, ∑ q, (m.boundary g q).weight *
      (through a (m.boundary g q).normal *
        carried (through a (m.boundary g q).normal) (onBoundary m (U t) g q) 0)) t := by
  have hd : HasDerivAt (fun t => total m (U t)) (∑ e, ∑ q, (m.elem e q).weight *
      value (m.nb e) (m.elem e q).toTrace (D t e)) t := by
    unfold total
    exact HasDerivAt.fun_sum fun e _ => HasDerivAt.fun_sum fun q _ =>
      (value_deriv h e _ t).const_mul _
  refine hd.congr_deriv ?_
  have e1 := evolves_pair h one t
  rw [pair_rhs] at e1
  have al : ∀ e (q : Fin (m.elemPoints e)), along a (m.nb e) (m.elem e q).toTrace (one e) = 0 :=
    fun e q => Finset.sum_eq_zero fun k _ => by rw [(h1.1 e q).2 k, mul_zero]
  simp only [(h1.1 _ _).1, al, onLeft, onRight, onBoundary, (h1.2.1 _ _).1, (h1.2.1 _ _).2,
    h1.2.2, one_mul, sub_self, zero_mul, mul_zero, Finset.sum_const_zero, zero_sub] at e1
  rw [e1]
  congr 1
  refine Finset.sum_congr rfl fun g _ => Finset.sum_congr rfl fun q _ => ?_
  rw [taken_carried (ho.2 g q)]
  rfl

/-- **C144, consistency.**  For a solution without jumps the tested right-hand side
is that of `u_t + a·∇u = 0`, and of `u = 0` where the wind comes in. -/
theorem rhs_consistent {a : Fin d → ℝ} {m : Mesh d E F G} (hp : ByParts a m)
    (ho : OffThreshold a m) (V U : Vec E) (hj : ∀ f q, onLeft m U f q = onRight m U f q)
    (hin : ∀ g q, through a (m.boundary g q).normal < 1 / 10 ^ 12 → onBoundary m U g q = 0) :
    pair m V (multiply m (integrands a) U) = -∑ e, ∑ q, (m.elem e q).weight *
      (value (m.nb e) (m.elem e q).toTrace (V e) *
        along a (m.nb e) (m.elem e q).toTrace (U e)) := by
  have e2 := byParts_sum hp V U
  rw [pair_rhs]
  have e5 : ∀ f (q : Fin (m.innerPoints f)), (m.inner f q).weight *
      (through a (m.inner f q).normal * ((onLeft m V f q - onRight m V f q) *
        taken (through a (m.inner f q).normal) (onLeft m U f q) (onRight m U f q))) =
      (m.inner f q).weight * (through a (m.inner f q).normal *
        (onLeft m V f q * onLeft m U f q - onRight m V f q * onRight m U f q)) := by
    intro f q
    rw [taken_carried (ho.1 f q), hj f q]
    unfold carried
    split_ifs <;> ring
  have e6 : ∀ g (q : Fin (m.boundaryPoints g)), (m.boundary g q).weight *
      (through a (m.boundary g q).normal * (onBoundary m V g q *
        taken (through a (m.boundary g q).normal) (onBoundary m U g q) 0)) =
      (m.boundary g q).weight * (through a (m.boundary g q).normal *
        (onBoundary m V g q * onBoundary m U g q)) := by
    intro g q
    rw [taken_carried (ho.2 g q)]
    unfold carried
    have hi := hin g q
    by_cases hc : through a (m.boundary g q).normal < 1 / 10 ^ 12
    · rw [hi hc]
      split_ifs <;> ring
    · have hpos : (0 : ℝ) < 1 / 10 ^ 12 := by norm_num
      have hA : 0 < through a (m.boundary g q).normal := by linarith
      rw [abs_of_pos hA, if_neg hc, if_pos hA]
  rw [Finset.sum_congr rfl fun f _ => Finset.sum_congr rfl fun q _ => e5 f q,
    Finset.sum_congr rfl fun g _ => Finset.sum_congr rfl fun q _ => e6 g q]
  simp only [mul_add, Finset.sum_add_distrib] at e2
  linear_combination e2

end

/-! ### A mesh of one direction -/

/-- Two elements of length one with linear functions (`nb = 2`) or constants
(`nb = 1`), and Simpson's rule. -/
noncomputable def line (nb : ℕ) : Mesh 1 Bool Unit Bool where
  nb := fun _ => nb
  elemPoints := fun _ => 3
  elem := fun _ q => ⟨⟨fun b => if b = 0 then 1 else (q.val : ℝ) - 1,
    fun b _ => if b = 0 then 0 else 2⟩, if q = 1 then 2 / 3 else 1 / 6, 0⟩
  left := fun _ => false
  right := fun _ => true
  innerPoints := fun _ => 1
  inner := fun _ _ => ⟨1, fun _ => 1, ⟨fun _ => 1, fun b _ => if b = 0 then 0 else 2⟩,
    ⟨fun b => if b = 0 then 1 else -1, fun b _ => if b = 0 then 0 else 2⟩⟩
  inside := fun g => g
  boundaryPoints := fun _ => 1
  boundary := fun g _ => ⟨⟨fun b => if b = 0 then 1 else if g then 1 else -1,
    fun b _ => if b = 0 then 0 else 2⟩, 1, fun _ => if g then 1 else -1, 0⟩

theorem line_elem (nb : ℕ) (e : Bool) (g : Fin ((line nb).elemPoints e) → ℝ) :
    ∑ q, g q = g (0 : Fin 3) + g (1 : Fin 3) + g (2 : Fin 3) := Fin.sum_univ_three g

theorem line_inner (nb : ℕ) (f : Unit) (g : Fin ((line nb).innerPoints f) → ℝ) :
    ∑ q, g q = g (0 : Fin 1) := Fin.sum_univ_one g

theorem line_boundary (nb : ℕ) (b : Bool) (g : Fin ((line nb).boundaryPoints b) → ℝ) :
    ∑ q, g q = g (0 : Fin 1) := Fin.sum_univ_one g

theorem line_one_byParts (a : Fin 1 → ℝ) : ByParts a (line 1) := by
  intro e v u
  simp only [line_elem, line_inner, line_boundary]
  cases e <;> simp [line, through, along, value, gradient]

theorem line_byParts (a : Fin 1 → ℝ) : ByParts a (line 2) := by
  intro e v u
  simp only [line_elem, line_inner, line_boundary]
  cases e <;> simp [line, through, along, value, gradient, Finset.sum_range_succ] <;> ring

example : HasOne (line 2) fun _ b => if b = 0 then 1 else 0 := by
  refine ⟨fun e q => ⟨?_, fun k => ?_⟩, fun f q => ⟨?_, ?_⟩, fun g q => ?_⟩ <;>
    simp [line, value, gradient]

theorem line_weights (nb : ℕ) : FaceWeights (line nb) :=
  ⟨fun _ _ => zero_le_one, fun _ _ => zero_le_one⟩

theorem line_off (nb : ℕ) : OffThreshold (fun _ => 1) (line nb) := by
  refine ⟨fun f q => ?_, fun g q => ?_⟩
  · simp [line, through]; norm_num
  · cases g <;> simp [line, through] <;> norm_num

/-- A solution that moves to the right and leaves: `e⁻ᵗ` and `t e⁻ᵗ`. -/
noncomputable def leaving (t : ℝ) : Vec Bool := fun e _ =>
  if e then t * Real.exp (-t) else Real.exp (-t)

noncomputable def leavingRate (t : ℝ) : Vec Bool := fun e _ =>
  if e then (1 - t) * Real.exp (-t) else -Real.exp (-t)

theorem leaving_evolves : Evolves (fun _ => 1) (line 1) leaving leavingRate := by
  intro t e i hi
  have hi : i = 0 := by simp only [line] at hi; omega
  subst hi
  have he : HasDerivAt (fun t : ℝ => Real.exp (-t)) (-Real.exp (-t)) t := by
    simpa using (hasDerivAt_neg t).exp
  have tl : tolerance < 1 := by unfold tolerance; norm_num
  have tg : tolerance < |(1 : ℝ)| := by rw [abs_one]; exact tl
  have n1 : ¬ tolerance < -1 := by linarith [tol_pos]
  have n2 : ¬ (1 : ℝ) < -tolerance := by linarith [tol_pos]
  refine ⟨?_, ?_⟩
  · cases e
    · exact he
    · exact ((hasDerivAt_id' t).mul he).congr_deriv (by simp only [leavingRate, if_true]; ring)
  · simp only [mass, multiply, times, elementMatrix, innerMatrix, boundaryMatrix, line_elem,
      line_inner, line_boundary]
    cases e <;>
      simp [line, leaving, leavingRate, integrands, elementIntegrand, innerIntegrand,
        boundaryIntegrand, InnerPoint.phiNormal, BoundaryPoint.phiNormal, InnerPoint.trace, dot,
        tl, n1, n2, not_lt.mpr tl.le] <;> ring

example : Antitone fun t => energy (line 1) (leaving t) :=
  energy_antitone (line_one_byParts _) (line_off 1) (line_weights 1) leaving_evolves

/-- **C144, gap in the threshold.**  With a wind of exactly `10⁻¹²` no flux is computed
at all, and the energy grows. -/
theorem threshold_gap : ∃ U : Vec Bool,
    0 < pair (line 2) U (multiply (line 2) (integrands fun _ => 1 / 10 ^ 12) U) := by
  refine ⟨fun _ _ => 1, ?_⟩
  rw [pair_rhs]
  have t : ∀ l r, taken (1 / 10 ^ 12) l r = 0 ∧ taken (-(1 / 10 ^ 12)) l r = 0 := by
    intro l r
    have ht : tolerance = 1 / 10 ^ 12 := rfl
    have hp : (0 : ℝ) < 1 / 10 ^ 12 := by norm_num
    unfold taken
    rw [ht, abs_neg, abs_of_pos hp]
    refine ⟨?_, ?_⟩
    · rw [if_neg (lt_irrefl _), if_neg (by linarith), if_neg (lt_irrefl _)]
    · rw [if_neg (by linarith), if_neg (lt_irrefl _), if_neg (lt_irrefl _)]
  have th : ∀ b : Bool, through (fun _ : Fin 1 => (1 / 10 ^ 12 : ℝ))
      ((line 2).boundary b (0 : Fin 1)).normal = if b then 1 / 10 ^ 12 else -(1 / 10 ^ 12) := by
    intro b; cases b <;> simp [line, through]
  have th2 : through (fun _ : Fin 1 => (1 / 10 ^ 12 : ℝ))
      ((line 2).inner () (0 : Fin 1)).normal = 1 / 10 ^ 12 := by
    simp [line, through]
  simp only [line_elem, line_inner, line_boundary, Fintype.sum_bool, Finset.univ_unique,
    Finset.sum_singleton, PUnit.default_eq_unit, th, th2, if_true, Bool.false_eq_true, if_false,
    (t _ _).1, (t _ _).2, mul_zero, sub_zero, add_zero]
  simp [line, along, value, gradient, Finset.sum_range_succ]
  norm_num

/-! ### Exact solutions -/

/-- **C145.**  The exact solution of the tutorial solves `u_t + a·∇u = 0` everywhere
and starts with the initial solution. -/
theorem exact_solves (a x : Fin 2 → ℝ) (t : ℝ) :
    exact a x 0 0 = some (initial x) ∧
    ∃ (ut ux uy : ℝ) (u : ℝ → (Fin 2 → ℝ) → ℝ), (∀ t x, exact a x t 0 = some (u t x)) ∧
      HasDerivAt (fun t => u t x) ut t ∧
      HasDerivAt (fun y => u t (Function.update x 0 y)) ux (x 0) ∧
      HasDerivAt (fun y => u t (Function.update x 1 y)) uy (x 1) ∧
      ut + (a 0 * ux + a 1 * uy) = 0 := by
  refine ⟨?_, ?_⟩
  · have : (fun k => x k - a k * 0) = x := by funext k; ring
    rw [exact, if_pos rfl, this]
  set X := 2 * Real.pi * (x 0 - a 0 * t) with hX
  set Y := 2 * Real.pi * (x 1 - a 1 * t) with hY
  have ht : ∀ k : Fin 2, HasDerivAt (fun t => 2 * Real.pi * (x k - a k * t))
      (-(2 * Real.pi * a k)) t := by
    intro k
    exact ((((hasDerivAt_id' t).const_mul (a k)).const_sub (x k)).const_mul
      (2 * Real.pi)).congr_deriv (by ring)
  have hx : ∀ k : Fin 2, HasDerivAt (fun y => 2 * Real.pi * (y - a k * t)) (2 * Real.pi) (x k) := by
    intro k
    exact (((hasDerivAt_id' (x k)).sub_const (a k * t)).const_mul (2 * Real.pi)).congr_deriv
      (by ring)
  refine ⟨Real.cos X * -(2 * Real.pi * a 0) * Real.sin Y +
      Real.sin X * (Real.cos Y * -(2 * Real.pi * a 1)),
    Real.cos X * (2 * Real.pi) * Real.sin Y, Real.sin X * (Real.cos Y * (2 * Real.pi)),
    fun t x => initial fun k => x k - a k * t, fun t x => by simp [exact], ?_, ?_, ?_, ?_⟩
  · exact (ht 0).sin.mul (ht 1).sin
  · simp only [initial, Function.update_self,
      Function.update_of_ne (show (1 : Fin 2) ≠ 0 by decide)]
    exact (hx 0).sin.mul_const _
  · simp only [initial, Function.update_self,
      Function.update_of_ne (show (0 : Fin 2) ≠ 1 by decide)]
    exact (hx 1).sin.const_mul _
  · ring

/-- The exact solution fits a periodic unit square. -/
theorem exact_periodic (a x : Fin 2 → ℝ) (t : ℝ) (k : Fin 2) :
    exact a (Function.update x k (x k + 1)) t 0 = exact a x t 0 := by
  have e : ∀ y b : ℝ, 2 * Real.pi * (y + 1 - b) = 2 * Real.pi * (y - b) + 2 * Real.pi := by
    intro y b; ring
  fin_cases k <;> simp [exact, initial, e]

/-- **C145, the test application leaves its vectors.**  In two dimensions
`AdvectionTest` has neither a direction nor an initial solution: both use a third
entry.  In three they are as intended. -/
theorem test_undefined :
    (∀ a : Fin 2 → ℝ, testDirection a = none) ∧ (∀ x : Fin 2 → ℝ, testInitial x = none) ∧
    (∀ a : Fin 3 → ℝ, testDirection a = some ![1 / 10, a 1, 3 / 10]) ∧
    ∀ x : Fin 3 → ℝ, testInitial x = some (Real.sin (2 * Real.pi * x 0) *
      Real.sin (2 * Real.pi * x 1) * Real.sin (2 * Real.pi * x 2)) := by
  refine ⟨fun a => ?_, fun x => ?_, fun a => ?_, fun x => ?_⟩
  · simp [testDirection, setEntry?]
  · simp [testInitial, entry?]
  · simp only [testDirection, setEntry?]
    simp
    funext k
    fin_cases k <;> simp [Function.update]
  · simp [testInitial, entry?]

/-- Derivatives of the exact solution in time are refused. -/
theorem exact_refuses (a x : Fin 2 → ℝ) (t : ℝ) {order : ℕ} (h : order ≠ 0) :
    exact a x t order = none := by simp [exact, h]

/-- The tutorial has the direction `(0.1, 0.2)`. -/
theorem direction_values : direction 0 = 1 / 10 ∧ direction 1 = 2 / 10 := by
  constructor
  · simp [direction]
  · simp only [direction]; norm_num

end Verif.Advection
