import Verif.Bands.Model
import Mathlib.Tactic.Linarith
import Mathlib.Tactic.Ring
import Mathlib.Tactic.NormNum
import Mathlib.Tactic.Positivity
import Mathlib.LinearAlgebra.Matrix.Gershgorin
import Mathlib.Algebra.BigOperators.Field
import Mathlib.Data.Fintype.Pi
import Mathlib.Order.Interval.Finset.Basic
import Mathlib.Data.Int.Interval

set_option linter.all false

/-! # Helpers: enumeration of lattice points, and their distances -/
namespace Verif.Bands

variable {d : Nat}

/-! ## Enumeration -/

def box : (d : Nat) → List (Point d)
  | 0 => [fun _ => -1]
  | d + 1 => (box d).flatMap fun t => [Fin.cons (-1) t, Fin.cons 0 t, Fin.cons 1 t]

theorem arraysFrom_cons : ∀ (L : List (Point d)) (t : Point d), arraysFrom (-1) 1 t = some L →
    arraysFrom (-1) 1 (Fin.cons (-1) t : Point (d + 1)) =
      some (L.flatMap fun t => [(Fin.cons (-1) t : Point (d + 1)), Fin.cons 0 t, Fin.cons 1 t]) := by
  intro L
  induction L with
  | nil =>
    intro t h
    rw [arraysFrom] at h
    cases hn : next (-1) 1 t with
    | none => rw [hn] at h; simp at h
    | some b =>
      rw [hn] at h
      cases hb : arraysFrom (-1) 1 b with
      | none => simp [hb] at h
      | some r => simp [hb] at h
  | cons a L ih =>
    intro t h
    rw [arraysFrom] at h
    have e1 : next (-1) 1 (Fin.cons (-1) t : Point (d + 1)) = some (Fin.cons 0 t) := by
      rw [next]; simp
    have e2 : next (-1) 1 (Fin.cons 0 t : Point (d + 1)) = some (Fin.cons 1 t) := by
      rw [next]; simp
    have e3 : next (-1) 1 (Fin.cons 1 t : Point (d + 1)) = (next (-1) 1 t).map (Fin.cons (-1)) := by
      rw [next]; simp
    rw [arraysFrom, e1]
    simp only []
    rw [arraysFrom, e2]
    simp only []
    rw [arraysFrom, e3]
    cases hn : next (-1) 1 t with
    | none =>
      rw [hn] at h
      simp only [Option.some.injEq, List.cons.injEq] at h
      obtain ⟨rfl, rfl⟩ := h
      simp
    | some b =>
      rw [hn] at h
      cases hb : arraysFrom (-1) 1 b with
      | none => simp [hb] at h
      | some r =>
        simp [hb] at h
        obtain ⟨rfl, rfl⟩ := h
        have := ih b hb
        simp only [Option.map_some, this]
        simp

theorem arrays_all : ∀ d, arraysFrom (-1) 1 (fun _ : Fin d => (-1 : Int)) = some (box d) := by
  intro d
  induction d with
  | zero => rw [arraysFrom, next]; rfl
  | succ d ih =>
    have : (fun _ : Fin (d + 1) => (-1 : Int)) = Fin.cons (-1) (fun _ : Fin d => (-1 : Int)) := by
      funext i; refine Fin.cases ?_ (fun j => ?_) i <;> simp
    rw [this, arraysFrom_cons _ _ ih, box]

theorem mem_box : ∀ {d : Nat} (a : Point d), a ∈ box d ↔ ∀ i, |a i| ≤ 1 := by
  intro d
  induction d with
  | zero => intro a; simp [box]; funext i; exact i.elim0
  | succ d ih =>
    intro a
    rw [box, List.mem_flatMap]
    constructor
    · rintro ⟨t, ht, ha⟩ i
      have := (ih t).1 ht
      simp only [List.mem_cons, List.not_mem_nil, or_false] at ha
      rcases ha with rfl | rfl | rfl <;> refine Fin.cases ?_ (fun j => ?_) i <;> simp [this]
    · intro h
      refine ⟨Fin.tail a, (ih _).2 fun i => h i.succ, ?_⟩
      have h0 := abs_le.1 (h 0)
      have : a 0 = -1 ∨ a 0 = 0 ∨ a 0 = 1 := by omega
      have hc : a = Fin.cons (a 0) (Fin.tail a) := (Fin.cons_self_tail a).symm
      rcases this with h | h | h <;> rw [h] at hc <;> rw [hc] <;> simp

theorem box_nodup : ∀ d, (box d).Nodup := by
  intro d
  induction d with
  | zero => simp [box]
  | succ d ih =>
    rw [box, List.nodup_flatMap]
    refine ⟨?_, ?_⟩
    · intro t _
      simp only [List.nodup_cons, List.mem_cons, List.not_mem_nil, or_false, not_or, not_false_eq_true,
        List.nodup_nil, and_true]
      refine ⟨⟨?_, ?_⟩, ?_⟩ <;> intro h <;> have := congrFun h 0 <;> simp at this
    · refine ih.imp ?_
      intro s t hst
      simp only [Function.onFun, List.disjoint_left]
      intro a ha hb
      apply hst
      have h1 : Fin.tail a = s := by
        simp only [List.mem_cons, List.not_mem_nil, or_false] at ha
        rcases ha with rfl | rfl | rfl <;> simp
      have h2 : Fin.tail a = t := by
        simp only [List.mem_cons, List.not_mem_nil, or_false] at hb
        rcases hb with rfl | rfl | rfl <;> simp
      rw [← h1, h2]

/-- One point is next to another. -/
def Next (p n : Point d) : Prop := n ≠ p ∧ ∀ i, |n i - p i| ≤ 1

theorem neighbours_eq (p : Point d) : ∃ ns, neighbours p = some ns ∧ ∀ n, n ∈ ns ↔ Next p n := by
  refine ⟨_, by rw [neighbours, arrays_all]; rfl, ?_⟩
  intro n
  simp only [List.mem_map, List.mem_filter, decide_eq_true_eq, mem_box, Next]
  constructor
  · rintro ⟨o, ⟨ho, hz⟩, rfl⟩
    refine ⟨?_, fun i => by simpa using ho i⟩
    intro h
    apply hz
    intro i
    have := congrFun h i
    simp only [add_eq_left] at this
    exact this
  · rintro ⟨hne, h⟩
    refine ⟨fun i => n i - p i, ⟨h, ?_⟩, by funext i; show p i + (n i - p i) = n i; omega⟩
    intro hz
    apply hne
    funext i
    have : n i - p i = 0 := hz i
    omega

theorem nearest_eq (b : Fin d → Vec d) (k : Vec d) : ∃ ps, nearest b k = some ps ∧ ps.Nodup ∧
    ∀ p, p ∈ ps ↔ ∀ i, |p i - round (solve b k i)| ≤ 1 := by
  refine ⟨_, by rw [nearest, arrays_all]; rfl, ?_, ?_⟩
  · refine (box_nodup d).map ?_
    intro x y h
    funext i
    have := congrFun h i
    simpa using this
  · intro p
    simp only [List.mem_map, mem_box]
    constructor
    · rintro ⟨o, ho, rfl⟩ i
      simpa using ho i
    · intro h
      exact ⟨fun i => p i - round (solve b k i), h, by
        funext i; show round (solve b k i) + (p i - round (solve b k i)) = p i; omega⟩

theorem round_close (x : ℝ) : |(round x : ℝ) - x| ≤ 1 / 2 := by
  rw [round]
  split
  · have h1 := Int.floor_le (x + 1 / 2)
    have h2 := Int.lt_floor_add_one (x + 1 / 2)
    rw [abs_le]; constructor <;> linarith
  · have h1 := Int.le_ceil (x - 1 / 2)
    have h2 := Int.ceil_lt_add_one (x - 1 / 2)
    rw [abs_le]; constructor <;> linarith

/-! ## Coordinates and distances -/

/-- The matrix of the basis is not singular. -/
def Regular (b : Fin d → Vec d) : Prop := (Matrix.of fun coord vec => b vec coord : Matrix (Fin d) (Fin d) ℝ).det ≠ 0

/-- The vector with given coordinates. -/
def combination (b : Fin d → Vec d) (x : Vec d) : Vec d := fun j => ∑ i, x i * b i j

theorem solve_spec (b : Fin d → Vec d) (k : Vec d) (h : Regular b) : combination b (solve b k) = k := by
  have e : solve b k = (Matrix.of fun coord vec => b vec coord : Matrix (Fin d) (Fin d) ℝ)⁻¹.mulVec k := by
    rw [solve]; exact if_neg h
  have := congrArg (fun v => (Matrix.of fun coord vec => b vec coord : Matrix (Fin d) (Fin d) ℝ).mulVec v) e
  simp only [Matrix.mulVec_mulVec] at this
  rw [Matrix.mul_nonsing_inv _ (isUnit_iff_ne_zero.2 h), Matrix.one_mulVec] at this
  rw [← this]
  funext j
  simp only [combination, Matrix.mulVec, dotProduct, Matrix.of_apply]
  rw [this]
  exact Finset.sum_congr rfl fun i _ => mul_comm _ _

theorem l2Norm_nonneg (v : Vec d) : 0 ≤ l2Norm v := Real.sqrt_nonneg _

theorem l2Norm_sq (v : Vec d) : l2Norm v * l2Norm v = ∑ i, v i * v i :=
  Real.mul_self_sqrt (Finset.sum_nonneg fun i _ => mul_self_nonneg _)

theorem abs_le_l2Norm (v : Vec d) (i : Fin d) : |v i| ≤ l2Norm v := by
  rw [l2Norm]
  apply Real.le_sqrt_of_sq_le
  rw [sq_abs, sq]
  exact Finset.single_le_sum (f := fun i => v i * v i) (fun i _ => mul_self_nonneg _) (Finset.mem_univ i)

theorem l2Norm_eq_zero {v : Vec d} : l2Norm v = 0 ↔ v = 0 := by
  constructor
  · intro h
    funext i
    have := abs_le_l2Norm v i
    rw [h] at this
    exact abs_nonpos_iff.1 this
  · rintro rfl
    simp [l2Norm]

theorem position_sub (b : Fin d → Vec d) (k x : Vec d) (hk : combination b x = k) (p : Point d) :
    (fun j => position b p j - k j) = combination b fun i => p i - x i := by
  funext j
  rw [← hk]
  simp only [position, combination, sub_mul, Finset.sum_sub_distrib]

/-- The points within a distance are finitely many. -/
theorem finite_within (b : Fin d → Vec d) (k : Vec d) (h : Regular b) (r : ℝ) :
    {p : Point d | l2Norm (fun j => position b p j - k j) ≤ r}.Finite := by
  set A : Matrix (Fin d) (Fin d) ℝ := Matrix.of fun coord vec => b vec coord with hA
  have key : ∀ p : Point d, l2Norm (fun j => position b p j - k j) ≤ r →
      ∀ i, |(p i : ℝ) - solve b k i| ≤ ∑ j, |A⁻¹ i j| * r := by
    intro p hp i
    rw [position_sub b k (solve b k) (solve_spec b k h) p] at hp
    set v : Vec d := combination b fun i => p i - solve b k i with hv
    have e : A.mulVec (fun i => (p i : ℝ) - solve b k i) = v := by
      funext j
      simp only [hv, combination, Matrix.mulVec, dotProduct, hA, Matrix.of_apply]
      exact Finset.sum_congr rfl fun i _ => mul_comm _ _
    have e2 : (fun i => (p i : ℝ) - solve b k i) = A⁻¹.mulVec v := by
      rw [← e, Matrix.mulVec_mulVec, Matrix.nonsing_inv_mul _ (isUnit_iff_ne_zero.2 h), Matrix.one_mulVec]
    have e3 : (p i : ℝ) - solve b k i = A⁻¹.mulVec v i := congrFun e2 i
    rw [e3]
    simp only [Matrix.mulVec, dotProduct]
    refine (Finset.abs_sum_le_sum_abs _ _).trans (Finset.sum_le_sum fun j _ => ?_)
    rw [abs_mul]
    exact mul_le_mul_of_nonneg_left ((abs_le_l2Norm v j).trans hp) (abs_nonneg _)
  refine Set.Finite.subset (Set.Finite.pi' (fun i : Fin d =>
    Set.finite_Icc ⌊solve b k i - ∑ j, |A⁻¹ i j| * r⌋ ⌈solve b k i + ∑ j, |A⁻¹ i j| * r⌉)) ?_
  intro p hp i
  have := abs_le.1 (key p hp i)
  refine ⟨?_, ?_⟩
  · have h1 : (⌊solve b k i - ∑ j, |A⁻¹ i j| * r⌋ : ℝ) ≤ p i := (Int.floor_le _).trans (by linarith)
    exact_mod_cast h1
  · have h1 : (p i : ℝ) ≤ ⌈solve b k i + ∑ j, |A⁻¹ i j| * r⌉ := le_trans (by linarith) (Int.le_ceil _)
    exact_mod_cast h1

end Verif.Bands
