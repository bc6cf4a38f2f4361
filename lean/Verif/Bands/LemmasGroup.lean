import Verif.Bands.Model
import Mathlib.Tactic.Linarith

set_option linter.all false

/-! # Helpers: grouping -/
namespace Verif.Bands

theorem assign_last (key : ℝ) (count : Nat) : ∀ (l : List (ℝ × Nat)), (∀ e ∈ l, e.1 < key) →
    assign key count l = l ++ [(key, count)] := by
  intro l
  induction l with
  | nil => intro _; rfl
  | cons e l ih =>
    intro h
    obtain ⟨x, n⟩ := e
    have hx : x < key := h (x, n) List.mem_cons_self
    rw [assign, if_neg (not_lt.2 hx.le), if_pos hx, ih fun e he => h e (List.mem_cons_of_mem _ he)]
    rfl

theorem groupCount_le (tol entry : ℝ) : ∀ l, groupCount tol entry l ≤ l.length := by
  intro l
  induction l with
  | nil => simp [groupCount]
  | cons x l ih => rw [groupCount]; split <;> simp [ih]

/-- For a sorted list the count splits it at `entry + tol`. -/
theorem groupCount_sorted (tol entry : ℝ) : ∀ l : List ℝ, l.Pairwise (· ≤ ·) → (∀ x ∈ l, entry ≤ x) →
    (∀ x ∈ l.take (groupCount tol entry l), x < entry + tol) ∧
    (∀ x ∈ l.drop (groupCount tol entry l), entry + tol ≤ x) := by
  intro l
  induction l with
  | nil => intro _ _; simp [groupCount]
  | cons x l ih =>
    intro hs he
    rw [List.pairwise_cons] at hs
    obtain ⟨h1, h2⟩ := ih hs.2 fun y hy => he y (List.mem_cons_of_mem _ hy)
    have hx := he x List.mem_cons_self
    rw [groupCount]
    split
    · rename_i h
      rw [abs_of_nonneg (by linarith)] at h
      refine ⟨?_, ?_⟩
      · intro y hy
        rw [List.take_succ_cons] at hy
        rcases List.mem_cons.1 hy with rfl | hy
        · linarith
        · exact h1 y hy
      · intro y hy
        rw [List.drop_succ_cons] at hy
        exact h2 y hy
    · rename_i h
      rw [abs_of_nonneg (by linarith)] at h
      refine ⟨by simp, ?_⟩
      intro y hy
      rw [List.drop_zero] at hy
      rcases List.mem_cons.1 hy with rfl | hy
      · linarith
      · have := hs.1 y hy; linarith

theorem groupLoop_append (tol : ℝ) (ht : 0 < tol) : ∀ (m : Nat) (l : List ℝ) (result : List (ℝ × Nat)), l.length = m →
    l.Pairwise (· ≤ ·) → (∀ e ∈ result, ∀ y ∈ l, e.1 < y) → groupLoop tol result l = result ++ groupLoop tol [] l := by
  intro m
  induction m using Nat.strong_induction_on with
  | _ m ih =>
    intro l result hm hs hr
    cases l with
    | nil => simp [groupLoop]
    | cons e l =>
      rw [List.pairwise_cons] at hs
      have hsp := groupCount_sorted tol e l hs.2 hs.1
      have hlen : (l.drop (groupCount tol e l)).length < m := by
        simp only [List.length_drop]; simp only [List.length_cons] at hm; omega
      have hs' : (l.drop (groupCount tol e l)).Pairwise (· ≤ ·) := hs.2.sublist (List.drop_sublist _ _)
      rw [groupLoop, groupLoop]
      rw [assign_last _ _ result fun a ha => hr a ha e List.mem_cons_self]
      rw [ih _ hlen _ (result ++ [(e, 1 + groupCount tol e l)]) rfl hs' ?_,
        ih _ hlen _ (assign e (1 + groupCount tol e l) []) rfl hs' ?_]
      · simp [assign]
      · intro a ha y hy
        simp only [assign, List.mem_singleton] at ha
        rw [ha]
        have := hsp.2 y hy
        simp only []
        linarith
      · intro a ha y hy
        rcases List.mem_append.1 ha with ha | ha
        · exact hr a ha y (List.mem_cons_of_mem _ (List.mem_of_mem_drop hy))
        · rw [List.mem_singleton.1 ha]
          have := hsp.2 y hy
          simp only []
          linarith

theorem group_cons (tol : ℝ) (ht : 0 < tol) (e : ℝ) (l : List ℝ) (hs : (e :: l).Pairwise (· ≤ ·)) :
    group (e :: l) tol = (e, 1 + groupCount tol e l) :: group (l.drop (groupCount tol e l)) tol := by
  have hs0 := hs
  rw [List.pairwise_cons] at hs
  have hsp := groupCount_sorted tol e l hs.2 hs.1
  rw [group, groupLoop, groupLoop_append tol ht _ _ _ rfl (hs.2.sublist (List.drop_sublist _ _))]
  · simp [assign, group]
  · intro a ha y hy
    simp only [assign, List.mem_singleton] at ha
    rw [ha]
    have := hsp.2 y hy
    simp only []
    linarith

end Verif.Bands
