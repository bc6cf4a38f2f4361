import Mathlib.Data.Set.Function
import Mathlib.Data.List.Basic
import Mathlib.Algebra.BigOperators.Group.List.Basic
import Mathlib.Order.Interval.Set.Defs

/-! # Consecutive ranges -/
namespace Verif

variable {ι : Type} [DecidableEq ι]

/-- The sum of the sizes of the items in front of `u`. -/
def prefixOffset (e : ι → Nat) : List ι → ι → Nat
  | [], _ => 0
  | a :: l, u => if u = a then 0 else e a + prefixOffset e l u

omit [DecidableEq ι] in
private theorem mem_sum_pos (e : ι → Nat) (l : List ι) (u : ι) (h : u ∈ l) : e u ≤ (l.map e).sum := by
  induction l with
  | nil => simp at h
  | cons a l ih =>
    rcases List.mem_cons.1 h with rfl | h
    · simp
    · simp; have := ih h; omega

/-- Numbering the items of a list one after the other, item `u` getting `e u` numbers, is a
bijection onto an initial segment. -/
theorem prefix_bijOn (e : ι → Nat) : ∀ (l : List ι), l.Nodup →
    Set.BijOn (fun p : ι × Nat => prefixOffset e l p.1 + p.2) {p | p.1 ∈ l ∧ p.2 < e p.1}
      (Set.Iio (l.map e).sum) := by
  intro l
  induction l with
  | nil =>
    intro _
    refine ⟨fun p hp => by simp at hp, fun p hp => by simp at hp, fun x hx => ?_⟩
    simp at hx
  | cons a l ih =>
    intro hl
    obtain ⟨ha, hl'⟩ := List.nodup_cons.1 hl
    obtain ⟨h1, h2, h3⟩ := ih hl'
    refine ⟨?_, ?_, ?_⟩
    · rintro ⟨u, k⟩ ⟨hu, hk⟩
      dsimp only at hu hk
      simp only [prefixOffset, Set.mem_Iio, List.map_cons, List.sum_cons]
      split_ifs with h
      · subst h; omega
      · have hu' : u ∈ l := (List.mem_cons.1 hu).resolve_left h
        have := h1 (x := (u, k)) ⟨hu', hk⟩
        simp only [Set.mem_Iio] at this
        omega
    · rintro ⟨u, k⟩ ⟨hu, hk⟩ ⟨v, j⟩ ⟨hv, hj⟩ h
      dsimp only at hu hk hv hj
      simp only [prefixOffset] at h
      split_ifs at h with p q q
      · subst p q; simp; omega
      · subst p; omega
      · subst q; omega
      · exact h2 (x₁ := (u, k)) ⟨(List.mem_cons.1 hu).resolve_left p, hk⟩ (x₂ := (v, j))
          ⟨(List.mem_cons.1 hv).resolve_left q, hj⟩ (by dsimp only; omega)
    · intro x hx
      simp only [Set.mem_Iio, List.map_cons, List.sum_cons] at hx
      by_cases h : x < e a
      · exact ⟨(a, x), ⟨by simp, h⟩, by simp [prefixOffset]⟩
      · have hm : x - e a ∈ Set.Iio (l.map e).sum := by simp only [Set.mem_Iio]; omega
        obtain ⟨⟨u, k⟩, ⟨hu, hk⟩, hx'⟩ := h3 hm
        dsimp only at hu hk hx'
        refine ⟨(u, k), ⟨List.mem_cons_of_mem _ hu, hk⟩, ?_⟩
        have hne : u ≠ a := fun e => ha (e ▸ hu)
        simp only [prefixOffset, if_neg hne]
        omega

theorem prefixOffset_append (e : ι → Nat) (l l' : List ι) (u : ι) :
    prefixOffset e (l ++ l') u =
      if u ∈ l then prefixOffset e l u else (l.map e).sum + prefixOffset e l' u := by
  induction l with
  | nil => simp
  | cons a l ih =>
    simp only [List.cons_append, prefixOffset, ih, List.mem_cons, List.map_cons, List.sum_cons]
    by_cases h : u = a
    · simp [h]
    · by_cases h' : u ∈ l <;> simp [h, h'] ; omega

/-- In a sorted list the items in front of `u` are the smaller ones. -/
theorem prefixOffset_sorted (e : Nat → Nat) (l : List Nat) (hl : l.Pairwise (· < ·)) (u : Nat)
    (hu : u ∈ l) : prefixOffset e l u = ((l.filter (· < u)).map e).sum := by
  induction l with
  | nil => simp at hu
  | cons a l ih =>
    obtain ⟨h1, h2⟩ := List.pairwise_cons.1 hl
    simp only [prefixOffset]
    split_ifs with h
    · subst h
      have : (u :: l).filter (· < u) = [] := by
        rw [List.filter_eq_nil_iff]
        intro x hx
        rcases List.mem_cons.1 hx with rfl | hx
        · simp
        · have := h1 x hx; simp; omega
      rw [this]; rfl
    · have hu' : u ∈ l := (List.mem_cons.1 hu).resolve_left h
      have hlt := h1 u hu'
      rw [List.filter_cons_of_pos (by simpa using hlt), List.map_cons, List.sum_cons, ih h2 hu']

end Verif
