import Verif.Quadrature.ScaledA
import Verif.Quadrature.ScaledB
import Verif.Quadrature.ScaledC
import Verif.Quadrature.RootsInside
set_option linter.all false

/-! # Lists of rules -/
namespace Verif.Quadrature
open RefGeometry MeasureTheory

theorem coeffSum_nonneg {d : Nat} (p : MvPolynomial (Fin d) ℝ) : 0 ≤ coeffSum p :=
  Finset.sum_nonneg fun _ _ => abs_nonneg _

theorem Integrates.mono {d : Nat} {g : Geom d} {r : Rule d} {n m : Nat} {ε δ : ℝ}
    (h : Integrates g r n ε) (hm : m ≤ n) (hε : ε ≤ δ) : Integrates g r m δ := by
  intro p hp
  obtain ⟨v, hv, hle⟩ := h p (hp.trans hm)
  exact ⟨v, hv, hle.trans (mul_le_mul_of_nonneg_right hε (coeffSum_nonneg p))⟩

theorem addRule_perm {d : Nat} (l : List (Rule d)) (r : Rule d) : (addRule l r).Perm (r :: l) := by
  induction l with
  | nil => exact List.Perm.refl _
  | cons x l ih =>
    unfold addRule
    split
    · exact (ih.cons x).trans (List.Perm.swap r x l)
    · exact List.Perm.refl _

theorem addRule_sorted {d : Nat} (l : List (Rule d)) (r : Rule d)
    (h : l.Pairwise fun a b => a.order ≤ b.order) :
    (addRule l r).Pairwise fun a b => a.order ≤ b.order := by
  induction l with
  | nil => simp [addRule]
  | cons x l ih =>
    rw [List.pairwise_cons] at h
    unfold addRule
    split
    · rename_i hlt
      rw [List.pairwise_cons]
      refine ⟨fun b hb => ?_, ih h.2⟩
      rcases List.mem_cons.1 ((addRule_perm l r).mem_iff.1 hb) with rfl | hb
      · omega
      · exact h.1 b hb
    · rename_i hge
      rw [List.pairwise_cons, List.pairwise_cons]
      refine ⟨fun b hb => ?_, h⟩
      rcases List.mem_cons.1 hb with rfl | hb
      · omega
      · have := h.1 b hb; omega

theorem foldl_perm {d : Nat} (l acc : List (Rule d)) :
    (l.foldl addRule acc).Perm (l ++ acc) := by
  induction l generalizing acc with
  | nil => exact List.Perm.refl _
  | cons x l ih =>
    refine (ih (addRule acc x)).trans ?_
    refine ((List.Perm.refl l).append (addRule_perm acc x)).trans ?_
    exact List.perm_middle

theorem foldl_sorted {d : Nat} (l acc : List (Rule d))
    (h : acc.Pairwise fun a b => a.order ≤ b.order) :
    (l.foldl addRule acc).Pairwise fun a b => a.order ≤ b.order := by
  induction l generalizing acc with
  | nil => exact h
  | cons x l ih => exact ih _ (addRule_sorted acc x h)

theorem find_first {d : Nat} (l : List (Rule d)) (n : Nat)
    (h : l.Pairwise fun a b => a.order ≤ b.order) (r : Rule d)
    (hr : l.find? (fun r => decide (n ≤ r.order)) = some r) :
    r ∈ l ∧ n ≤ r.order ∧ ∀ s ∈ l, n ≤ s.order → r.order ≤ s.order := by
  induction l with
  | nil => simp at hr
  | cons x l ih =>
    rw [List.pairwise_cons] at h
    rw [List.find?_cons] at hr
    split at hr
    · rename_i hx
      cases hr
      refine ⟨List.mem_cons_self, by simpa using hx, fun s hs _ => ?_⟩
      rcases List.mem_cons.1 hs with rfl | hs
      · exact le_refl _
      · exact h.1 s hs
    · rename_i hx
      obtain ⟨h1, h2, h3⟩ := ih h.2 hr
      refine ⟨List.mem_cons_of_mem _ h1, h2, fun s hs hn => ?_⟩
      rcases List.mem_cons.1 hs with rfl | hs
      · simp at hx; omega
      · exact h3 s hs hn

end Verif.Quadrature
