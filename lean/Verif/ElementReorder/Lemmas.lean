import Verif.ElementReorder.Model
import Mathlib.Data.List.Perm.Basic
import Mathlib.Data.List.Range
import Mathlib.Data.List.Nodup
import Mathlib.Data.Finset.Card
import Mathlib.Data.Finset.Range
import Mathlib.Tactic.Common

set_option linter.all false

namespace Verif.ElementReorder

theorem adj_sum (l : List Nat) : ∀ p, (p :: l).Pairwise (· ≤ ·) →
    ∀ x ∈ p :: l, x ≤ p + (adjacentDifference p l).sum := by
  induction l with
  | nil => intro p _ x hx; simp at hx; simp [adjacentDifference, hx]
  | cons a l ih =>
    intro p hp x hx
    rw [List.pairwise_cons] at hp
    have hpa := hp.1 a (by simp)
    have := ih a hp.2
    simp only [adjacentDifference, List.sum_cons]
    rcases List.mem_cons.1 hx with rfl | hx
    · omega
    · have := this x hx; omega

theorem adj_length (l : List Nat) : ∀ p, (adjacentDifference p l).length = l.length := by
  induction l with
  | nil => intro p; rfl
  | cons a l ih => intro p; simp [adjacentDifference, ih]

theorem checkOrder_lt {order : List Nat} (h : checkOrder order = true) :
    order ≠ [] ∧ ∀ x ∈ order, x < order.length := by
  have hne : order ≠ [] := by
    rintro rfl; simp [checkOrder, adjacentDifference] at h
  refine ⟨hne, ?_⟩
  have hpos : 0 < order.length := List.length_pos_of_ne_nil hne
  unfold checkOrder at h
  have hsort : (order.mergeSort (fun a b => decide (a ≤ b))).Pairwise (· ≤ ·) := by
    have := List.pairwise_mergeSort (le := fun a b : Nat => decide (a ≤ b))
      (by intro a b c; simp; exact Nat.le_trans) (by intro a b; simp; exact Nat.le_total a b) order
    exact this.imp (by simp)
  have hall := adj_sum (order.mergeSort (fun a b => decide (a ≤ b))) 0
    (List.pairwise_cons.2 ⟨fun _ _ => Nat.zero_le _, hsort⟩)
  cases hd : adjacentDifference 0 (order.mergeSort (fun a b => decide (a ≤ b))) with
  | nil => rw [hd] at h; simp at h
  | cons d ds =>
    rw [hd] at h hall
    simp only [Bool.and_eq_true, beq_iff_eq] at h
    intro x hx
    have hx' : x ∈ order.mergeSort (fun a b => decide (a ≤ b)) := List.mem_mergeSort.2 hx
    have := hall x (List.mem_cons_of_mem _ hx')
    omega

/-- Every registered order has only valid indices. -/
def RegOk (reg : Registry) : Prop := ∀ e ∈ reg, ∀ x ∈ e.order, x < e.order.length

theorem register_ok {types reg} (h : register types = some reg) : RegOk reg := by
  unfold register at h
  have : ∀ (types : List ElementType) (r0 : Registry), RegOk r0 →
      types.foldlM (fun reg t => addElementType reg t.dimension t.order) r0 = some reg → RegOk reg := by
    intro types
    induction types with
    | nil => intro r0 h0 h; simp at h; exact h ▸ h0
    | cons t l ih =>
      intro r0 h0 h
      simp only [List.foldlM_cons, Option.bind_eq_bind] at h
      cases ha : addElementType r0 t.dimension t.order with
      | none => rw [ha] at h; simp at h
      | some r1 =>
        rw [ha] at h
        refine ih r1 ?_ h
        unfold addElementType at ha
        split_ifs at ha with h1 h2
        simp only [Option.some.injEq] at ha
        subst ha
        intro e he
        rcases List.mem_append.1 he with he | he
        · exact h0 e he
        · simp only [List.mem_singleton] at he
          subst he; exact (checkOrder_lt h2).2
  exact this types [] (by intro e he; simp at he) h

theorem lookup_some {reg d n e} (h : lookup reg d n = some e) :
    e ∈ reg ∧ e.dimension = d ∧ e.order.length = n := by
  unfold lookup at h
  have h1 := List.mem_of_find?_eq_some h
  have h2 := List.find?_some h
  simp only [Bool.and_eq_true, beq_iff_eq] at h2
  exact ⟨h1, h2.1, h2.2⟩

theorem mapM_some_of_forall {α β} (f : α → Option β) (g : α → β) (l : List α)
    (h : ∀ x ∈ l, f x = some (g x)) : l.mapM f = some (l.map g) := by
  induction l with
  | nil => rfl
  | cons a l ih =>
    simp only [List.mapM_cons, h a (by simp), ih (fun x hx => h x (by simp [hx]))]
    rfl

theorem to_spec {reg d idx e} (hok : RegOk reg) (he : lookup reg d idx.length = some e) :
    ∃ r, reorderToHpGem reg d idx = some r ∧ r.length = idx.length ∧
      ∀ (i o : Nat), e.order[i]? = some o → r[i]? = idx[o]? := by
  obtain ⟨hm, _, hl⟩ := lookup_some he
  refine ⟨(List.range idx.length).map fun i => idx.getD (e.order.getD i 0) 0, ?_, by simp, ?_⟩
  · simp only [reorderToHpGem, he, Option.bind_eq_bind, Option.bind_some]
    apply mapM_some_of_forall
    intro i hi
    simp only [List.mem_range] at hi
    have hi' : i < e.order.length := by omega
    have := hok e hm _ (List.getElem_mem hi')
    simp [List.getElem?_eq_getElem hi', List.getElem?_eq_getElem (by omega : e.order[i] < idx.length)]
  · intro i o ho
    have hi' : i < e.order.length := (List.getElem?_eq_some_iff.1 ho).1
    have ho' := (List.getElem?_eq_some_iff.1 ho).2
    have := hok e hm _ (List.getElem_mem hi')
    rw [ho'] at this
    simp [ho, List.getElem?_eq_getElem (by omega : o < idx.length), List.getElem?_range (by omega : i < idx.length)]

theorem from_loop {order copy : List Nat} (n : Nat) (hok : ∀ x ∈ order, x < n)
    (hlo : order.length = n) (hlc : copy.length = n) (hnd : order.Nodup) (k : Nat) (hk : k ≤ n) :
    ∃ r, (List.range k).foldlM (fromStep order copy) copy = some r ∧ r.length = n ∧
      ∀ (i o : Nat), i < k → order[i]? = some o → r[o]? = copy[i]? := by
  induction k with
  | zero => exact ⟨copy, rfl, hlc, by intro i o h; omega⟩
  | succ k ih =>
    obtain ⟨r, h1, h2, h3⟩ := ih (by omega)
    have hko : k < order.length := by omega
    have hkc : k < copy.length := by omega
    have hlt := hok _ (List.getElem_mem hko)
    refine ⟨r.set order[k] copy[k], ?_, by simp [h2], ?_⟩
    · rw [List.range_succ, List.foldlM_append, h1]
      simp [fromStep, hko, hkc, h2, hlt]
    · intro i o hi ho
      obtain ⟨hio, rfl⟩ := List.getElem?_eq_some_iff.1 ho
      by_cases hik : i = k
      · subst hik
        rw [List.getElem?_set_self (by omega)]
        simp [hkc]
      · rw [List.getElem?_set_ne]
        · exact h3 i _ (by omega) ho
        · intro he
          exact hik ((List.Nodup.getElem_inj_iff hnd).1 he).symm

theorem from_spec {reg d idx e} (hok : RegOk reg) (he : lookup reg d idx.length = some e)
    (hnd : e.order.Nodup) :
    ∃ r, reorderFromHpGem reg d idx = some r ∧ r.length = idx.length ∧
      ∀ (i o : Nat), e.order[i]? = some o → r[o]? = idx[i]? := by
  obtain ⟨hm, _, hl⟩ := lookup_some he
  obtain ⟨r, h1, h2, h3⟩ := from_loop (order := e.order) (copy := idx) idx.length
    (by rw [← hl]; exact hok e hm) hl rfl hnd idx.length (Nat.le_refl _)
  refine ⟨r, by simp only [reorderFromHpGem, he, Option.bind_eq_bind, Option.bind_some]; exact h1, h2, ?_⟩
  intro i o ho
  exact h3 i o (by have := (List.getElem?_eq_some_iff.1 ho).1; omega) ho

/-- A duplicate free order with valid indices hits every index. -/
theorem order_surj {order : List Nat} (hok : ∀ x ∈ order, x < order.length) (hnd : order.Nodup) :
    order.Perm (List.range order.length) := by
  refine (List.subperm_of_subset hnd ?_).perm_of_length_le (by simp)
  intro x hx; simpa using hok x hx

end Verif.ElementReorder
