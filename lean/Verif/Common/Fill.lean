import Mathlib.Data.List.Basic
import Mathlib.Data.List.Perm.Basic
import Mathlib.Data.List.Perm.Lattice
import Mathlib.Data.List.FinRange
import Mathlib.Data.Finset.Card
import Mathlib.Data.Finset.Image
import Mathlib.Tactic.Common

/-!
# Filling a preallocated vector by assignments

`fill n d w` is the vector of length `n`, filled with `d`, after the assignments `v[i] = x` of the
list `w`, in order. `none` if one of them is outside the vector.
-/
namespace Verif

variable {α : Type}

/-- One assignment `v[i] = x`. -/
def assign (v : List α) (w : Nat × α) : Option (List α) :=
  if w.1 < v.length then some (v.set w.1 w.2) else none

/-- A new vector of length `n` after the assignments `w`. -/
def fill (n : Nat) (d : α) (w : List (Nat × α)) : Option (List α) :=
  w.foldlM assign (List.replicate n d)

/-- The list `l` written from position `base` on. -/
def writesFrom (base : Nat) (l : List α) : List (Nat × α) :=
  (l.zipIdx base).map Prod.swap

theorem writesFrom_nil (base : Nat) : writesFrom base ([] : List α) = [] := rfl

theorem writesFrom_cons (base : Nat) (x : α) (l : List α) :
    writesFrom base (x :: l) = (base, x) :: writesFrom (base + 1) l := by
  simp [writesFrom, List.zipIdx_cons]

theorem writesFrom_append (base : Nat) (l m : List α) :
    writesFrom base (l ++ m) = writesFrom base l ++ writesFrom (base + l.length) m := by
  simp [writesFrom, List.zipIdx_append]

theorem mem_writesFrom {base : Nat} {l : List α} {i : Nat} {x : α} :
    (i, x) ∈ writesFrom base l ↔ base ≤ i ∧ l[i - base]? = some x := by
  simp only [writesFrom, List.mem_map, Prod.exists, Prod.swap_prod_mk, Prod.mk.injEq]
  constructor
  · rintro ⟨a, b, h, rfl, rfl⟩
    exact List.mk_mem_zipIdx_iff_le_and_getElem?_sub.1 h
  · intro h
    exact ⟨x, i, List.mk_mem_zipIdx_iff_le_and_getElem?_sub.2 h, rfl, rfl⟩

theorem writesFrom_map_fst (base : Nat) (l : List α) :
    (writesFrom base l).map Prod.fst = List.range' base l.length := by
  simp [writesFrom, List.map_map, Function.comp_def]

/-- The result of a fold of assignments at distinct positions. -/
theorem foldlM_assign (w : List (Nat × α)) : ∀ (v : List α), (∀ p ∈ w, p.1 < v.length) →
    (w.map Prod.fst).Nodup →
    ∃ r, w.foldlM assign v = some r ∧ r.length = v.length ∧
      (∀ p ∈ w, r[p.1]? = some p.2) ∧ ∀ (i : Nat), i ∉ w.map Prod.fst → r[i]? = v[i]? := by
  induction w with
  | nil => intro v _ _; exact ⟨v, rfl, rfl, by simp, by simp⟩
  | cons p w ih =>
    intro v hb hn
    have hp := hb p (by simp)
    rw [List.map_cons, List.nodup_cons] at hn
    obtain ⟨r, h1, h2, h3, h4⟩ := ih (v.set p.1 p.2)
      (by intro q hq; rw [List.length_set]; exact hb q (by simp [hq])) hn.2
    refine ⟨r, ?_, by simpa using h2, ?_, ?_⟩
    · rw [List.foldlM_cons]
      simp only [assign, hp, if_true, Option.bind_eq_bind, Option.bind_some]
      exact h1
    · intro q hq
      rcases List.mem_cons.1 hq with rfl | hq
      · rw [h4 _ hn.1, List.getElem?_set_self hp]
      · exact h3 q hq
    · intro i hi
      simp only [List.map_cons, List.mem_cons, not_or] at hi
      rw [h4 i hi.2, List.getElem?_set_ne (Ne.symm hi.1)]

/-- Assignments that are, in some order, those of a list of the full length give that list. -/
theorem fill_eq {n : Nat} {d : α} {w : List (Nat × α)} {l : List α} (h : w.Perm (writesFrom 0 l))
    (hl : l.length = n) : fill n d w = some l := by
  have hfst : (w.map Prod.fst).Perm (List.range' 0 l.length) := by
    rw [← writesFrom_map_fst]; exact h.map _
  obtain ⟨r, h1, h2, h3, _⟩ := foldlM_assign w (List.replicate n d)
    (by
      intro p hp
      have : p.1 ∈ List.range' 0 l.length := hfst.mem_iff.1 (List.mem_map_of_mem hp)
      simp [List.mem_range'] at this
      simpa [hl] using this)
    (hfst.nodup_iff.2 List.nodup_range')
  rw [fill, h1]
  congr 1
  apply List.ext_getElem?
  intro i
  by_cases hi : i < l.length
  · have : (i, l[i]) ∈ w := h.mem_iff.2 (mem_writesFrom.2 ⟨Nat.zero_le _, by simp [hi]⟩)
    rw [h3 _ this, List.getElem?_eq_getElem hi]
  · rw [List.getElem?_eq_none (by simp at h2; omega), List.getElem?_eq_none (by omega)]

theorem writesFrom_map {ι : Type} (f : ι → α) (items : List ι) : ∀ base k : Nat,
    (items.zipIdx k).map (fun p => (base + p.2, f p.1)) = writesFrom (base + k) (items.map f) := by
  induction items with
  | nil => intro base k; rfl
  | cons x items ih =>
    intro base k
    rw [List.zipIdx_cons, List.map_cons, ih, List.map_cons, writesFrom_cons, Nat.add_assoc]

/-- Several segments of the same length filled in one loop. `items` gives what the loop runs over, in
order; round number `t` with item `x` writes `f x` at place `t` of the segment of `f`. -/
theorem segments_perm {ι : Type} (segs : List (ι → α)) (items : List ι) : ∀ base : Nat,
    (items.zipIdx.flatMap fun p =>
      segs.zipIdx.map fun q => (base + q.2 * items.length + p.2, q.1 p.1)).Perm
    (writesFrom base (segs.flatMap fun f => items.map f)) := by
  induction segs with
  | nil => intro base; simp [writesFrom]
  | cons f segs ih =>
    intro base
    rw [List.flatMap_cons, writesFrom_append, List.length_map]
    have e1 : (items.zipIdx.flatMap fun p =>
        ((f :: segs).zipIdx.map fun q => (base + q.2 * items.length + p.2, q.1 p.1))) =
      items.zipIdx.flatMap fun p => [(base + p.2, f p.1)] ++
        (segs.zipIdx.map fun q => ((base + items.length) + q.2 * items.length + p.2, q.1 p.1)) := by
      congr 1
      funext p
      rw [List.zipIdx_cons', List.map_cons, List.map_map]
      simp only [Nat.zero_mul, Nat.add_zero, List.singleton_append, List.cons.injEq, true_and]
      apply List.map_congr_left
      intro q _
      simp only [Function.comp_def, Prod.map, id]
      rw [Nat.add_mul, Nat.one_mul]
      congr 1; omega
    rw [e1]
    refine (List.flatMap_append_perm _ _ _).symm.trans (List.Perm.append ?_ (ih _))
    rw [← List.map_eq_flatMap]
    apply List.Perm.of_eq
    exact writesFrom_map f items base 0

/-- A list as long as a finite set it covers has no duplicates and nothing else. -/
theorem nodup_of_cover [DecidableEq α] {l : List α} {s : Finset α} (hl : l.length = s.card)
    (h : ∀ x ∈ s, x ∈ l) : l.Nodup ∧ ∀ x, x ∈ l ↔ x ∈ s := by
  have hsub : s ⊆ l.toFinset := fun x hx => List.mem_toFinset.2 (h x hx)
  have hle : l.toFinset.card ≤ s.card := by rw [← hl]; exact List.toFinset_card_le l
  have heq : s = l.toFinset := Finset.eq_of_subset_of_card_le hsub hle
  constructor
  · rw [← Multiset.coe_nodup, ← Multiset.toFinset_card_eq_card_iff_nodup]
    show l.toFinset.card = _
    rw [← heq, ← hl]; rfl
  · intro x; rw [heq, List.mem_toFinset]

end Verif
