import Mathlib.Data.List.Basic
import Mathlib.Data.List.Pairwise
import Mathlib.Tactic.SplitIfs

/-!
# Model of `std::map` with integer keys

A sorted association list. `insert` is `m[k] = v`, iteration visits the keys in increasing order.
-/
namespace Verif

/-- `std::map<std::size_t, V>` -/
abbrev SMap (V : Type) := List (Nat × V)

namespace SMap
variable {V : Type}

/-- `m.find(k)` -/
def find : SMap V → Nat → Option V
  | [], _ => none
  | (a, v) :: m, k => if k = a then some v else find m k

/-- `m[k] = v` -/
def insert : SMap V → Nat → V → SMap V
  | [], k, v => [(k, v)]
  | (a, w) :: m, k, v =>
    if k = a then (a, v) :: m
    else if k < a then (k, v) :: (a, w) :: m
    else (a, w) :: insert m k v

/-- The keys in the order of iteration. -/
def keys (m : SMap V) : List Nat := m.map Prod.fst

theorem find_insert (m : SMap V) (k : Nat) (v : V) (j : Nat) :
    (m.insert k v).find j = if j = k then some v else m.find j := by
  induction m with
  | nil => simp [insert, find]
  | cons p m ih =>
    obtain ⟨a, w⟩ := p
    simp only [insert]
    by_cases h1 : k = a
    · subst h1
      by_cases hj : j = k <;> simp [find, hj]
    · by_cases h2 : k < a
      · by_cases hj : j = k <;> simp [find, hj, h1, h2]
      · by_cases hj : j = k
        · subst hj; simp [find, h1, h2, ih]
        · simp [find, h1, h2, ih, hj]

theorem mem_keys (m : SMap V) (k : Nat) : k ∈ m.keys ↔ ∃ v, m.find k = some v := by
  induction m with
  | nil => simp [keys, find]
  | cons p m ih =>
    obtain ⟨a, w⟩ := p
    simp only [keys, List.map_cons, List.mem_cons] at ih ⊢
    simp only [find]
    split_ifs with h
    · simp [h]
    · simp [h, ih]

theorem mem_keys_insert (m : SMap V) (k : Nat) (v : V) (j : Nat) :
    j ∈ (m.insert k v).keys ↔ j = k ∨ j ∈ m.keys := by
  rw [mem_keys, mem_keys]
  simp only [find_insert]
  split_ifs with h <;> simp [h]

/-- The keys are in increasing order. -/
def Sorted (m : SMap V) : Prop := m.keys.Pairwise (· < ·)

theorem sorted_nil : Sorted ([] : SMap V) := List.Pairwise.nil

theorem Sorted.insert {m : SMap V} (h : m.Sorted) (k : Nat) (v : V) : (m.insert k v).Sorted := by
  induction m with
  | nil => simp [SMap.insert, Sorted, keys]
  | cons p m ih =>
    obtain ⟨a, w⟩ := p
    have h' : (∀ b ∈ SMap.keys m, a < b) ∧ SMap.Sorted m := List.pairwise_cons.1 h
    simp only [SMap.insert]
    split_ifs with h1 h2
    · exact h
    · refine List.pairwise_cons.2 ⟨?_, h⟩
      intro b hb
      rcases List.mem_cons.1 hb with rfl | hb
      · exact h2
      · exact Nat.lt_trans h2 (h'.1 b hb)
    · refine List.pairwise_cons.2 ⟨?_, ih h'.2⟩
      intro b hb
      rcases (mem_keys_insert m k v b).1 hb with rfl | hb
      · omega
      · exact h'.1 b hb

theorem Sorted.nodup {m : SMap V} (h : m.Sorted) : m.keys.Nodup := h.imp (fun hab => Nat.ne_of_lt hab)

/-- Two sorted maps with the same content are equal. -/
theorem Sorted.ext {m m' : SMap V} (h : m.Sorted) (h' : m'.Sorted) (he : ∀ k, m.find k = m'.find k) :
    m = m' := by
  induction m generalizing m' with
  | nil =>
    cases m' with
    | nil => rfl
    | cons p m' => have := he p.1; simp [find] at this
  | cons p m ih =>
    obtain ⟨a, v⟩ := p
    cases m' with
    | nil => have := he a; simp [find] at this
    | cons q m' =>
      obtain ⟨b, w⟩ := q
      obtain ⟨h1, h2⟩ : (∀ x ∈ SMap.keys m, a < x) ∧ SMap.Sorted m := List.pairwise_cons.1 h
      obtain ⟨h1', h2'⟩ : (∀ x ∈ SMap.keys m', b < x) ∧ SMap.Sorted m' := List.pairwise_cons.1 h'
      have ha := he a
      have hb := he b
      have hab : a = b := by
        rcases Nat.lt_trichotomy a b with hlt | heq | hlt
        · exfalso
          simp only [find, if_true] at ha
          rw [if_neg (by omega)] at ha
          have : a ∈ SMap.keys m' := (mem_keys _ _).2 ⟨v, ha.symm⟩
          have := h1' a this; omega
        · exact heq
        · exfalso
          simp only [find, if_true] at hb
          rw [if_neg (by omega)] at hb
          have : b ∈ SMap.keys m := (mem_keys _ _).2 ⟨w, hb⟩
          have := h1 b this; omega
      subst hab
      simp only [find, if_true, Option.some.injEq] at ha
      subst ha
      congr 1
      apply ih h2 h2'
      intro k
      have hk := he k
      simp only [find] at hk
      split_ifs at hk with hka
      · subst hka
        have e1 : find m k = none := by
          by_contra hne
          obtain ⟨x, hx⟩ := Option.ne_none_iff_exists'.1 hne
          have := h1 k ((mem_keys _ _).2 ⟨x, hx⟩); omega
        have e2 : find m' k = none := by
          by_contra hne
          obtain ⟨x, hx⟩ := Option.ne_none_iff_exists'.1 hne
          have := h1' k ((mem_keys _ _).2 ⟨x, hx⟩); omega
        rw [e1, e2]
      · exact hk

end SMap
end Verif
