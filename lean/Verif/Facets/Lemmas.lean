import Verif.Facets.Spec
import Mathlib.Data.List.Perm.Lattice
import Mathlib.Data.List.Nodup
import Mathlib.Algebra.BigOperators.Group.List.Basic
import Mathlib.Data.List.Induction
import Mathlib.Tactic.Ring
import Mathlib.Tactic.Linarith

/-! # Sums over facets: lemmas -/
namespace Verif.Facets

variable {φ : Type}

/-- The face is one that the constructor takes. -/
def taken (f : Face φ) : Bool := f.owned && decide (f.right ≠ some f.left)

/-- The side that the constructor takes. -/
def sideOf (f : Face φ) : Side :=
  match f.right with
  | some r => if f.left < r then .left else .right
  | none => .left

theorem addFace_eq (m : List (Pair × List (Face φ × Side))) (f : Face φ) : addFace m f = if taken f then push m (zonePair f) (f, sideOf f) else m := by
  obtain ⟨l, r, o, i⟩ := f
  cases o
  · simp [addFace, taken]
  · rcases r with _ | r
    · simp [addFace, taken, sideOf]
    · rcases eq_or_ne l r with rfl | h
      · simp [addFace, taken]
      · have h' : ¬ r = l := fun e => h e.symm
        simp [addFace, taken, sideOf, h, h']

theorem push_keys {α β : Type} [DecidableEq α] (m : List (α × List β)) (k : α) (v : β) :
    (push m k v).map Prod.fst = if k ∈ m.map Prod.fst then m.map Prod.fst else m.map Prod.fst ++ [k] := by
  unfold push
  split
  · rw [List.map_map]
    exact List.map_congr_left fun e _ => by simp only [Function.comp]; split <;> rfl
  · simp

/-- What is known of the map of a process. -/
structure MapInv (faces : List (Face φ)) (m : List (Pair × List (Face φ × Side))) : Prop where
  nodup : (m.map Prod.fst).Nodup
  entry : ∀ e ∈ m, e.2 = (faces.filter fun f => taken f && decide (zonePair f = e.1)).map fun f => (f, sideOf f)
  mem : ∀ k, k ∈ m.map Prod.fst ↔ ∃ f ∈ faces, taken f ∧ zonePair f = k

theorem facets_inv (faces : List (Face φ)) : MapInv faces (facets faces) := by
  induction faces using List.reverseRecOn with
  | nil => exact ⟨List.nodup_nil, by simp [facets], by simp [facets]⟩
  | append_singleton l f ih =>
    have h : facets (l ++ [f]) = addFace (facets l) f := by simp [facets]
    rw [h, addFace_eq]
    by_cases ht : taken f
    · rw [if_pos ht]
      refine ⟨?_, ?_, ?_⟩
      · rw [push_keys]
        split
        · exact ih.nodup
        · next hk => exact List.Nodup.append ih.nodup (List.nodup_singleton _) (by simpa using hk)
      · intro e he
        unfold push at he
        split at he
        · obtain ⟨e', he', rfl⟩ := List.mem_map.1 he
          by_cases hk : e'.1 = zonePair f
          · rw [if_pos hk]
            simp only [List.filter_append, List.map_append, ih.entry e' he']
            simp [List.filter_cons, ht, hk]
          · rw [if_neg hk, ih.entry e' he']
            have : ¬ zonePair f = e'.1 := fun h => hk h.symm
            simp [List.filter_append, List.filter_cons, this]
        · next hk =>
          rcases List.mem_append.1 he with he | he
          · have hne : ¬ zonePair f = e.1 := fun h => hk (h ▸ List.mem_map_of_mem he)
            rw [ih.entry e he]
            simp [List.filter_append, List.filter_cons, hne]
          · rw [List.mem_singleton] at he
            subst he
            have : (l.filter fun g => taken g && decide (zonePair g = zonePair f)) = [] := by
              rw [List.filter_eq_nil_iff]
              intro g hg hgt
              simp only [Bool.and_eq_true, decide_eq_true_eq] at hgt
              exact hk ((ih.mem _).2 ⟨g, hg, hgt.1, hgt.2⟩)
            simp [List.filter_append, List.filter_cons, ht, this]
      · intro k
        rw [push_keys]
        split
        · next hk =>
          rw [ih.mem]
          constructor
          · rintro ⟨g, hg, h1, h2⟩; exact ⟨g, List.mem_append_left _ hg, h1, h2⟩
          · rintro ⟨g, hg, h1, h2⟩
            rcases List.mem_append.1 hg with hg | hg
            · exact ⟨g, hg, h1, h2⟩
            · rw [List.mem_singleton] at hg
              subst hg
              exact h2 ▸ (ih.mem _).1 hk
        · rw [List.mem_append, ih.mem, List.mem_singleton]
          constructor
          · rintro (⟨g, hg, h1, h2⟩ | rfl)
            · exact ⟨g, List.mem_append_left _ hg, h1, h2⟩
            · exact ⟨f, List.mem_append_right _ (List.mem_singleton_self _), ht, rfl⟩
          · rintro ⟨g, hg, h1, h2⟩
            rcases List.mem_append.1 hg with hg | hg
            · exact Or.inl ⟨g, hg, h1, h2⟩
            · rw [List.mem_singleton] at hg
              subst hg
              exact Or.inr h2.symm
    · rw [if_neg ht]
      refine ⟨ih.nodup, ?_, ?_⟩
      · intro e he
        rw [ih.entry e he]
        simp [List.filter_append, List.filter_cons, ht]
      · intro k
        rw [ih.mem]
        constructor
        · rintro ⟨g, hg, h1, h2⟩; exact ⟨g, List.mem_append_left _ hg, h1, h2⟩
        · rintro ⟨g, hg, h1, h2⟩
          rcases List.mem_append.1 hg with hg | hg
          · exact ⟨g, hg, h1, h2⟩
          · rw [List.mem_singleton] at hg
            subst hg
            exact absurd h1 ht

theorem flags_ne (zones : Nat) (m : List (Pair × List (Face φ × Side))) (i : Nat) : flags zones m i ≠ 0 ↔ ∃ k ∈ m.map Prod.fst, index zones k = i := by
  induction m using List.reverseRecOn with
  | nil => simp [flags]
  | append_singleton l e ih =>
    have h : flags zones (l ++ [e]) = Function.update (flags zones l) (index zones e.1) 1 := by simp [flags]
    rw [h]
    by_cases hi : i = index zones e.1
    · subst hi
      simp
    · rw [Function.update_of_ne hi, ih]
      have : ¬ index zones e.1 = i := fun h => hi h.symm
      simp [this]

theorem foldl_max_ne (l : List Nat) (m : Nat) : l.foldl max m ≠ 0 ↔ m ≠ 0 ∨ ∃ x ∈ l, x ≠ 0 := by
  induction l generalizing m with
  | nil => simp
  | cons a l ih =>
    rw [List.foldl_cons, ih]
    simp only [List.mem_cons, exists_eq_or_imp]
    have : max m a ≠ 0 ↔ m ≠ 0 ∨ a ≠ 0 := by omega
    rw [this, or_assoc]

theorem maxFlags_ne (zones : Nat) (processes : List (List (Face φ))) (i : Nat) :
    maxFlags zones processes i ≠ 0 ↔ ∃ f ∈ processes.flatMap fun faces => faces.filter Face.owned, taken f ∧ index zones (zonePair f) = i := by
  rw [maxFlags, foldl_max_ne]
  simp only [ne_eq, not_true_eq_false, false_or, List.mem_map, List.mem_flatMap, List.mem_filter]
  constructor
  · rintro ⟨x, ⟨faces, hf, rfl⟩, hx⟩
    obtain ⟨k, hk, hi⟩ := (flags_ne zones _ i).1 hx
    obtain ⟨f, h1, h2, h3⟩ := ((facets_inv faces).mem k).1 hk
    refine ⟨f, ⟨faces, hf, h1, ?_⟩, h2, h3 ▸ hi⟩
    simp only [taken, Bool.and_eq_true] at h2
    exact h2.1
  · rintro ⟨f, ⟨faces, hf, h1, _⟩, h2, h3⟩
    exact ⟨_, ⟨faces, hf, rfl⟩, (flags_ne zones _ i).2 ⟨zonePair f, ((facets_inv faces).mem _).2 ⟨f, h1, h2, rfl⟩, h3⟩⟩

/-- A pair of zones that the code can have. -/
def PairOk (zones : Nat) (p : Pair) : Prop := 0 ≤ p.1 ∧ p.1 < zones ∧ -1 ≤ p.2 ∧ p.2 < zones

/-- The pair of a linear index. -/
def unindex (zones i : Nat) : Pair := ((i / (zones + 1) : Nat), ((i % (zones + 1) : Nat) : Int) - 1)

theorem zonePair_ok {zones : Nat} {f : Face φ} (h : Valid zones f) : PairOk zones (zonePair f) := by
  obtain ⟨l, r, o, i⟩ := f
  have h1 : l < zones := h.1
  rcases r with _ | r
  · refine ⟨?_, ?_, ?_, ?_⟩ <;> simp only [zonePair] <;> omega
  · have h2 : r < zones := h.2 r rfl
    simp only [zonePair]
    split <;> refine ⟨?_, ?_, ?_, ?_⟩ <;> simp only <;> omega

theorem index_unindex {zones : Nat} {p : Pair} (h : PairOk zones p) : unindex zones (index zones p) = p ∧ index zones p < zones * (zones + 1) := by
  obtain ⟨a, b⟩ := p
  obtain ⟨h1, h2, h3, h4⟩ := h
  simp only at h1 h2 h3 h4
  obtain ⟨a, rfl⟩ := Int.eq_ofNat_of_zero_le h1
  obtain ⟨c, hc⟩ := Int.eq_ofNat_of_zero_le (show 0 ≤ b + 1 by omega)
  have hb : b = c - 1 := by omega
  subst hb
  have hcz : c < zones + 1 := by omega
  have haz : a < zones := by omega
  have hi : index zones ((a : Int), (c : Int) - 1) = a * (zones + 1) + c := by
    simp only [index]
    have : (a : Int) * (zones + 1) + ((c : Int) - 1) + 1 = ((a * (zones + 1) + c : Nat) : Int) := by push_cast; ring
    rw [this, Int.toNat_natCast]
  rw [hi]
  constructor
  · simp only [unindex]
    have e1 : (a * (zones + 1) + c) / (zones + 1) = a := by
      rw [Nat.mul_comm, Nat.mul_add_div (by omega), Nat.div_eq_of_lt hcz, Nat.add_zero]
    have e2 : (a * (zones + 1) + c) % (zones + 1) = c := by
      rw [Nat.mul_comm, Nat.mul_add_mod, Nat.mod_eq_of_lt hcz]
    rw [e1, e2]
  · calc a * (zones + 1) + c < a * (zones + 1) + (zones + 1) := by omega
      _ = (a + 1) * (zones + 1) := by ring
      _ ≤ zones * (zones + 1) := Nat.mul_le_mul_right _ haz

theorem range_mul {α : Type} (n m : Nat) (g : Nat → α) : (List.range (n * m)).map g = (List.range n).flatMap fun a => (List.range m).map fun j => g (a * m + j) := by
  induction n with
  | zero => simp
  | succ n ih =>
    rw [Nat.succ_mul, List.range_add, List.map_append, ih, List.range_succ, List.flatMap_append]
    simp [List.map_map, Function.comp_def]

/-- The number for the second zone. -/
def code : Option Nat → Int
  | none => -1
  | some b => b

/-- The pair of an interface. -/
def toPair (p : Nat × Option Nat) : Pair := (p.1, code p.2)

theorem sideBetween_iff (a : Nat) (b : Option Nat) (hab : ∀ c, b = some c → a < c) (f : Face φ) (ho : f.owned = true) :
    sideBetween a b f = if taken f && decide (zonePair f = toPair (a, b)) then some (sideOf f) else none := by
  obtain ⟨l, r, o, i⟩ := f
  simp only at ho
  subst ho
  rcases r with _ | r <;> rcases b with _ | c
  · by_cases h : l = a
    · subst h; simp [sideBetween, taken, zonePair, toPair, code, sideOf]
    · simp [sideBetween, taken, zonePair, toPair, code, h]
  · have : ¬ (-1 : Int) = c := by omega
    simp [sideBetween, zonePair, toPair, code, this]
  · have : ∀ x y : Nat, ¬ ((x : Int), (y : Int)) = ((a : Int), (-1 : Int)) := fun x y h => by
      have := (Prod.mk.injEq _ _ _ _ ▸ h).2; omega
    simp only [sideBetween, zonePair, toPair, code]
    split <;> simp [this]
  · have hac : a < c := hab c rfl
    simp only [sideBetween, zonePair, toPair, code, taken, sideOf, Bool.true_and]
    by_cases h1 : l = a ∧ r = c
    · obtain ⟨rfl, rfl⟩ := h1
      have : ¬ r = l := by omega
      have h2 : ¬ (l : Int) > r := by omega
      simp [this, hac]
      omega
    · rw [if_neg h1]
      by_cases h2 : r = a ∧ l = c
      · obtain ⟨rfl, rfl⟩ := h2
        have : ¬ r = l := by omega
        have h3 : ¬ l < r := by omega
        simp [this, h3]
        omega
      · rw [if_neg h2, eq_comm, if_neg]
        intro h
        simp only [Bool.and_eq_true, decide_eq_true_eq, ne_eq] at h
        obtain ⟨h3, h4⟩ := h
        split at h4
        · have := Prod.mk.injEq _ _ _ _ ▸ h4
          exact h2 ⟨by omega, by omega⟩
        · have := Prod.mk.injEq _ _ _ _ ▸ h4
          exact h1 ⟨by omega, by omega⟩

end Verif.Facets
