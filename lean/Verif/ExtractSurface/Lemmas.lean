import Verif.ExtractSurface.Spec
import Mathlib.Data.List.Forall2
import Mathlib.Tactic.Tauto

set_option linter.all false

namespace Verif.ExtractSurface

theorem dropFrom_eq (k : Nat) : ∀ (x : Point) (i : Nat),
    dropFrom k i x = if k < i then x else x.eraseIdx (k - i)
  | [], i => by simp [dropFrom]
  | a :: as, i => by
    rw [dropFrom, dropFrom_eq k as (i + 1)]
    by_cases h : i = k
    · subst h; simp
    · by_cases h1 : k < i
      · rw [if_neg h, if_pos (by omega), if_pos h1]
      · rw [if_neg h, if_neg (by omega), if_neg h1]
        obtain ⟨j, hj⟩ : ∃ j, k - i = j + 1 := ⟨k - i - 1, by omega⟩
        rw [hj, show k - (i + 1) = j by omega]; rfl

/-- The invariant of the loop; `own n c` says that `c` is a coordinate of node `n`. -/
structure Inv (b : Boundary) (point : Nat → Point) (own : Nat → Nat → Prop) (s : St) : Prop where
  img : ∀ c i, s.index.lookup c = some i → b.on (point c) = true ∧
    ∃ j n, s.coords[i]? = some (j, b.project (point c)) ∧ s.bnodes[j]? = some n ∧ own n c
  all : ∀ c ∈ s.seen, b.on (point c) = true → (s.index.lookup c).isSome
  key : ∀ c i, s.index.lookup c = some i → c ∈ s.seen
  inj : ∀ c c' i, s.index.lookup c = some i → s.index.lookup c' = some i → c = c'
  onto : ∀ i, i < s.coords.length → ∃ c, s.index.lookup c = some i

theorem Inv.lt {b point own s} (h : Inv b point own s) {c i} (hl : s.index.lookup c = some i) :
    i < s.coords.length := by
  obtain ⟨_, j, n, h1, _⟩ := h.img c i hl
  exact (List.getElem?_eq_some_iff.mp h1).1

theorem lookup_cons' (c a i : Nat) (l : List (Nat × Nat)) :
    ((a, i) :: l).lookup c = if c = a then some i else l.lookup c := by
  rw [List.lookup_cons]
  by_cases h : c = a
  · simp [h]
  · have hb : (c == a) = false := by simpa using h
    rw [if_neg h, hb]

theorem visit_inv {b point own} {s : St} {n c : Nat} {added : Bool} (h : Inv b point own s) (ho : own n c)
    (ha : added = true → s.bnodes.getLast? = some n) :
    Inv b point own (visit b point n c added s).2 ∧
    ((visit b point n c added s).1 = true → (visit b point n c added s).2.bnodes.getLast? = some n) := by
  unfold visit
  by_cases hc : (b.on (point c) && !s.seen.contains c) = true
  · rw [if_pos hc]
    simp only [Bool.and_eq_true, Bool.not_eq_true', List.contains_eq_mem, decide_eq_false_iff_not] at hc
    obtain ⟨hon, hns⟩ := hc
    have hlast : (if added then s.bnodes else s.bnodes ++ [n]).getLast? = some n := by
      cases added
      · simp
      · simpa using ha rfl
    have hmono : ∀ (j m : Nat), s.bnodes[j]? = some m →
        (if added then s.bnodes else s.bnodes ++ [n])[j]? = some m := by
      intro j m hj
      cases added
      · obtain ⟨hlt, he⟩ := List.getElem?_eq_some_iff.mp hj
        simp only [Bool.false_eq_true, if_false]
        rw [List.getElem?_append_left hlt]; exact hj
      · simpa using hj
    refine ⟨⟨?_, ?_, ?_, ?_, ?_⟩, fun _ => hlast⟩
    · intro c' i hl
      simp only [lookup_cons'] at hl
      split at hl
      · rename_i he
        cases hl
        subst he
        refine ⟨hon, (if added then s.bnodes else s.bnodes ++ [n]).length - 1, n, ?_, ?_, ho⟩
        · simp
        · rw [← List.getLast?_eq_getElem?]; exact hlast
      · obtain ⟨h0, j, m, h1, h2, h3⟩ := h.img c' i hl
        refine ⟨h0, j, m, ?_, hmono j m h2, h3⟩
        simp only
        rw [List.getElem?_append_left (h.lt hl)]; exact h1
    · intro c' hm ho'
      simp only [lookup_cons']
      split
      · rfl
      · rename_i hne
        rcases List.mem_cons.mp hm with h' | h'
        · exact absurd h' hne
        · exact h.all c' h' ho'
    · intro c' i hl
      simp only [lookup_cons'] at hl
      split at hl
      · rename_i he; simp [he]
      · exact List.mem_cons_of_mem _ (h.key c' i hl)
    · intro c1 c2 i h1 h2
      simp only [lookup_cons'] at h1 h2
      split at h1 <;> split at h2
      · rename_i e1 e2; rw [e1, e2]
      · cases h1; exact absurd (h.lt h2) (by omega)
      · cases h2; exact absurd (h.lt h1) (by omega)
      · exact h.inj c1 c2 i h1 h2
    · intro i hi
      simp only [List.length_append, List.length_cons, List.length_nil] at hi
      by_cases he : i = s.coords.length
      · exact ⟨c, by simp [lookup_cons', he]⟩
      · obtain ⟨c', hc'⟩ := h.onto i (by omega)
        refine ⟨c', ?_⟩
        simp only [lookup_cons']
        rw [if_neg]
        · exact hc'
        · rintro rfl; exact hns (h.key _ _ hc')
  · rw [if_neg hc]
    refine ⟨⟨h.img, ?_, ?_, h.inj, h.onto⟩, ha⟩
    · intro c' hm ho'
      rcases List.mem_cons.mp hm with h' | h'
      · subst h'
        simp only [Bool.and_eq_true, Bool.not_eq_true', List.contains_eq_mem, decide_eq_false_iff_not,
          not_and, not_not] at hc
        exact h.all c' (hc ho') ho'
      · exact h.all c' h' ho'
    · intro c' i hl; exact List.mem_cons_of_mem _ (h.key c' i hl)

theorem visitNode_inv {b point own} {n : Nat} : ∀ (cs : List Nat) (added : Bool) (s : St),
    Inv b point own s → (∀ c ∈ cs, own n c) → (added = true → s.bnodes.getLast? = some n) →
    Inv b point own (visitNode b point n cs added s)
  | [], _, _, h, _, _ => h
  | c :: cs, added, s, h, ho, ha => by
    have := visit_inv h (ho c (by simp)) ha
    exact visitNode_inv cs _ _ this.1 (fun c' hc' => ho c' (by simp [hc'])) this.2

theorem visitAll_inv {b point own} : ∀ (l : List (List Nat)) (n : Nat) (s : St),
    Inv b point own s → (∀ i a, l[i]? = some a → ∀ c ∈ a, own (n + i) c) →
    Inv b point own (visitAll b point n l s)
  | [], _, _, h, _ => h
  | cs :: rest, n, s, h, ho => by
    refine visitAll_inv rest (n + 1) _ (visitNode_inv cs false s h (ho 0 cs rfl) (by simp)) ?_
    intro i a hi c hc
    have := ho (i + 1) a (by simpa using hi) c hc
    rwa [show n + 1 + i = n + (i + 1) by omega]

theorem visit_seen (b point n c added s) (x : Nat) :
    x ∈ (visit b point n c added s).2.seen ↔ x = c ∨ x ∈ s.seen := by
  unfold visit; split <;> simp

theorem visitNode_seen (b point n) : ∀ (cs : List Nat) (added : Bool) (s : St) (x : Nat),
    x ∈ (visitNode b point n cs added s).seen ↔ x ∈ cs ∨ x ∈ s.seen
  | [], _, _, x => by simp [visitNode]
  | c :: cs, added, s, x => by
    rw [visitNode, visitNode_seen b point n cs, visit_seen]; simp; tauto

theorem visitAll_seen (b point) : ∀ (l : List (List Nat)) (n : Nat) (s : St) (x : Nat),
    x ∈ (visitAll b point n l s).seen ↔ (∃ a ∈ l, x ∈ a) ∨ x ∈ s.seen
  | [], _, _, x => by simp [visitAll]
  | cs :: rest, n, s, x => by
    rw [visitAll, visitAll_seen b point rest, visitNode_seen]; simp only [List.mem_cons, exists_eq_or_imp]
    exact or_left_comm.trans or_assoc.symm

theorem visitNode_bnodes (b point n) : ∀ (cs : List Nat) (added : Bool) (s : St),
    (visitNode b point n cs added s).bnodes = s.bnodes ++
      if added = false ∧ ∃ c ∈ cs, b.on (point c) = true ∧ c ∉ s.seen then [n] else []
  | [], added, s => by simp [visitNode]
  | c :: cs, added, s => by
    rw [visitNode]
    rw [visitNode_bnodes b point n cs]
    by_cases hc : (b.on (point c) && !s.seen.contains c) = true
    · have hv : visit b point n c added s = (true, (visit b point n c added s).2) := by
        unfold visit; rw [if_pos hc]
      have hb : (visit b point n c added s).2.bnodes = if added then s.bnodes else s.bnodes ++ [n] := by
        unfold visit; rw [if_pos hc]
      rw [hv]
      simp only [Bool.true_eq_false, false_and, if_false, List.append_nil, hb]
      simp only [Bool.and_eq_true, Bool.not_eq_true', List.contains_eq_mem, decide_eq_false_iff_not] at hc
      cases added
      · simp only [Bool.false_eq_true, if_false, true_and]
        rw [if_pos ⟨c, by simp, hc⟩]
      · simp
    · have hv : visit b point n c added s = (added, { s with seen := c :: s.seen }) := by
        unfold visit; rw [if_neg hc]
      rw [hv]
      simp only
      congr 1
      simp only [Bool.and_eq_true, Bool.not_eq_true', List.contains_eq_mem, decide_eq_false_iff_not,
        not_and, not_not] at hc
      have : (∃ c' ∈ cs, b.on (point c') = true ∧ c' ∉ c :: s.seen) ↔
          (∃ c' ∈ c :: cs, b.on (point c') = true ∧ c' ∉ s.seen) := by
        constructor
        · rintro ⟨c', h1, h2, h3⟩
          exact ⟨c', by simp [h1], h2, fun h => h3 (by simp [h])⟩
        · rintro ⟨c', h1, h2, h3⟩
          rcases List.mem_cons.mp h1 with h | h
          · subst h; exact absurd (hc h2) h3
          · refine ⟨c', h, h2, ?_⟩
            intro hm
            rcases List.mem_cons.mp hm with h' | h'
            · subst h'; exact h3 (hc h2)
            · exact h3 h'
      simp only [this]

theorem visitAll_bnodes (b point) : ∀ (l : List (List Nat)) (n : Nat) (s : St),
    (∀ (i j : Nat) (a a' : List Nat), l[i]? = some a → l[j]? = some a' → i ≠ j → ∀ c ∈ a, c ∉ a') →
    (∀ a ∈ l, ∀ c ∈ a, c ∉ s.seen) → ∀ x,
    (x ∈ (visitAll b point n l s).bnodes ↔
      x ∈ s.bnodes ∨ ∃ (i : Nat) (a : List Nat), x = n + i ∧ l[i]? = some a ∧ ∃ c ∈ a, b.on (point c) = true)
  | [], n, s, _, _, x => by simp [visitAll]
  | cs :: rest, n, s, hd, hs, x => by
    rw [visitAll, visitAll_bnodes b point rest (n + 1), visitNode_bnodes]
    · have h0 : (∃ c ∈ cs, b.on (point c) = true ∧ c ∉ s.seen) ↔ ∃ c ∈ cs, b.on (point c) = true :=
        ⟨fun ⟨c, h1, h2, _⟩ => ⟨c, h1, h2⟩, fun ⟨c, h1, h2⟩ => ⟨c, h1, h2, hs cs (by simp) c h1⟩⟩
      simp only [true_and, h0, List.mem_append]
      constructor
      · rintro ((h | h) | ⟨i, a, h1, h2, h3⟩)
        · exact Or.inl h
        · split at h
          · rename_i hc
            exact Or.inr ⟨0, cs, by simpa using h, rfl, hc⟩
          · simp at h
        · exact Or.inr ⟨i + 1, a, by omega, by simpa using h2, h3⟩
      · rintro (h | ⟨i, a, h1, h2, h3⟩)
        · exact Or.inl (Or.inl h)
        · cases i with
          | zero =>
            simp only [List.getElem?_cons_zero, Option.some.injEq] at h2
            subst h2
            left; right
            rw [if_pos h3]; simp [h1]
          | succ i => exact Or.inr ⟨i, a, by omega, by simpa using h2, h3⟩
    · intro i j a a' h1 h2 hne
      exact hd (i + 1) (j + 1) a a' (by simpa using h1) (by simpa using h2) (by omega)
    · intro a ha c hc
      rw [visitNode_seen]
      obtain ⟨i, hi⟩ := List.mem_iff_getElem?.mp ha
      rintro (h | h)
      · exact hd (i + 1) 0 a cs (by simpa using hi) rfl (by omega) c hc h
      · exact hs a (by simp [ha]) c hc h

theorem visitAll_nodup (b point) : ∀ (l : List (List Nat)) (n : Nat) (s : St),
    s.bnodes.Nodup → (∀ x ∈ s.bnodes, x < n) → (visitAll b point n l s).bnodes.Nodup
  | [], n, s, h, _ => h
  | cs :: rest, n, s, h, hl => by
    rw [visitAll]
    apply visitAll_nodup
    · rw [visitNode_bnodes]
      split
      · rw [List.nodup_append]
        refine ⟨h, by simp, ?_⟩
        intro x hx y hy
        have := hl x hx
        simp at hy; omega
      · simpa using h
    · intro x hx
      rw [visitNode_bnodes] at hx
      rcases List.mem_append.mp hx with h' | h'
      · have := hl x h'; omega
      · split at h'
        · simp at h'; omega
        · simp at h'

theorem scan_inv (b : Boundary) (m : Mesh) :
    Inv b m.point (fun n c => ∃ a, m.nodes[n]? = some a ∧ c ∈ a) (scan b m) := by
  apply visitAll_inv
  · constructor <;> simp
  · intro i a hi c hc; exact ⟨a, by simpa using hi, hc⟩

theorem on_iff (b : Boundary) (x : Point) : b.on x = true ↔ InPlane b.index b.location x := by
  simp [Boundary.on, InPlane]

theorem project_eq (b : Boundary) (x : Point) : b.project x = x.eraseIdx b.index := by
  simp [Boundary.project, dropFrom_eq]

theorem scan_bnodes (b : Boundary) (m : Mesh) (hm : Sound m) (n : Nat) :
    n ∈ (scan b m).bnodes ↔ ∃ a, m.nodes[n]? = some a ∧ ∃ c ∈ a, InPlane b.index b.location (m.point c) := by
  rw [scan, visitAll_bnodes b m.point m.nodes 0 _ (fun i j a a' h1 h2 h3 => hm.apart i j a a' h1 h2 h3)
    (by simp)]
  simp only [List.not_mem_nil, false_or, Nat.zero_add, on_iff]
  constructor
  · rintro ⟨i, a, rfl, h⟩; exact ⟨a, h⟩
  · rintro ⟨a, h⟩; exact ⟨n, a, rfl, h⟩

theorem scan_lookup (b : Boundary) (m : Mesh) {n c : Nat} {a : List Nat} (h : m.nodes[n]? = some a) (hc : c ∈ a)
    (hp : InPlane b.index b.location (m.point c)) :
    ∃ i, (scan b m).index.lookup c = some i := by
  have := (scan_inv b m).all c (by
    rw [scan, visitAll_seen]; exact Or.inl ⟨a, List.mem_of_getElem? h, hc⟩) ((on_iff b _).mpr hp)
  exact Option.isSome_iff_exists.mp this

end Verif.ExtractSurface
