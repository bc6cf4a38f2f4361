import Verif.Assembly.Spec
import Verif.GlobalIndexing.Props
import Mathlib.Tactic.IntervalCases
set_option linter.all false

/-! # The exchange can be finished, and a mesh of three elements -/
namespace Verif.Assembly
open GlobalIndexing

theorem reachable_of_run {m : Mesh} {strict : Bool} {S : Nat → State} {n : Nat} {c : Config}
    (h : Run m strict n (Config.start m S) c) : Reachable m strict S c := by
  generalize hc : Config.start m S = c0 at h
  induction h with
  | nil c => subst hc; exact .start
  | step n c c' c'' _ hs ih => exact .step _ _ (ih hc) hs

/-- For any selection of unknowns that `reset` accepts there are states in which all ranks are done. -/
theorem exists_indexing (m : Mesh) (hm : m.Valid) (h0 : 0 < m.unknowns) (hg : m.Ghosts) (layout : Layout)
    (unk : Option (List Nat)) (hn : (requested m unk).Nodup)
    (hu : ∀ l, unk = some l → l ≠ [] ∧ ∀ u ∈ l, u < m.unknowns) : ∃ s, Indexing m layout unk s := by
  have hS : ∀ p, ∃ S, reset m layout unk ⟨0, fun _ => {}, [], 0, 0⟩ p = some S := by
    intro p
    cases h : reset m layout unk ⟨0, fun _ => {}, [], 0, 0⟩ p with
    | some S => exact ⟨S, rfl⟩
    | none =>
      obtain ⟨l, h1, h2⟩ := (reset_rejects m layout unk _ p).1 h
      obtain ⟨h3, h4⟩ := hu l h1
      rcases h2 with h2 | ⟨u, h5, h6⟩
      · exact absurd h2 h3
      · have := h4 u h5; omega
  choose S hS using hS
  have hres : Resets m layout unk S := fun p _ => ⟨_, hS p⟩
  obtain ⟨N, hN⟩ := exchange_terminates m S true
  by_contra hcon
  have key : ∀ n, ∃ c, Run m true n (Config.start m S) c := by
    intro n
    induction n with
    | zero => exact ⟨_, .nil _⟩
    | succ n ih =>
      obtain ⟨c, hc⟩ := ih
      have hr := reachable_of_run hc
      by_cases hd : ∃ p < m.ranks, (c.rank p).pc ≠ .done
      · obtain ⟨c', hc'⟩ := exchange_progress m hm h0 layout unk hn S hres hg true c hr hd
        exact ⟨c', .step _ _ _ _ hc hc'⟩
      · push Not at hd
        exact absurd ⟨fun p => (c.rank p).st, hn, S, true, c, hres, hr, hd, fun p _ => rfl⟩ hcon
  obtain ⟨c, hc⟩ := key (N + 1)
  have := hN _ _ hc
  omega

/-- Three intervals in a row on three ranks; interval `i` has the end points (faces) `i` and `i + 1`. The first
unknown has a basis function on each interval, the second one on each end point. -/
def row3 : Mesh where
  dim := 1
  ranks := 3
  unknowns := 2
  owned p := [p]
  owner e := e
  sub k e := if k = .face then [e, e + 1] else []
  adj k x := if k = .face then (if x = 0 then [0] else if x = 3 then [2] else [x - 1, x]) else []
  count o u := if o.kind = .face then (if u = 1 then 1 else 0) else if u = 0 then 1 else 0
  push p := if p = 0 then [(1, [0])] else if p = 1 then [(0, [1]), (2, [1])] else [(1, [2])]
  pulls p := if p = 1 then 2 else 1

theorem row3_valid : row3.Valid := by
  refine ⟨?_, ?_, ?_⟩
  · intro p _; simp [row3]
  · intro p _ e he; simpa [row3] using he
  · intro p _ e _ k; cases k <;> simp [row3]

theorem row3_ghosts : row3.Ghosts := by
  have hadj : ∀ e < 3, ∀ x ∈ [e, e + 1], e ∈ row3.adj .face x := by decide
  have hsub : ∀ e < 3, ∀ x ∈ [e, e + 1], ∀ e' ∈ row3.adj .face x, e' < 3 ∧ x ∈ [e', e' + 1] := by decide
  have hclosed : ∀ p < 3, ∀ q < 3, p ≠ q → ∀ x ∈ [p, p + 1], x ∈ [q, q + 1] →
      (row3.push p).find q = some [p] := by
    intro p hp q hq
    interval_cases p <;> interval_cases q <;> decide
  have hfind : ∀ p < 3, ∀ x ∈ row3.push p, x.1 < 3 ∧ x.1 ≠ p := by decide
  refine ⟨?_, ?_, ?_, ?_, ?_, ?_, ?_⟩
  · intro p hp e he k x hx
    cases k <;> simp only [row3, List.mem_singleton, reduceCtorEq, if_false, if_true, List.not_mem_nil] at he hx
    subst he; exact hadj e hp x hx
  · intro p hp e he k x hx e' he'
    cases k <;> simp only [row3, List.mem_singleton, reduceCtorEq, if_false, if_true, List.not_mem_nil] at he hx
    subst he
    obtain ⟨a, b⟩ := hsub e hp x hx e' he'
    exact ⟨a, by simp [row3], by simpa [row3] using b⟩
  · intro p hp q hq hpq e he e' he' k x hx hx'
    cases k <;> simp only [row3, List.mem_singleton, reduceCtorEq, if_false, if_true, List.not_mem_nil] at he he' hx hx'
    subst he; subst he'
    exact ⟨_, hclosed e hp e' hq hpq x hx hx', by simp⟩
  · intro p hp q e hpush
    obtain ⟨els, h1, h2⟩ := hpush
    change p < 3 at hp
    interval_cases p <;> simp [row3, SMap.find] at h1 <;> simp [row3] <;> grind
  · intro p hp q hq
    obtain ⟨x, hx, rfl⟩ := List.mem_map.1 hq
    exact hfind p hp x hx
  · intro p hp
    change p < 3 at hp
    interval_cases p <;> simp [row3, SMap.Sorted, SMap.keys]
  · intro q hq
    change q < 3 at hq
    interval_cases q <;> decide

/-- What the three ranks know: their own interval and its neighbours, and all end points of these. -/
def row3Parts : Parts where
  present p := if p = 0 then [0, 1] else if p = 1 then [0, 1, 2] else [1, 2]
  faces p := if p = 0 then [0, 1, 2] else if p = 1 then [0, 1, 2, 3] else [1, 2, 3]
  around p f := (row3.adj .face f).filter fun e => e ∈ (if p = 0 then [0, 1] else if p = 1 then [0, 1, 2] else [1, 2])
  subdomain p f := (f = 1 ∧ p ≤ 1) ∨ (f = 2 ∧ 1 ≤ p)

theorem row3_has (p e : Nat) (hp : p < 3) : row3.Has p e ↔ e ∈ row3Parts.present p := by
  constructor
  · rintro (h | ⟨q, hq, els, h1, h2⟩)
    · have : e = p := by simpa [row3] using h
      subst this; interval_cases e <;> decide
    · change q < 3 at hq
      interval_cases p <;> interval_cases q <;> simp [row3, SMap.find] at h1 <;> subst h1 <;> simp_all [row3Parts]
  · intro h
    by_cases hep : e = p
    · exact .inl (by simp [row3, hep])
    · have he : e < 3 := by
        revert h; interval_cases p <;> simp [row3Parts] <;> omega
      refine .inr ⟨e, he, ?_⟩
      interval_cases p <;> interval_cases e <;> first | exact absurd rfl hep | exact ⟨_, rfl, by simp⟩ | (simp [row3Parts] at h)

theorem row3_layer : Layer row3 row3Parts := by
  have hr : row3.ranks = 3 := rfl
  refine ⟨?_, ?_, ?_, ?_, ?_, ?_⟩
  · intro p hp; rw [hr] at hp; interval_cases p <;> decide
  · intro p hp e; exact (row3_has p e hp).symm
  · intro p hp; rw [hr] at hp; interval_cases p <;> decide
  · intro p hp; rw [hr] at hp; interval_cases p <;> decide
  · intro p hp; rw [hr] at hp; interval_cases p <;> decide
  · intro p hp f hf
    rw [hr] at hp
    refine ⟨by revert f; interval_cases p <;> decide, fun e he => ?_⟩
    rw [row3_has p e hp]
    revert f e; interval_cases p <;> decide

end Verif.Assembly
