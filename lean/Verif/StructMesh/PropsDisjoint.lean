import Verif.StructMesh.Props
import Mathlib.Tactic.IntervalCases

/-!
# The pieces of a cell do not overlap
-/

set_option linter.unusedVariables false

namespace Verif.StructMesh

variable {R : Type*} [Field R] [LinearOrder R] [IsStrictOrderedRing R]

/-- A point inside one of the triangles of a square lies in no other of its triangles. -/
theorem triangles_apart (T : List (List ℕ)) (hT : initialCorners 2 = some T) (r : ℕ)
    (a b c a' b' c' : ℕ) (h : [a, b, c] ∈ turned T r) (h' : [a', b', c'] ∈ turned T r)
    (u v w u' v' w' : R) (hu : 0 < u) (hv : 0 < v) (hw : 0 < w) (h1 : u + v + w = 1)
    (hu' : 0 ≤ u') (hv' : 0 ≤ v') (hw' : 0 ≤ w') (h1' : u' + v' + w' = 1)
    (hx : u * (square a).1 + v * (square b).1 + w * (square c).1
      = u' * (square a').1 + v' * (square b').1 + w' * (square c').1)
    (hy : u * (square a).2 + v * (square b).2 + w * (square c).2
      = u' * (square a').2 + v' * (square b').2 + w' * (square c').2) :
    [a, b, c] = [a', b', c'] := by
  obtain rfl : T = [[0, 1, 2], [1, 3, 2]] := by simpa [initialCorners] using hT.symm
  rw [turned_mod _ (by decide) r] at h h'
  have : r % 4 < 4 := Nat.mod_lt _ (by norm_num)
  generalize r % 4 = q at this h h'
  interval_cases q <;>
    simp only [turned, rot, Function.iterate_zero, Function.iterate_succ, Function.comp, id,
      List.map_cons, List.map_nil, List.getD_cons_zero, List.getD_cons_succ, List.mem_cons,
      List.not_mem_nil, or_false, List.cons.injEq, and_true] at h h' ⊢ <;>
    rcases h with ⟨rfl, rfl, rfl⟩ | ⟨rfl, rfl, rfl⟩ <;>
    rcases h' with ⟨rfl, rfl, rfl⟩ | ⟨rfl, rfl, rfl⟩ <;>
    first
    | exact ⟨rfl, rfl, rfl⟩
    | (exfalso; simp [square] at hx hy; linarith)

/-- A point inside one of the tetrahedra of a cube lies in no other of its tetrahedra. -/
theorem tetrahedra_apart (T : List (List ℕ)) (hT : initialCorners 3 = some T) (r : ℕ)
    (a b c d a' b' c' d' : ℕ) (h : [a, b, c, d] ∈ turned T r) (h' : [a', b', c', d'] ∈ turned T r)
    (s u v w s' u' v' w' : R) (hs : 0 < s) (hu : 0 < u) (hv : 0 < v) (hw : 0 < w)
    (h1 : s + u + v + w = 1) (hs' : 0 ≤ s') (hu' : 0 ≤ u') (hv' : 0 ≤ v') (hw' : 0 ≤ w')
    (h1' : s' + u' + v' + w' = 1)
    (hx : s * (cube a).1 + u * (cube b).1 + v * (cube c).1 + w * (cube d).1
      = s' * (cube a').1 + u' * (cube b').1 + v' * (cube c').1 + w' * (cube d').1)
    (hy : s * (cube a).2.1 + u * (cube b).2.1 + v * (cube c).2.1 + w * (cube d).2.1
      = s' * (cube a').2.1 + u' * (cube b').2.1 + v' * (cube c').2.1 + w' * (cube d').2.1)
    (hz : s * (cube a).2.2 + u * (cube b).2.2 + v * (cube c).2.2 + w * (cube d).2.2
      = s' * (cube a').2.2 + u' * (cube b').2.2 + v' * (cube c').2.2 + w' * (cube d').2.2) :
    [a, b, c, d] = [a', b', c', d'] := by
  obtain rfl : T = [[1, 2, 4, 7], [0, 1, 2, 4], [1, 3, 2, 7], [1, 4, 5, 7], [2, 6, 4, 7]] := by
    simpa [initialCorners] using hT.symm
  induction r generalizing a b c d a' b' c' d' with
  | zero =>
    rw [turned_zero] at h h'
    simp only [List.mem_cons, List.not_mem_nil, or_false, List.cons.injEq, and_true] at h h' ⊢
    rcases h with ⟨rfl, rfl, rfl, rfl⟩ | ⟨rfl, rfl, rfl, rfl⟩ | ⟨rfl, rfl, rfl, rfl⟩ |
      ⟨rfl, rfl, rfl, rfl⟩ | ⟨rfl, rfl, rfl, rfl⟩ <;>
    rcases h' with ⟨rfl, rfl, rfl, rfl⟩ | ⟨rfl, rfl, rfl, rfl⟩ | ⟨rfl, rfl, rfl, rfl⟩ |
      ⟨rfl, rfl, rfl, rfl⟩ | ⟨rfl, rfl, rfl, rfl⟩ <;>
    first
    | exact ⟨rfl, rfl, rfl, rfl⟩
    | (exfalso; simp [cube] at hx hy hz; linarith)
  | succ r ih =>
    have h8 := turned_lt 8 rot_lt
      [[1, 2, 4, 7], [0, 1, 2, 4], [1, 3, 2, 7], [1, 4, 5, 7], [2, 6, 4, 7]] (by decide) r
    rw [← turned_turned, ← turned_one, List.mem_map] at h h'
    obtain ⟨t, ht, e⟩ := h
    obtain ⟨t', ht', e'⟩ := h'
    have key : ∀ (t : List ℕ) (a b c d : ℕ), t.map rot = [a, b, c, d] →
        ∃ p q r s, t = [p, q, r, s] ∧ rot p = a ∧ rot q = b ∧ rot r = c ∧ rot s = d := by
      intro t a b c d e
      match t, e with
      | [p, q, r, s], e => simp at e; exact ⟨p, q, r, s, rfl, e.1, e.2.1, e.2.2.1, e.2.2.2⟩
    obtain ⟨p1, p2, p3, p4, rfl, rfl, rfl, rfl, rfl⟩ := key t a b c d e
    obtain ⟨q1, q2, q3, q4, rfl, rfl, rfl, rfl, rfl⟩ := key t' a' b' c' d' e'
    have f := h8 _ ht
    have f' := h8 _ ht'
    simp only [List.mem_cons, List.not_mem_nil, or_false, forall_eq_or_imp, forall_eq] at f f'
    obtain ⟨f1, f2, f3, f4⟩ := f
    obtain ⟨g1, g2, g3, g4⟩ := f'
    rw [cube_rot p1 f1, cube_rot p2 f2, cube_rot p3 f3, cube_rot p4 f4, cube_rot q1 g1,
      cube_rot q2 g2, cube_rot q3 g3, cube_rot q4 g4] at hx hy hz
    push_cast at hx hy hz
    have := ih p1 p2 p3 p4 q1 q2 q3 q4 (by linear_combination h1 - h1' - hy) hx hz ht ht'
    rw [← e, ← e', this]

end Verif.StructMesh
