import Verif.Basis.Spec
import Mathlib.Algebra.BigOperators.Intervals
import Mathlib.Data.List.Perm.Basic
import Mathlib.Data.List.Nodup
import Mathlib.Data.List.FinRange
import Mathlib.Tactic.Ring
import Mathlib.Tactic.Linarith
import Mathlib.Tactic.LinearCombination

set_option linter.all false
namespace Verif.Basis

theorem mem_upTo {i c o : Nat} : i ∈ upTo c o ↔ i + c ≤ o := by
  simp only [upTo, List.mem_range]; omega

theorem nodup_upTo (c o : Nat) : (upTo c o).Nodup := List.nodup_range

theorem length_upTo (c o : Nat) : (upTo c o).length = o + 1 - c := by simp [upTo]

theorem nodup_flatMap_of {α β : Type} {l : List α} {f : α → List β} (hl : l.Nodup)
    (hf : ∀ a ∈ l, (f a).Nodup) (hd : ∀ a ∈ l, ∀ b ∈ l, ∀ x, x ∈ f a → x ∈ f b → a = b) :
    (l.flatMap f).Nodup := by
  rw [List.nodup_flatMap]
  refine ⟨hf, ?_⟩
  refine List.Pairwise.imp_of_mem ?_ hl
  intro a b ha hb hne
  simp only [Function.onFun]
  rw [List.disjoint_left]
  intro x h1 h2
  exact hne (hd a ha b hb x h1 h2)

theorem perm_of_mem {α : Type} {l m : List α} (hl : l.Nodup) (hm : m.Nodup)
    (h : ∀ a, a ∈ l ↔ a ∈ m) : l.Perm m := (List.perm_ext_iff_of_nodup hl hm).2 h

theorem line_perm (o : Nat) (ho : 0 < o) :
    (lineDG o).Perm (conformingSet 0 ((lineVertexSets o).map (·.fns)) [] [] (lineInterior o)) := by
  simp [lineDG, ho, conformingSet, lineVertexSets, lineInterior]


macro "memsimp" : tactic => `(tactic| simp only [List.mem_append, List.mem_flatMap, List.mem_map,
  List.mem_ite_nil_right, List.mem_range, mem_upTo, List.mem_cons, List.not_mem_nil, or_false,
  List.mem_filter, List.mem_finRange, true_and, decide_eq_true_eq, List.flatMap_cons,
  List.flatMap_nil, List.append_nil, List.mem_singleton, Prod.exists, Prod.mk.injEq] at *)

macro "nodupmap" : tactic => `(tactic|
  (refine List.Nodup.map_on ?_ (by first | exact nodup_upTo _ _ | exact List.nodup_range | decide);
   intro a _ b _ h; memsimp; grind))

theorem line_nodup (o : Nat) : (lineDG o).Nodup := by
  rw [lineDG]
  split
  · simp
    exact (nodup_upTo _ _).map (fun a b h => by simpa using h)
  · simp

theorem triangle_nodup (o : Nat) : (triangleDG o).Nodup := by
  unfold triangleDG
  split
  · rw [List.nodup_append]
    refine ⟨by decide, ?_, ?_⟩
    · apply nodup_flatMap_of (nodup_upTo _ _)
      · intro k _
        rw [List.nodup_append]
        refine ⟨?_, ?_, ?_⟩
        · simp [List.finRange, List.filter_cons]
        · split
          · nodupmap
          · simp
        · intro a ha b hb; memsimp; grind (splits := 60)
      · intro a _ b _ x ha hb
        memsimp; grind (splits := 60)
    · intro a ha b hb
      memsimp; grind (splits := 60)
  · simp

theorem square_nodup (o : Nat) : (squareDG o).Nodup := by
  unfold squareDG
  split
  · rw [List.nodup_append]
    refine ⟨by decide, ?_, ?_⟩
    · apply nodup_flatMap_of (nodup_upTo _ _)
      · intro k _
        rw [List.nodup_append]
        refine ⟨by simp, by nodupmap, ?_⟩
        intro a ha b hb; memsimp; grind (splits := 60)
      · intro a _ b _ x ha hb
        memsimp; grind (splits := 60)
    · intro a ha b hb
      memsimp; grind (splits := 60)
  · simp

theorem tet_nodup (o : Nat) : (tetDG o).Nodup := by
  unfold tetDG
  split
  · rw [List.nodup_append]
    refine ⟨by decide, ?_, ?_⟩
    · apply nodup_flatMap_of (nodup_upTo _ _)
      · intro k _
        rw [List.nodup_append, List.nodup_append]
        refine ⟨⟨by simp [tetEdgeNodes], ?_, ?_⟩, ?_, ?_⟩
        · split
          · apply nodup_flatMap_of (by decide)
            · rintro ⟨a, b, c⟩ _; nodupmap
            · rintro ⟨a, b, c⟩ _ ⟨a', b', c'⟩ _ x hx hy; memsimp; grind (splits := 60)
          · simp
        · intro a ha b hb; memsimp; grind (splits := 60)
        · split
          · apply nodup_flatMap_of (nodup_upTo _ _)
            · intro i _; nodupmap
            · intro a _ b _ x hx hy; memsimp; grind (splits := 60)
          · simp
        · intro a ha b hb; memsimp; grind (splits := 60)
      · intro a _ b _ x ha hb
        memsimp; grind (splits := 60)
    · intro a ha b hb
      memsimp; grind (splits := 60)
  · simp

def CubeFn.level : CubeFn → Nat
  | .constant => 0
  | .vertex _ => 0
  | .edge0 _ _ j => j
  | .edge1 _ _ j => j
  | .edge2 _ _ j => j
  | .face0 _ _ _ i j => max i j
  | .face1 _ _ _ i j => max i j
  | .face2 _ _ _ i j => max i j
  | .interior i j k => max i (max j k)

theorem cube_nodup (o : Nat) : (cubeDG o).Nodup := by
  unfold cubeDG
  split
  · rw [List.nodup_append]
    refine ⟨by decide, ?_, ?_⟩
    · apply nodup_flatMap_of (nodup_upTo _ _)
      · intro j _
        rw [List.nodup_append]
        refine ⟨by simp [cubeEdgeNodes0, cubeEdgeNodes1, cubeEdgeNodes2], ?_, ?_⟩
        · apply nodup_flatMap_of List.nodup_range
          · intro i hi
            rw [List.mem_range] at hi
            rw [List.nodup_append]
            refine ⟨?_, ?_, ?_⟩
            · simp; omega
            · apply nodup_flatMap_of List.nodup_range
              · intro k hk; rw [List.mem_range] at hk; simp; omega
              · intro a _ b _ x hx hy; memsimp; grind (splits := 60)
            · intro a ha b hb; memsimp; grind (splits := 60)
          · intro a _ b _ x hx hy; memsimp; grind (splits := 60)
        · intro a ha b hb; memsimp; grind (splits := 60)
      · have key : ∀ (j : Nat) (x : CubeFn), x ∈ ((cubeEdgeNodes0.map fun (a, b) => .edge0 a b j) ++
            (cubeEdgeNodes1.map fun (a, b) => .edge1 a b j) ++
            (cubeEdgeNodes2.map fun (a, b) => .edge2 a b j) ++
            [.face2 0 1 2 j j, .face1 0 1 4 j j, .face0 0 2 4 j j, .face0 1 3 5 j j,
              .face1 2 3 6 j j, .face2 4 5 6 j j, .interior j j j] ++
            (List.range j).flatMap fun i =>
              [.face2 0 1 2 i j, .face1 0 1 4 i j, .face0 0 2 4 i j, .face0 1 3 5 i j,
               .face1 2 3 6 i j, .face2 4 5 6 i j, .face2 0 1 2 j i, .face1 0 1 4 j i,
               .face0 0 2 4 j i, .face0 1 3 5 j i, .face1 2 3 6 j i, .face2 4 5 6 j i,
               .interior i i j, .interior i j i, .interior j i i,
               .interior j j i, .interior j i j, .interior i j j] ++
              (List.range i).flatMap fun k =>
                [.interior i j k, .interior i k j, .interior j i k, .interior j k i,
                 .interior k i j, .interior k j i] : List CubeFn) → x.level = j := by
          intro j x hx
          memsimp
          rcases hx with (((⟨_, _, _, rfl⟩ | ⟨_, _, _, rfl⟩) | ⟨_, _, _, rfl⟩) | hx) |
            ⟨i, hi, hx | ⟨k, hk, hx⟩⟩
          · rfl
          · rfl
          · rfl
          · rcases hx with rfl | rfl | rfl | rfl | rfl | rfl | rfl <;> simp [CubeFn.level]
          · rcases hx with rfl | rfl | rfl | rfl | rfl | rfl | rfl | rfl | rfl | rfl | rfl | rfl |
              rfl | rfl | rfl | rfl | rfl | rfl <;> simp only [CubeFn.level] <;> omega
          · rcases hx with rfl | rfl | rfl | rfl | rfl | rfl <;> simp only [CubeFn.level] <;> omega
        intro a _ b _ x ha hb
        rw [← key a x ha, ← key b x hb]
    · intro a ha b hb
      memsimp; grind (splits := 60)
  · simp

theorem prism_nodup (o : Nat) : (prismDG o).Nodup := by
  unfold prismDG
  split
  · rw [List.nodup_append]
    refine ⟨by decide, ?_, ?_⟩
    · apply nodup_flatMap_of (nodup_upTo _ _)
      · intro j _
        rw [List.nodup_append, List.nodup_append, List.nodup_append]
        refine ⟨⟨⟨by simp [prismTriEdgeNodes, prismSideEdgeNodes], ?_, ?_⟩, ?_, ?_⟩, ?_, ?_⟩
        · apply nodup_flatMap_of (by decide)
          · rintro ⟨a, b, c⟩ _; nodupmap
          · rintro ⟨a, b, c⟩ _ ⟨a', b', c'⟩ _ x hx hy; memsimp; grind (splits := 60)
        · intro a ha b hb; memsimp; grind (splits := 60)
        · apply nodup_flatMap_of (by decide)
          · rintro ⟨a, b, c, d⟩ _
            rw [List.nodup_append]
            refine ⟨by simp, ?_, ?_⟩
            · apply nodup_flatMap_of List.nodup_range
              · intro k hk; rw [List.mem_range] at hk; simp; omega
              · intro a _ b _ x hx hy; memsimp; grind (splits := 60)
            · intro a ha b hb; memsimp; grind (splits := 60)
          · rintro ⟨a, b, c, d⟩ h1 ⟨a', b', c', d'⟩ h2 x hx hy
            simp only [prismSquareFaceNodes] at h1 h2
            memsimp; grind (splits := 60)
        · intro a ha b hb; memsimp; grind (splits := 60)
        · apply nodup_flatMap_of List.nodup_range
          · intro i hi
            apply nodup_flatMap_of List.nodup_range
            · intro k hk; rw [List.mem_range] at hk hi; simp; omega
            · intro a _ b _ x hx hy; memsimp; grind (splits := 60)
          · intro a _ b _ x hx hy; memsimp; grind (splits := 60)
        · intro a ha b hb; memsimp; grind (splits := 60)
      · intro a _ b _ x ha hb
        memsimp; grind (splits := 60)
    · intro a ha b hb
      memsimp; grind (splits := 60)
  · simp

theorem perm_of_subset {α : Type} {l m : List α} (hl : l.Nodup) (h : ∀ a ∈ l, a ∈ m)
    (hlen : m.length ≤ l.length) : l.Perm m :=
  (List.subperm_of_subset hl h).perm_of_length_le hlen


end Verif.Basis
