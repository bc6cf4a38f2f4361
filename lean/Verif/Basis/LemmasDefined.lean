import Verif.Basis.LemmasNodup
import Verif.Basis.LemmasDeriv

set_option linter.all false
namespace Verif.Basis
open Verif.RefGeometry
open Verif.Legendre (lobatto lobattoDeriv)

theorem ld_some {o : Nat} (h : o < 4) (x : ℝ) : ∃ v, lobattoDeriv o x = some v := by
  obtain ⟨v, hv, _⟩ := (Verif.Legendre.lobattoDeriv_is_derivative o x).1 h; exact ⟨v, hv⟩

theorem ld_none {o : Nat} (h : 4 ≤ o) (x : ℝ) : lobattoDeriv o x = none :=
  (Verif.Legendre.lobattoDeriv_is_derivative o x).2 h

theorem bind_isSome {α β : Type} (a : Option α) (f : α → Option β) (ha : ∃ v, a = some v)
    (hf : ∀ v, ∃ w, f v = some w) : ∃ w, (a >>= f) = some w := by
  obtain ⟨v, rfl⟩ := ha; exact hf v

macro "dsome" : tactic => `(tactic| (first
  | exact ⟨_, rfl⟩
  | (repeat (refine bind_isSome _ _ (ld_some (by omega) _) ?_; intro _)); exact ⟨_, rfl⟩))

theorem line_defined (o : Nat) (ho : o ≤ 5) (f) (hf : f ∈ lineDG o) (k p) :
    ∃ v, f.evalDeriv k p = some v := by
  unfold lineDG at hf
  split at hf <;> simp [mem_upTo] at hf
  · rcases hf with rfl | rfl | ⟨a, h, rfl⟩
    · exact ⟨_, rfl⟩
    · exact ⟨_, rfl⟩
    · dsome
  · subst hf; exact ⟨_, rfl⟩

theorem triangle_defined (o : Nat) (ho : o ≤ 5) (f) (hf : f ∈ triangleDG o) (k p) :
    ∃ v, f.evalDeriv k p = some v := by
  unfold triangleDG at hf
  cases f with
  | constant => exact ⟨_, rfl⟩
  | vertex => exact ⟨_, rfl⟩
  | face a b j =>
    have : j < 4 := by split at hf <;> simp [mem_upTo] at hf; omega
    dsome
  | interior a b =>
    have : a < 4 ∧ b < 4 := by
      split at hf <;> memsimp <;> simp at hf; omega
    fin_cases k <;> dsome

theorem square_defined (o : Nat) (ho : o ≤ 5) (f) (hf : f ∈ squareDG o) (k p) :
    ∃ v, f.evalDeriv k p = some v := by
  unfold squareDG at hf
  cases f with
  | constant => exact ⟨_, rfl⟩
  | vertex => fin_cases k <;> exact ⟨_, rfl⟩
  | face0 a b j =>
    have : j < 4 := by split at hf <;> simp [mem_upTo] at hf; omega
    fin_cases k <;> dsome
  | face1 a b j =>
    have : j < 4 := by split at hf <;> simp [mem_upTo] at hf; omega
    fin_cases k <;> dsome
  | interior a b =>
    have : a < 4 ∧ b < 4 := by
      split at hf <;> simp [mem_upTo] at hf; omega
    fin_cases k <;> dsome

theorem tet_defined (o : Nat) (ho : o ≤ 5) (f) (hf : f ∈ tetDG o) (k p) :
    ∃ v, f.evalDeriv k p = some v := by
  unfold tetDG at hf
  cases f with
  | constant => exact ⟨_, rfl⟩
  | vertex => exact ⟨_, rfl⟩
  | edge a b j =>
    have : j < 4 := by split at hf <;> memsimp <;> grind
    dsome
  | face a b c j l =>
    have : j < 4 ∧ l < 4 := by split at hf <;> memsimp <;> grind
    dsome
  | interior a b c =>
    have : a < 4 ∧ b < 4 ∧ c < 4 := by split at hf <;> memsimp <;> grind
    fin_cases k <;> dsome

theorem prism_defined (o : Nat) (ho : o ≤ 5) (f) (hf : f ∈ prismDG o) (k p) :
    ∃ v, f.evalDeriv k p = some v := by
  unfold prismDG at hf
  cases f with
  | constant => exact ⟨_, rfl⟩
  | vertex => fin_cases k <;> exact ⟨_, rfl⟩
  | edge0 a b j =>
    have : j < 4 := by split at hf <;> memsimp <;> grind
    fin_cases k <;> dsome
  | edge1 a b j =>
    have : j < 4 := by split at hf <;> memsimp <;> grind
    fin_cases k <;> dsome
  | face0 a b c j l =>
    have : j < 4 ∧ l < 4 := by split at hf <;> memsimp <;> grind
    fin_cases k <;> dsome
  | face1 a b c j l =>
    have : j < 4 ∧ l < 4 := by split at hf <;> memsimp <;> grind
    have : (mkFace1 a b c j l).order0 < 4 ∧ (mkFace1 a b c j l).order1 < 4 := by
      unfold mkFace1; split <;> simp <;> omega
    fin_cases k <;> dsome
  | interior a b c =>
    have : a < 4 ∧ b < 4 ∧ c < 4 := by split at hf <;> memsimp <;> grind
    fin_cases k <;> dsome

theorem cube_defined (o : Nat) (ho : o ≤ 5) (f) (hf : f ∈ cubeDG o) (k p) :
    ∃ v, f.evalDeriv k p = some v := by
  unfold cubeDG at hf
  cases f with
  | constant => exact ⟨_, rfl⟩
  | vertex => fin_cases k <;> exact ⟨_, rfl⟩
  | edge0 a b j =>
    have : j < 4 := by split at hf <;> memsimp <;> grind
    fin_cases k <;> dsome
  | edge1 a b j =>
    have : j < 4 := by split at hf <;> memsimp <;> grind
    fin_cases k <;> dsome
  | edge2 a b j =>
    have : j < 4 := by split at hf <;> memsimp <;> grind
    fin_cases k <;> dsome
  | face0 a b c j l =>
    have : j < 4 ∧ l < 4 := by split at hf <;> simp [mem_upTo] at hf; grind (splits := 40)
    fin_cases k <;> dsome
  | face1 a b c j l =>
    have : j < 4 ∧ l < 4 := by split at hf <;> simp [mem_upTo] at hf; grind (splits := 40)
    fin_cases k <;> dsome
  | face2 a b c j l =>
    have : j < 4 ∧ l < 4 := by split at hf <;> simp [mem_upTo] at hf; grind (splits := 40)
    fin_cases k <;> dsome
  | interior a b c =>
    have : a < 4 ∧ b < 4 ∧ c < 4 := by split at hf <;> simp [mem_upTo] at hf; grind (splits := 40)
    fin_cases k <;> dsome

theorem undefined (o : Nat) (ho : 6 ≤ o) :
    (∃ f ∈ lineDG o, ∀ p, f.evalDeriv 0 p = none) ∧
    (∃ f ∈ triangleDG o, ∀ p, f.evalDeriv 0 p = none) ∧
    (∃ f ∈ squareDG o, ∀ p, f.evalDeriv 0 p = none) ∧
    (∃ f ∈ tetDG o, ∀ p, f.evalDeriv 0 p = none) ∧
    (∃ f ∈ prismDG o, ∀ p, f.evalDeriv 0 p = none) ∧
    (∃ f ∈ cubeDG o, ∀ p, f.evalDeriv 0 p = none) := by
  have hm : (o - 2) ∈ upTo 2 o := by rw [mem_upTo]; omega
  have hn : ∀ x, lobattoDeriv (o - 2) x = none := ld_none (by omega)
  refine ⟨⟨.interior (o - 2), ?_, ?_⟩, ⟨.face 1 0 (o - 2), ?_, ?_⟩, ⟨.face0 0 1 (o - 2), ?_, ?_⟩,
    ⟨.edge 0 1 (o - 2), ?_, ?_⟩, ⟨.edge0 0 1 (o - 2), ?_, ?_⟩, ⟨.edge0 0 1 (o - 2), ?_, ?_⟩⟩
  · unfold lineDG; rw [if_pos (by omega)]; simp [hm]
  · intro p; simp [LineFn.evalDeriv, hn]
  · unfold triangleDG; rw [if_pos (by omega)]; simp [hm]
  · intro p; simp [TriangleFn.evalDeriv, hn]
  · unfold squareDG; rw [if_pos (by omega)]; simp [hm]
  · intro p; simp [SquareFn.evalDeriv, hn]
  · unfold tetDG; rw [if_pos (by omega)]; simp [hm, tetEdgeNodes]
  · intro p; simp [TetFn.evalDeriv, hn]
  · unfold prismDG; rw [if_pos (by omega)]; simp [hm, prismTriEdgeNodes]
  · intro p; simp [PrismFn.evalDeriv, prismEdge0Deriv, hn]
  · unfold cubeDG; rw [if_pos (by omega)]; simp [hm, cubeEdgeNodes0]
  · intro p; simp [CubeFn.evalDeriv, hn]

end Verif.Basis
