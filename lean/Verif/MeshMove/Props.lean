import Verif.MeshMove.Model
import Verif.MeshMove.Spec
import Verif.PhysMap.Props
import Mathlib.Tactic.Linarith
import Mathlib.Tactic.FieldSimp
import Mathlib.Tactic.LinearCombination
import Mathlib.Tactic.Positivity

/-!
# What moving a mesh does
-/

set_option linter.unusedSectionVars false

namespace Verif.MeshMove

open Verif.RefGeometry (Pt)
open Verif.PhysMap (Kind transform jacobian)

section
variable {V : Type*} [AddCommGroup V] [Module ℝ V]

/-- Node `i` of the element exists and has these coordinates. -/
def HasNode (m : Mesh V) (e : Element V) (i : ℕ) (p : V) : Prop :=
  ∃ g, e.nodes[i]? = some g ∧ m.coords[g]? = some p

/-- The coefficients of every element belong to the coordinates of the mesh. -/
def Fresh (m : Mesh V) : Prop :=
  ∀ e ∈ m.elements, e.stored = localNode m.coords e

theorem localNode_eq {m : Mesh V} {e : Element V} {i : ℕ} {p : V} (h : HasNode m e i p) :
    localNode m.coords e i = p := by
  obtain ⟨g, h1, h2⟩ := h
  simp [localNode, List.getD_eq_getElem?_getD, h1, h2]

/-! ## C156: moved meshes -/

/-- After moving the mesh and re-initialising all elements, the map of every element
takes every reference node to the moved node, for every mover and mesh. -/
theorem move_reinit (f : V → V) (m : Mesh V) (e : Element V) (he : e ∈ m.elements)
    (hk : e.kind ≠ .hypercube) (i : ℕ) (p : V) (hp : HasNode m e i p) (x : Pt e.kind.dim)
    (hx : e.kind.nodes[i]? = some x) :
    ∃ e' ∈ (reinitAll (move (some f) m)).elements, ∃ h : e'.kind = e.kind,
      e'.nodes = e.nodes ∧
      toPhysical (reinitAll (move (some f) m)) e' (h ▸ x) = f p := by
  refine ⟨reinit (m.coords.map f) e, ?_, rfl, rfl, ?_⟩
  · simp only [reinitAll, move, List.mem_map]
    exact ⟨e, he, rfl⟩
  · have hn : localNode (m.coords.map f) e i = f p := by
      obtain ⟨g, h1, h2⟩ := hp
      simp [localNode, List.getD_eq_getElem?_getD, h1, h2]
    have key : ∀ q : ℕ → V, q = localNode (m.coords.map f) e → transform e.kind q x = f p := by
      rintro q rfl
      rw [PhysMap.nodes_map_partial e.kind hk _ i x hx, hn]
    by_cases hc : caches e.kind = true
    · exact (if_pos hc).trans (key _ rfl)
    · exact (if_neg hc).trans (key _ rfl)

/-- Re-initialising makes a mesh consistent, whatever was done before. -/
theorem reinit_fresh (m : Mesh V) : Fresh (reinitAll m) := by
  intro e he
  simp only [reinitAll, List.mem_map] at he
  obtain ⟨e', _, rfl⟩ := he
  rfl

/-- Without re-initialisation the maps of simplices, pyramids and prisms still follow
the nodes. -/
theorem move_live (f : V → V) (m : Mesh V) (e : Element V) (he : e ∈ m.elements)
    (hk : caches e.kind = false) (i : ℕ) (p : V) (hp : HasNode m e i p) (x : Pt e.kind.dim)
    (hx : e.kind.nodes[i]? = some x) :
    e ∈ (move (some f) m).elements ∧ toPhysical (move (some f) m) e x = f p := by
  refine ⟨he, ?_⟩
  have hh : e.kind ≠ .hypercube := by intro h; rw [h] at hk; simp [caches] at hk
  have hn : localNode (m.coords.map f) e i = f p := by
    obtain ⟨g, h1, h2⟩ := hp
    simp [localNode, List.getD_eq_getElem?_getD, h1, h2]
  simp only [toPhysical, hk, move]
  rw [if_neg (by simp), PhysMap.nodes_map_partial e.kind hh _ i x hx, hn]

/-- Lines, squares, cubes and hypercubes do not: their maps are those of the mesh
before the move, at every point. -/
theorem move_stale (f : V → V) (m : Mesh V) (e : Element V) (hk : caches e.kind = true)
    (x : Pt e.kind.dim) : toPhysical (move (some f) m) e x = toPhysical m e x := by
  simp [toPhysical, hk]

/-- Hence moving alone leaves a consistent mesh inconsistent as soon as one node of such
an element is moved. -/
theorem move_alone (f : V → V) (m : Mesh V) (hm : Fresh m) (e : Element V)
    (he : e ∈ m.elements) (hk : caches e.kind = true) (hh : e.kind ≠ .hypercube) (i : ℕ) (p : V)
    (hp : HasNode m e i p) (x : Pt e.kind.dim) (hx : e.kind.nodes[i]? = some x) :
    toPhysical (move (some f) m) e x = p ∧
      (f p ≠ p → ¬ Fresh (move (some f) m)) := by
  constructor
  · rw [move_stale f m e hk, toPhysical, if_pos hk, hm e he,
      PhysMap.nodes_map_partial e.kind hh _ i x hx, localNode_eq hp]
  · intro hf hF
    have h1 := hF e he
    rw [hm e he] at h1
    have h2 := congrFun h1 i
    rw [localNode_eq hp] at h2
    have hn : localNode (m.coords.map f) e i = f p := by
      obtain ⟨g, h1, h2⟩ := hp
      simp [localNode, List.getD_eq_getElem?_getD, h1, h2]
    exact hf (by rw [← hn]; exact h2.symm)

/-- Without a mover nothing happens; two moves are the move by the composition. -/
theorem move_twice (f g : V → V) (m : Mesh V) :
    move none m = m ∧ move (some g) (move (some f) m) = move (some (g ∘ f)) m := by
  simp [move]

end

/-- The demo writes the squares of its mesh where they were before the move. -/
theorem demo_unmoved (m : Mesh (Pt 2)) :
    (demoSolve m).elements = m.elements ∧
      ∀ e ∈ (demoSolve m).elements, e.kind = .square →
        ∀ x : Pt e.kind.dim, toPhysical (demoSolve m) e x = toPhysical m e x :=
  ⟨rfl, fun e _ hk x => move_stale demoMover m e (by rw [hk]; rfl) x⟩

/-- The unit square. -/
noncomputable def unitSquare : Mesh (Pt 2) where
  coords := [![0, 0], ![1, 0], ![0, 1], ![1, 1]]
  elements := [⟨.square, [0, 1, 2, 3], fun i =>
    ([![0, 0], ![1, 0], ![0, 1], ![1, 1]] : List (Pt 2)).getD (([0, 1, 2, 3] : List ℕ).getD i 4) 0⟩]

/-- An example: the hypotheses hold for the unit square, and the demo moves its last
node. -/
example : Fresh unitSquare ∧ demoMover ![1, 1] ≠ ![1, 1] ∧
    ∃ e ∈ unitSquare.elements, HasNode unitSquare e 3 ![1, 1] := by
  refine ⟨?_, ?_, ?_⟩
  · intro e he
    simp only [unitSquare, List.mem_singleton] at he
    subst he
    rfl
  · intro h
    have := congrFun h 1
    simp [demoMover] at this
  · exact ⟨_, List.mem_singleton.2 rfl, 3, rfl, rfl⟩

/-! ## C157: the contraction -/

/-- The mover keeps the first coordinate and scales the distance to the middle of the
channel by the width there. -/
theorem contraction_scales (c : Contraction) (h1 : c.xBegin < c.xMiddle) (h2 : c.xMiddle < c.xEnd)
    (q : Pt 2) :
    c.movePoint q 0 = q 0 ∧
    c.movePoint q 1 - 1 / 2
      = Spec.width c.xBegin c.xMiddle c.xEnd c.contractionWidth (q 0) * (q 1 - 1 / 2) := by
  refine ⟨rfl, ?_⟩
  have n1 : c.xMiddle - c.xBegin ≠ 0 := by linarith
  have n2 : c.xEnd - c.xMiddle ≠ 0 := by linarith
  unfold Contraction.movePoint Spec.width
  simp only [Matrix.cons_val_one, Matrix.cons_val_fin_one]
  rcases lt_or_ge (q 0) c.xBegin with h | h
  · rw [if_neg (by rintro ⟨a, b⟩; linarith), if_neg (by rintro ⟨a, b⟩; linarith),
      if_pos (Or.inl h)]
    ring
  rcases lt_or_ge (q 0) c.xMiddle with h' | h'
  · rw [if_neg (by rintro ⟨a, b⟩; linarith), if_pos ⟨h, h'⟩,
      if_neg (by rintro (a | a) <;> linarith), if_pos h']
    field_simp
    ring
  rcases le_or_gt (q 0) c.xEnd with h'' | h''
  · rw [if_pos ⟨h', h''⟩, if_neg (by rintro ⟨a, b⟩; linarith),
      if_neg (by rintro (a | a) <;> linarith), if_neg (by linarith)]
    field_simp
    ring
  · rw [if_neg (by rintro ⟨a, b⟩; linarith), if_neg (by rintro ⟨a, b⟩; linarith),
      if_pos (Or.inr h'')]
    ring

theorem width_bounds {b m e c : ℝ} (h1 : b < m) (h2 : m < e) (x : ℝ) :
    min c 1 ≤ Spec.width b m e c x ∧ Spec.width b m e c x ≤ max c 1 := by
  have conv : ∀ t : ℝ, 0 ≤ t → t ≤ 1 →
      min c 1 ≤ 1 + (c - 1) * t ∧ 1 + (c - 1) * t ≤ max c 1 := by
    intro t t0 t1
    rcases le_total c 1 with h | h
    · rw [min_eq_left h, max_eq_right h]; constructor <;> nlinarith
    · rw [min_eq_right h, max_eq_left h]; constructor <;> nlinarith
  unfold Spec.width
  split
  · exact ⟨min_le_right _ _, le_max_right _ _⟩
  · rename_i h
    simp only [not_or, not_lt] at h
    split
    · rename_i hx
      refine conv _ (div_nonneg (by linarith [h.1]) (by linarith)) ?_
      rw [div_le_one (by linarith)]; linarith
    · rename_i hx
      have := conv (1 - (x - m) / (e - m)) ?_ ?_
      · have e' : 1 + (c - 1) * (1 - (x - m) / (e - m)) = c + (1 - c) * ((x - m) / (e - m)) := by
          ring
        rw [e'] at this; exact this
      · rw [sub_nonneg, div_le_one (by linarith)]; linarith [h.2]
      · have : 0 ≤ (x - m) / (e - m) := div_nonneg (by linarith) (by linarith)
        linarith

/-- The channel has the full width at both ends and the given width in the middle, is
nowhere narrower (or wider), and its walls are where the walls of the unit channel go. -/
theorem contraction_channel (c : Contraction) (h1 : c.xBegin < c.xMiddle)
    (h2 : c.xMiddle < c.xEnd) (hc' : c.contractionWidth ≤ 1) :
    let w := Spec.width c.xBegin c.xMiddle c.xEnd c.contractionWidth
    w c.xBegin = 1 ∧ w c.xMiddle = c.contractionWidth ∧ w c.xEnd = 1 ∧
      (∀ x, c.contractionWidth ≤ w x ∧ w x ≤ 1) ∧
      ∀ x, c.movePoint ![x, 1] 1 - c.movePoint ![x, 0] 1 = w x ∧
        c.movePoint ![x, 1 / 2] 1 = 1 / 2 := by
  intro w
  have n1 : c.xMiddle - c.xBegin ≠ 0 := by linarith
  have n2 : c.xEnd - c.xMiddle ≠ 0 := by linarith
  refine ⟨?_, ?_, ?_, ?_, ?_⟩
  · simp only [w, Spec.width]
    rw [if_neg (by rintro (a | a) <;> linarith), if_pos h1]; simp
  · simp only [w, Spec.width]
    rw [if_neg (by rintro (a | a) <;> linarith), if_neg (lt_irrefl _)]; simp
  · simp only [w, Spec.width]
    rw [if_neg (by rintro (a | a) <;> linarith), if_neg (by linarith), div_self n2]; ring
  · intro x
    have := width_bounds (c := c.contractionWidth) h1 h2 x
    rw [min_eq_left hc', max_eq_right hc'] at this
    exact this
  · intro x
    have e1 := (contraction_scales c h1 h2 ![x, 1]).2
    have e0 := (contraction_scales c h1 h2 ![x, 0]).2
    have em := (contraction_scales c h1 h2 ![x, 1 / 2]).2
    simp only [Matrix.cons_val_zero, Matrix.cons_val_one, Matrix.cons_val_fin_one] at e1 e0 em
    constructor
    · simp only [w]; linarith
    · linarith

/-- No square is turned inside out: the moved image of any rectangle has a positive
Jacobian at every point of the reference square. -/
theorem contraction_positive (c : Contraction) (h1 : c.xBegin < c.xMiddle)
    (h2 : c.xMiddle < c.xEnd) (hc : 0 < c.contractionWidth) (x0 x1 y0 y1 : ℝ) (hx : x0 < x1)
    (hy : y0 < y1) (ξ : Pt 2) (hξ : |ξ 0| ≤ 1) :
    0 < (jacobian .square (fun i => c.movePoint
      (([![x0, y0], ![x1, y0], ![x0, y1], ![x1, y1]] : List (Pt 2)).getD i 0)) ξ).det := by
  have hw := fun x => lt_of_lt_of_le (lt_min hc one_pos) (width_bounds (b := c.xBegin)
    (m := c.xMiddle) (e := c.xEnd) (c := c.contractionWidth) h1 h2 x).1
  set w := Spec.width c.xBegin c.xMiddle c.xEnd c.contractionWidth with hwdef
  have hq : ∀ x y : ℝ, c.movePoint ![x, y] = ![x, 1 / 2 + w x * (y - 1 / 2)] := by
    intro x y
    have := contraction_scales c h1 h2 ![x, y]
    funext i
    match i with
    | 0 => exact this.1
    | 1 =>
      have := this.2
      simp only [Matrix.cons_val_zero, Matrix.cons_val_one, Matrix.cons_val_fin_one] at this ⊢
      linarith
  have hdet : (jacobian .square (fun i => c.movePoint
      (([![x0, y0], ![x1, y0], ![x0, y1], ![x1, y1]] : List (Pt 2)).getD i 0)) ξ).det
      = (x1 - x0) / 2 * ((y1 - y0) / 4 * ((1 - ξ 0) * w x0 + (1 + ξ 0) * w x1)) := by
    rw [Matrix.det_fin_two]
    simp only [jacobian, Matrix.of_apply, PhysMap.cols, PhysMap.squareCols, PhysMap.reinit2]
    simp [hq]
    ring
  rw [hdet]
  have a := abs_le.1 hξ
  have hpos : 0 < (1 - ξ 0) * w x0 + (1 + ξ 0) * w x1 := by
    rcases lt_or_ge (ξ 0) 0 with h | h
    · have : 0 < (1 - ξ 0) * w x0 := mul_pos (by linarith) (hw x0)
      have : 0 ≤ (1 + ξ 0) * w x1 := mul_nonneg (by linarith) (hw x1).le
      linarith
    · have : 0 ≤ (1 - ξ 0) * w x0 := mul_nonneg (by linarith) (hw x0).le
      have : 0 < (1 + ξ 0) * w x1 := mul_pos (by linarith) (hw x1)
      linarith
  have : 0 < x1 - x0 := by linarith
  have : 0 < y1 - y0 := by linarith
  positivity

/-- An example: the contraction of the application. -/
example : (⟨6, 11, 12, 3 / 5⟩ : Contraction).movePoint ![11, 1] 1 = 4 / 5 := by
  have := (contraction_scales ⟨6, 11, 12, 3 / 5⟩ (by norm_num) (by norm_num) ![11, 1]).2
  simp only [Spec.width, Matrix.cons_val_zero, Matrix.cons_val_one, Matrix.cons_val_fin_one] at this
  norm_num at this
  linarith

end Verif.MeshMove
