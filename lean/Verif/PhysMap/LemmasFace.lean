import Verif.PhysMap.Lemmas
import Verif.PhysMap.Spec
import Mathlib.Tactic.Linarith

set_option linter.all false
namespace Verif.PhysMap
open Verif.RefGeometry (Pt Face)
open Matrix
variable {V : Type*} [AddCommGroup V] [Module ℝ V]

theorem triangle_onFace (f : Face 1) (hf : f ∈ RefGeometry.triangleFaces) :
    OnFace (V := V) (transform .triangle) f (transform .line) := by
  simp only [RefGeometry.triangleFaces, List.mem_cons, List.not_mem_nil, or_false] at hf
  rcases hf with rfl | rfl | rfl <;> intro p x _ <;> simp [transform, triangle_eq, line_eq] <;> module

theorem square_onFace (f : Face 1) (hf : f ∈ RefGeometry.squareFaces) :
    OnFace (V := V) (transform .square) f (transform .line) := by
  simp only [RefGeometry.squareFaces, List.mem_cons, List.not_mem_nil, or_false] at hf
  rcases hf with rfl | rfl | rfl | rfl <;> intro p x _ <;> simp [transform, square_eq, line_eq] <;> module

theorem tetrahedron_onFace (f : Face 2) (hf : f ∈ RefGeometry.tetrahedronFaces) :
    OnFace (V := V) (transform .tetrahedron) f (transform .triangle) := by
  simp only [RefGeometry.tetrahedronFaces, List.mem_cons, List.not_mem_nil, or_false] at hf
  rcases hf with rfl | rfl | rfl | rfl <;> intro p x _ <;> simp only [transform, triangle_eq, tetrahedron_eq] <;> simp <;> try module
  left; ring

theorem cube_onFace (f : Face 2) (hf : f ∈ RefGeometry.cubeFaces) :
    OnFace (V := V) (transform .cube) f (transform .square) := by
  simp only [RefGeometry.cubeFaces, List.mem_cons, List.not_mem_nil, or_false] at hf
  rcases hf with rfl | rfl | rfl | rfl | rfl | rfl <;> intro p x _ <;> simp [transform, square_eq, cube_eq] <;> module

theorem prism_onFace (f : Face 2) (hf : f ∈ RefGeometry.prismFaces) :
    (f.nodeIdx.length = 3 ∧ OnFace (V := V) (transform .prism) f (transform .triangle)) ∨
    (f.nodeIdx.length = 4 ∧ OnFace (V := V) (transform .prism) f (transform .square)) := by
  simp only [RefGeometry.prismFaces, List.mem_cons, List.not_mem_nil, or_false] at hf
  rcases hf with rfl | rfl | rfl | rfl | rfl
  · exact .inl ⟨rfl, fun p x _ => by simp [transform, triangle_eq, prism_eq] <;> module⟩
  · exact .inl ⟨rfl, fun p x _ => by simp [transform, triangle_eq, prism_eq] <;> module⟩
  · exact .inr ⟨rfl, fun p x _ => by simp [transform, square_eq, prism_eq] <;> module⟩
  · exact .inr ⟨rfl, fun p x _ => by simp [transform, square_eq, prism_eq] <;> module⟩
  · exact .inr ⟨rfl, fun p x _ => by simp [transform, square_eq, prism_eq] <;> module⟩

/-- On a side of the pyramid the rational term is a polynomial. -/
theorem tip_side (x : Pt 3) (c : ℝ) (h : x 0 * x 1 = c * (1 - x 2)) (hc : x 2 = 1 → c = 0) : tip x = c * x 2 := by
  unfold tip tipDenominator
  rw [h]
  by_cases hx : x 2 = 1
  · simp [hx, hc hx]
  · rw [if_neg hx]
    have : (1 - x 2) ≠ 0 := sub_ne_zero.2 (Ne.symm hx)
    field_simp

theorem tip_base (x : Pt 3) (h : x 2 = 0) : tip x = 0 := by
  unfold tip; simp [h]

theorem pyramid_onFace (f : Face 2) (hf : f ∈ RefGeometry.pyramidFaces) :
    (f.nodeIdx.length = 3 ∧ OnFace (V := V) (transform .pyramid) f (transform .triangle)) ∨
    (f.nodeIdx.length = 4 ∧ OnFace (V := V) (transform .pyramid) f (transform .square)) := by
  simp only [RefGeometry.pyramidFaces, List.mem_cons, List.not_mem_nil, or_false] at hf
  rcases hf with rfl | rfl | rfl | rfl | rfl
  · refine .inr ⟨rfl, fun p x _ => ?_⟩
    simp only [transform, square_eq, pyramid_eq]
    rw [tip_base _ (by simp)]
    simp; module
  all_goals
    refine .inl ⟨rfl, fun p x hx => ?_⟩
    obtain ⟨h1, h2, h3, h4⟩ := (show x 0 ≥ 0 ∧ x 0 ≤ 1 ∧ x 1 ≥ 0 ∧ x 1 ≤ 1 - x 0 from hx)
    simp only [transform, triangle_eq, pyramid_eq]
  · rw [tip_side _ (-(1 - 2 * x 0 - x 1)) (by simp <;> ring) (by simp <;> intro h <;> linarith)]
    simp; module
  · rw [tip_side _ (-1 + 2 * x 0 + x 1) (by simp <;> ring) (by simp <;> intro h <;> linarith)]
    simp; module
  · rw [tip_side _ (-(-1 + 2 * x 0 + x 1)) (by simp <;> ring) (by simp <;> intro h <;> linarith)]
    simp; module
  · rw [tip_side _ (1 - 2 * x 0 - x 1) (by simp <;> ring) (by simp <;> intro h <;> linarith)]
    simp; module

/-! ### Gluing -/

theorem line_perm (m : RefGeometry.RefMap 1 1) (hm : m ∈ RefGeometry.lineToLine) (q : Nat → V) (x : Pt 1) :
    line q (m.transform x) = line (fun i => line q (m.transform (RefGeometry.lineG.nodes.getD i 0))) x := by
  simp only [RefGeometry.lineToLine, List.mem_cons, List.not_mem_nil, or_false] at hm
  rcases hm with rfl | rfl <;> simp [line_eq, RefGeometry.lineG] <;> module

theorem triangle_perm (m : RefGeometry.RefMap 2 2) (hm : m ∈ RefGeometry.triangleToTriangle) (q : Nat → V) (x : Pt 2) :
    simplex q (m.transform x) = simplex (fun i => simplex q (m.transform (RefGeometry.triangleG.nodes.getD i 0))) x := by
  simp only [RefGeometry.triangleToTriangle, List.mem_cons, List.not_mem_nil, or_false] at hm
  rcases hm with rfl | rfl | rfl | rfl | rfl | rfl <;> simp only [triangle_eq, RefGeometry.triangleG] <;> simp <;> try module

theorem square_perm (m : RefGeometry.RefMap 2 2) (hm : m ∈ RefGeometry.squareToSquare) (q : Nat → V) (x : Pt 2) :
    square q (m.transform x) = square (fun i => square q (m.transform (RefGeometry.squareG.nodes.getD i 0))) x := by
  simp only [RefGeometry.squareToSquare, List.mem_cons, List.not_mem_nil, or_false] at hm
  rcases hm with rfl | rfl | rfl | rfl | rfl | rfl | rfl | rfl <;> simp only [square_eq, RefGeometry.squareG] <;> simp <;> module

end Verif.PhysMap
