import Verif.PhysMap.Model
import Mathlib.Analysis.Calculus.Deriv.Pi
import Mathlib.Analysis.Calculus.Deriv.Inv
import Mathlib.Analysis.Calculus.Deriv.Pow
import Mathlib.Analysis.Calculus.FDeriv.Pi
import Mathlib.Tactic.Module
import Mathlib.Tactic.FieldSimp
import Mathlib.Tactic.Ring
import Mathlib.Tactic.NormNum

set_option linter.all false
namespace Verif.PhysMap
open Verif.RefGeometry (Pt)
open Matrix
variable {V : Type*} [AddCommGroup V] [Module ℝ V]

theorem getElem?_cases {α : Type*} {l : List α} {P : Nat → α → Prop}
    (h : ∀ a ∈ l.zipIdx, P a.2 a.1) {i : Nat} {x : α} (hx : l[i]? = some x) : P i x := by
  have := h (x, i) (by rw [List.mem_zipIdx_iff_getElem?]; exact hx)
  exact this

theorem curvedTriangle_two : Lattice.curvedTriangle 2 =
    [![0, 0], ![1 / 2, 0], ![1, 0], ![0, 1 / 2], ![1 / 2, 1 / 2], ![0, 1]] := by
  simp [Lattice.curvedTriangle, List.range_succ]

theorem curvedTetrahedron_two : Lattice.curvedTetrahedron 2 =
    [![0, 0, 0], ![1 / 2, 0, 0], ![1, 0, 0], ![0, 1 / 2, 0], ![1 / 2, 1 / 2, 0], ![0, 1, 0],
     ![0, 0, 1 / 2], ![1 / 2, 0, 1 / 2], ![0, 1 / 2, 1 / 2], ![0, 0, 1]] := by
  simp [Lattice.curvedTetrahedron, List.range_succ]

/-! ### Weights of all maps -/

theorem line_eq (p : Nat → V) (x : Pt 1) :
    line p x = ((1 - x 0) / 2) • p 0 + ((1 + x 0) / 2) • p 1 := by
  unfold line mid slope; module

theorem square_eq (p : Nat → V) (x : Pt 2) :
    square p x = ((1 - x 0) * (1 - x 1) / 4) • p 0 + ((1 + x 0) * (1 - x 1) / 4) • p 1 +
      ((1 - x 0) * (1 + x 1) / 4) • p 2 + ((1 + x 0) * (1 + x 1) / 4) • p 3 := by
  unfold square reinit2; dsimp only; module

theorem cube_eq (p : Nat → V) (x : Pt 3) :
    cube p x = ((1 - x 0) * (1 - x 1) * (1 - x 2) / 8) • p 0 + ((1 + x 0) * (1 - x 1) * (1 - x 2) / 8) • p 1 +
      ((1 - x 0) * (1 + x 1) * (1 - x 2) / 8) • p 2 + ((1 + x 0) * (1 + x 1) * (1 - x 2) / 8) • p 3 +
      ((1 - x 0) * (1 - x 1) * (1 + x 2) / 8) • p 4 + ((1 + x 0) * (1 - x 1) * (1 + x 2) / 8) • p 5 +
      ((1 - x 0) * (1 + x 1) * (1 + x 2) / 8) • p 6 + ((1 + x 0) * (1 + x 1) * (1 + x 2) / 8) • p 7 := by
  unfold cube reinit3; dsimp only; module

theorem triangle_eq (p : Nat → V) (x : Pt 2) :
    simplex p x = (1 - x 0 - x 1) • p 0 + x 0 • p 1 + x 1 • p 2 := by
  simp only [simplex, simplexLoop]
  simp
  module

theorem tetrahedron_eq (p : Nat → V) (x : Pt 3) :
    simplex p x = (1 - x 0 - x 1 - x 2) • p 0 + x 0 • p 1 + x 1 • p 2 + x 2 • p 3 := by
  simp only [simplex, simplexLoop]
  simp
  module

noncomputable def tip (x : Pt 3) : ℝ := x 0 * x 1 * x 2 / tipDenominator (x 2)

theorem pyramid_eq (p : Nat → V) (x : Pt 3) :
    pyramid p x = x 2 • p 0 +
      (((1 - x 0) * (1 - x 1) - x 2 + tip x) / 4) • p 1 + (((1 + x 0) * (1 - x 1) - x 2 - tip x) / 4) • p 2 +
      (((1 - x 0) * (1 + x 1) - x 2 - tip x) / 4) • p 3 + (((1 + x 0) * (1 + x 1) - x 2 + tip x) / 4) • p 4 := by
  simp only [pyramid, pyramidWeights, weigh, List.zipIdx, List.foldl]
  rw [← tip]
  module

theorem prism_eq (p : Nat → V) (x : Pt 3) :
    prism p x = ((1 - x 0 - x 1) * (1 - x 2) / 2) • p 0 + (x 0 * (1 - x 2) / 2) • p 1 + (x 1 * (1 - x 2) / 2) • p 2 +
      ((1 - x 0 - x 1) * (1 + x 2) / 2) • p 3 + (x 0 * (1 + x 2) / 2) • p 4 + (x 1 * (1 + x 2) / 2) • p 5 := by
  simp only [prism, prismWeights, weigh, List.zipIdx, List.foldl]
  module

theorem triangle2_eq (p : Nat → V) (x : Pt 2) :
    triangle2 p x = ((1 - x 0 - x 1) * (2 * (1 - x 0 - x 1) - 1)) • p 0 + (4 * x 0 * (1 - x 0 - x 1)) • p 1 +
      (x 0 * (2 * x 0 - 1)) • p 2 + (4 * x 1 * (1 - x 0 - x 1)) • p 3 + (4 * x 0 * x 1) • p 4 +
      (x 1 * (2 * x 1 - 1)) • p 5 := by
  simp only [triangle2, triangle2Weights, weigh, List.zipIdx, List.foldl]
  module

theorem tetrahedron2_eq (p : Nat → V) (x : Pt 3) :
    tetrahedron2 p x = ((1 - x 0 - x 1 - x 2) * (2 * (1 - x 0 - x 1 - x 2) - 1)) • p 0 +
      (4 * x 0 * (1 - x 0 - x 1 - x 2)) • p 1 + (x 0 * (2 * x 0 - 1)) • p 2 +
      (4 * x 1 * (1 - x 0 - x 1 - x 2)) • p 3 + (4 * x 0 * x 1) • p 4 + (x 1 * (2 * x 1 - 1)) • p 5 +
      (4 * x 2 * (1 - x 0 - x 1 - x 2)) • p 6 + (4 * x 0 * x 2) • p 7 + (4 * x 1 * x 2) • p 8 +
      (x 2 * (2 * x 2 - 1)) • p 9 := by
  simp only [tetrahedron2, tetrahedron2Weights, weigh, List.zipIdx, List.foldl]
  module

/-! ### Nodes -/

theorem nodes_map_lem (k : Kind) (hk : k ≠ .hypercube) (p : Nat → V) (i : Nat) (x : Pt k.dim)
    (hx : k.nodes[i]? = some x) : transform k p x = p i := by
  refine getElem?_cases (P := fun i x => transform k p x = p i) ?_ hx
  cases k
  case hypercube => exact absurd rfl hk
  all_goals
    simp only [Kind.nodes, curvedTriangle_two, curvedTetrahedron_two, RefGeometry.lineG, RefGeometry.triangleG,
      RefGeometry.squareG, RefGeometry.tetrahedronG, RefGeometry.pyramidG, RefGeometry.prismG, RefGeometry.cubeG,
      List.zipIdx, List.forall_mem_cons, transform, line_eq, triangle_eq, square_eq, triangle2_eq, tetrahedron_eq,
      pyramid_eq, prism_eq, cube_eq, tetrahedron2_eq, tip]
    simp
    try norm_num
  all_goals
    repeat' apply And.intro
    all_goals module

/-- All maps reproduce affine maps. -/
theorem affine_lem (k : Kind) (c : V) (a : Fin k.dim → V) (p : Nat → V)
    (hp : ∀ i x, k.nodes[i]? = some x → p i = c + ∑ j, x j • a j) (x : Pt k.dim) :
    transform k p x = c + ∑ j, x j • a j := by
  cases k
  case line =>
    have h0 := hp 0 _ rfl; have h1 := hp 1 _ rfl
    simp only [transform, line_eq, h0, h1, Fin.sum_univ_succ]
    simp
    module
  case triangle =>
    have h0 := hp 0 _ rfl; have h1 := hp 1 _ rfl; have h2 := hp 2 _ rfl
    simp only [transform, triangle_eq, h0, h1, h2, Fin.sum_univ_succ]
    simp
    module
  case square =>
    have h0 := hp 0 _ rfl; have h1 := hp 1 _ rfl; have h2 := hp 2 _ rfl; have h3 := hp 3 _ rfl
    simp only [transform, square_eq, h0, h1, h2, h3, Fin.sum_univ_succ]
    simp
    module
  case triangle2 =>
    simp only [Kind.nodes, curvedTriangle_two] at hp
    have h0 := hp 0 _ rfl; have h1 := hp 1 _ rfl; have h2 := hp 2 _ rfl; have h3 := hp 3 _ rfl
    have h4 := hp 4 _ rfl; have h5 := hp 5 _ rfl
    simp only [transform, triangle2_eq, h0, h1, h2, h3, h4, h5, Fin.sum_univ_succ]
    simp
    module
  case tetrahedron =>
    have h0 := hp 0 _ rfl; have h1 := hp 1 _ rfl; have h2 := hp 2 _ rfl; have h3 := hp 3 _ rfl
    simp only [transform, tetrahedron_eq, h0, h1, h2, h3, Fin.sum_univ_succ]
    simp
    module
  case pyramid =>
    have h0 := hp 0 _ rfl; have h1 := hp 1 _ rfl; have h2 := hp 2 _ rfl; have h3 := hp 3 _ rfl
    have h4 := hp 4 _ rfl
    simp only [transform, pyramid_eq, h0, h1, h2, h3, h4, Fin.sum_univ_succ]
    simp
    module
  case prism =>
    have h0 := hp 0 _ rfl; have h1 := hp 1 _ rfl; have h2 := hp 2 _ rfl; have h3 := hp 3 _ rfl
    have h4 := hp 4 _ rfl; have h5 := hp 5 _ rfl
    simp only [transform, prism_eq, h0, h1, h2, h3, h4, h5, Fin.sum_univ_succ]
    simp
    module
  case cube =>
    have h0 := hp 0 _ rfl; have h1 := hp 1 _ rfl; have h2 := hp 2 _ rfl; have h3 := hp 3 _ rfl
    have h4 := hp 4 _ rfl; have h5 := hp 5 _ rfl; have h6 := hp 6 _ rfl; have h7 := hp 7 _ rfl
    simp only [transform, cube_eq, h0, h1, h2, h3, h4, h5, h6, h7, Fin.sum_univ_succ]
    simp
    module
  case tetrahedron2 =>
    simp only [Kind.nodes, curvedTetrahedron_two] at hp
    have h0 := hp 0 _ rfl; have h1 := hp 1 _ rfl; have h2 := hp 2 _ rfl; have h3 := hp 3 _ rfl
    have h4 := hp 4 _ rfl; have h5 := hp 5 _ rfl; have h6 := hp 6 _ rfl; have h7 := hp 7 _ rfl
    have h8 := hp 8 _ rfl; have h9 := hp 9 _ rfl
    simp only [transform, tetrahedron2_eq, h0, h1, h2, h3, h4, h5, h6, h7, h8, h9, Fin.sum_univ_succ]
    simp
    module
  case hypercube =>
    have h0 := hp 0 _ rfl; have h1 := hp 1 _ rfl; have h2 := hp 2 _ rfl; have h3 := hp 3 _ rfl
    have h4 := hp 4 _ rfl; have h5 := hp 5 _ rfl; have h6 := hp 6 _ rfl; have h7 := hp 7 _ rfl
    have h8 := hp 8 _ rfl; have h9 := hp 9 _ rfl; have h10 := hp 10 _ rfl; have h11 := hp 11 _ rfl
    have h12 := hp 12 _ rfl; have h13 := hp 13 _ rfl; have h14 := hp 14 _ rfl; have h15 := hp 15 _ rfl
    simp only [transform, hypercube, reinit4, h0, h1, h2, h3, h4, h5, h6, h7, h8, h9, h10, h11, h12, h13, h14, h15,
      Fin.sum_univ_succ]
    simp
    module

end Verif.PhysMap
