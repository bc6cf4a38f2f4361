import Verif.PhysMap.LemmasNewton
import Verif.PhysMap.LemmasFace
import Verif.RefGeometry.Props

/-!
# The maps from reference elements to physical elements

C35 and C58 of properties.jsonl.
-/
namespace Verif.PhysMap
open Verif.RefGeometry (Pt Face)
open Matrix

/-! ## C35 -/

section
variable {V : Type*} [AddCommGroup V] [Module ℝ V]

/-- The map of an element is chosen such that it fits the dimension and the number of nodes, and every such map can be
chosen. -/
theorem createMappings_iff (d n : Nat) (k : Kind) :
    createMappings d n = some k ↔ k.dim = d ∧ k.nodes.length = n := by
  have hl : ∀ k : Kind, k.nodes.length = match k with
      | .line => 2 | .triangle => 3 | .square => 4 | .triangle2 => 6 | .tetrahedron => 4 | .pyramid => 5
      | .prism => 6 | .cube => 8 | .tetrahedron2 => 10 | .hypercube => 16 := by
    intro k
    cases k
    case triangle2 => simp [Kind.nodes, curvedTriangle_two]
    case tetrahedron2 => simp [Kind.nodes, curvedTetrahedron_two]
    all_goals rfl
  rw [hl]
  unfold createMappings
  constructor
  · intro h
    repeat' split at h
    all_goals first | (cases Option.some.inj h; subst_vars; exact ⟨rfl, rfl⟩) | exact absurd h (by simp)
  · rintro ⟨rfl, rfl⟩
    cases k <;> rfl

/-- Every node of the reference element is mapped to the node of the physical element with the same number, for all
maps but the one of the four-dimensional hypercube. -/
theorem nodes_map_partial (k : Kind) (hk : k ≠ .hypercube) (p : Nat → V) (i : Nat) (x : Pt k.dim)
    (hx : k.nodes[i]? = some x) : transform k p x = p i := nodes_map_lem k hk p i x hx

/-- The map of the hypercube does so only for images of the reference hypercube under affine maps. -/
theorem hypercube_nodes_iff (p : Nat → V) :
    (∀ i x, (Kind.nodes .hypercube)[i]? = some x → transform .hypercube p x = p i) ↔
      ∃ (c : V) (a : Fin 4 → V), ∀ i x, (Kind.nodes .hypercube)[i]? = some x → p i = c + ∑ j, x j • a j := by
  constructor
  · intro h
    refine ⟨(reinit4 p).abar, hypercubeCols p 0, fun i x hx => ?_⟩
    rw [← h i x hx]
    simp only [transform, hypercube, hypercubeCols, Fin.sum_univ_succ]
    simp
    module
  · rintro ⟨c, a, h⟩ i x hx
    rw [affine_lem .hypercube c a p h x, h i x hx]

/-- The node that is moved is not hit. -/
theorem hypercube_nodes_fail : ∃ (p : Nat → Pt 4) (i : Nat) (x : Pt 4),
    (Kind.nodes .hypercube)[i]? = some x ∧ transform .hypercube p x ≠ p i := by
  refine ⟨fun i => if i = 0 then ![1, 0, 0, 0] else 0, 0, ![-1, -1, -1, -1], rfl, fun h => ?_⟩
  have h0 := congrFun h 0
  simp [transform, hypercube, reinit4] at h0
  norm_num at h0

/-- Every map, also that of the hypercube, is the affine map that sends the nodes of the reference element to those of
the physical element, if there is one. -/
theorem affine_map (k : Kind) (c : V) (a : Fin k.dim → V) (p : Nat → V)
    (hp : ∀ i x, k.nodes[i]? = some x → p i = c + ∑ j, x j • a j) (x : Pt k.dim) :
    transform k p x = c + ∑ j, x j • a j := affine_lem k c a p hp x

end

/-- `calcJacobian` is the derivative of `transform`. For the pyramid points of height one are excluded, as well as the
points next to the tip. -/
theorem jacobian_correct (k : Kind) (p : Nat → Pt k.dim) (x : Pt k.dim)
    (hx : Regular k x) :
    HasFDerivAt (transform k p) (jacobian k p x).mulVecLin.toContinuousLinearMap x := by
  cases k
  case line => exact line_deriv p x
  case triangle => exact triangle_deriv p x
  case square => exact square_deriv p x
  case triangle2 => exact triangle2_deriv p x
  case tetrahedron => exact tetrahedron_deriv p x
  case prism => exact prism_deriv p x
  case cube => exact cube_deriv p x
  case tetrahedron2 => exact tetrahedron2_deriv p x
  case hypercube => exact hypercube_deriv p x
  case pyramid =>
    obtain ⟨h1, h2⟩ := hx
    have := pyramid_deriv p x h2
    have e : jacobian .pyramid p x = Matrix.of fun i j => weigh (pyramidDerivs x j) p i := by
      ext i j
      show weigh (pyramidDerivs (awayFromTip x) j) p i = _
      rw [awayFromTip, if_neg h1]; rfl
    rw [e]; exact this

/-- Next to the tip it is the derivative at the point a little below. -/
theorem jacobian_tip (p : Nat → Pt 3) (x : Pt 3) (hx : NearTip x) :
    HasFDerivAt (transform .pyramid p) (jacobian .pyramid p x).mulVecLin.toContinuousLinearMap
      ![x 0, x 1, x 2 - 1e-10] := by
  have h := pyramid_deriv p (awayFromTip x) (awayFromTip_ne hx)
  have e : awayFromTip x = ![x 0, x 1, x 2 - 1e-10] := by unfold awayFromTip; rw [if_pos hx]
  rw [← e]
  exact h

/-- In the closed reference pyramid only the tip and the points next to it are excluded. -/
theorem pyramid_excluded (x : Pt 3) (hx : x ∈ RefGeometry.body RefGeometry.pyramidG) (h1 : ¬ NearTip x) : x 2 ≠ 1 := by
  intro h
  obtain ⟨_, _, h3, h4⟩ := (show 0 ≤ x 2 ∧ 1 ≥ x 2 ∧ |x 0| ≤ 1 - x 2 ∧ |x 1| ≤ 1 - x 2 from hx)
  apply h1
  unfold NearTip
  rw [h] at h3 h4 ⊢
  have := abs_nonneg (x 0)
  have := abs_nonneg (x 1)
  norm_num at h3 h4 ⊢
  rw [h3, h4]; norm_num

example : (fun x : Pt 3 => ¬ NearTip x ∧ x 2 ≠ 1 ∧ x ∈ RefGeometry.body RefGeometry.pyramidG) ![1 / 4, -(1 / 2), 1 / 2] := by
  refine ⟨?_, by simp, ?_⟩
  · unfold NearTip; simp [abs_of_pos]; norm_num [abs_of_pos, abs_of_neg]
  · show 0 ≤ _ ∧ _
    simp [abs_of_pos]; norm_num

/-! ### Inverse maps -/

theorem jacobian_affine (k : Kind) (c : Pt k.dim) (A : Matrix (Fin k.dim) (Fin k.dim) ℝ) (p : Nat → Pt k.dim)
    (hp : ∀ i x, k.nodes[i]? = some x → p i = c + A *ᵥ x) (x : Pt k.dim)
    (hx : Regular k x) :
    (∀ y, transform k p y = c + A *ᵥ y) ∧ jacobian k p x = A := by
  have hs : ∀ y : Pt k.dim, A *ᵥ y = ∑ j, y j • (fun i => A i j) := by
    intro y
    ext i
    simp [mulVec, dotProduct, mul_comm]
  have ht : ∀ y, transform k p y = c + A *ᵥ y := by
    intro y
    rw [hs]
    exact affine_lem k c (fun j i => A i j) p (fun i x hx => by rw [hp i x hx, hs]) y
  refine ⟨ht, ?_⟩
  have h1 := jacobian_correct k p x hx
  have h2 : HasFDerivAt (transform k p) A.mulVecLin.toContinuousLinearMap x := by
    rw [show transform k p = fun y => c + A.mulVecLin.toContinuousLinearMap y from funext ht]
    exact (A.mulVecLin.toContinuousLinearMap.hasFDerivAt).const_add c
  have h3 := h1.unique h2
  have h4 : (jacobian k p x).mulVecLin = A.mulVecLin := by
    ext i
    have := congrArg (fun L => L (Pi.single i 1)) h3
    simpa using congrFun this _
  exact Matrix.toLin'.injective (by simpa [Matrix.toLin'_apply'] using h4)

/-- `inverseTransform` of an element that is an affine image of the reference element finds a point that is mapped to
the given point, up to the tolerance of `1e-14`. -/
theorem inverse_affine (k : Kind) (c : Pt k.dim) (A : Matrix (Fin k.dim) (Fin k.dim) ℝ) (hA : A.det ≠ 0)
    (p : Nat → Pt k.dim) (hp : ∀ i x, k.nodes[i]? = some x → p i = c + A *ᵥ x) (q : Pt k.dim) :
    ∃ x, inverseTransform k p q = some x ∧ distSq q (transform k p x) ≤ 1e-28 := by
  have h0 : Regular k 0 := by
    cases k
    case pyramid =>
      refine ⟨?_, by simp⟩
      unfold NearTip
      simp
      norm_num
    all_goals trivial
  obtain ⟨hF, hJ⟩ := jacobian_affine k c A p hp 0 h0
  have hj : k ≠ .pyramid → ∀ y, jacobian k p y = A := fun hk y =>
    (jacobian_affine k c A p hp y (by
      cases k
      case pyramid => exact absurd rfl hk
      all_goals trivial)).2
  have simplex_case : ∀ {d : Nat} (c : Pt d) (A : Matrix (Fin d) (Fin d) ℝ) (p : Nat → Pt d) (q : Pt d),
      A.det ≠ 0 → p 0 = c → (Matrix.of fun i j => simplexCols p (0 : Pt d) j i) = A →
      c + A *ᵥ simplexInverse p q = q := by
    intro d c A p q hA h0 h1
    unfold simplexInverse
    rw [h1, solve_mul hA, h0]
    abel
  cases k
  case line =>
    have hs : slope p 0 = A 0 0 := by
      have := congrFun (congrFun hJ 0) 0
      simpa [jacobian, cols] using this
    have hd : A 0 0 ≠ 0 := by rwa [det_fin_one] at hA
    refine ⟨_, by simp only [inverseTransform, lineInverse]; rw [if_neg (by rw [hs]; exact hd)], ?_⟩
    have : transform .line p ![(q 0 - mid p 0) / slope p 0] = q := by
      ext i
      obtain rfl : i = 0 := Subsingleton.elim _ _
      simp only [transform, line]
      have : slope p 0 ≠ 0 := by rw [hs]; exact hd
      simp
      field_simp
      ring
    rw [this, distSq_self]; norm_num
  case triangle =>
    refine ⟨_, rfl, ?_⟩
    rw [hF, simplex_case c A p q hA (by rw [hp 0 _ rfl]; ext i; simp [mulVec, dotProduct]) hJ, distSq_self]
    norm_num
  case tetrahedron =>
    refine ⟨_, rfl, ?_⟩
    rw [hF, simplex_case c A p q hA (by rw [hp 0 _ rfl]; ext i; simp [mulVec, dotProduct, Fin.sum_univ_succ]) hJ,
      distSq_self]
    norm_num
  case square => exact newton_affine _ _ q c A hF hJ hA
  case pyramid => exact newton_affine _ _ q c A hF hJ hA
  case prism => exact newton_affine _ _ q c A hF hJ hA
  case cube => exact newton_affine _ _ q c A hF hJ hA
  case hypercube => exact newton_affine _ _ q c A hF hJ hA
  case triangle2 =>
    obtain ⟨x, h1, h2⟩ := quadLoop_affine _ _ q c A hF (hj (by simp)) hA ![0.3333, 0.333]
    exact ⟨x, h1, by rw [h2, distSq_self]; norm_num⟩
  case tetrahedron2 =>
    obtain ⟨x, h1, h2⟩ := quadLoop_affine _ _ q c A hF (hj (by simp)) hA ![0.3333, 0.333, 0.3333]
    exact ⟨x, h1, by rw [h2, distSq_self]; norm_num⟩

/-- The inverse map of a triangle or tetrahedron with a non-singular Jacobian is the inverse map. -/
theorem simplex_inverse (k : Kind) (hk : k = .triangle ∨ k = .tetrahedron) (p : Nat → Pt k.dim)
    (hd : (jacobian k p 0).det ≠ 0) :
    (∀ q, ∃ x, inverseTransform k p q = some x ∧ transform k p x = q) ∧
      ∀ x, inverseTransform k p (transform k p x) = some x := by
  have key : ∀ {d : Nat} (p : Nat → Pt d) (T : Pt d → Pt d)
      (hd : (Matrix.of fun i j => simplexCols p (0 : Pt d) j i).det ≠ 0)
      (hT : ∀ x, T x = p 0 + (Matrix.of fun i j => simplexCols p (0 : Pt d) j i) *ᵥ x),
      (∀ q, T (simplexInverse p q) = q) ∧ ∀ x, simplexInverse p (T x) = x := by
    intro d p T hd hT
    refine ⟨fun q => ?_, fun x => ?_⟩
    · rw [hT, simplexInverse, solve_mul hd]; abel
    · rw [hT, simplexInverse, add_sub_cancel_left, solve, if_neg hd, mulVec_mulVec,
        nonsing_inv_mul _ (isUnit_iff_ne_zero.2 hd), one_mulVec]
  rcases hk with rfl | rfl
  · obtain ⟨h1, h2⟩ := key p (transform .triangle p) hd (fun x => by
      ext i
      simp only [transform, triangle_eq]
      simp [mulVec, dotProduct, Fin.sum_univ_succ, simplexCols]
      ring)
    exact ⟨fun q => ⟨_, rfl, h1 q⟩, fun x => congrArg some (h2 x)⟩
  · obtain ⟨h1, h2⟩ := key p (transform .tetrahedron p) hd (fun x => by
      ext i
      simp only [transform, tetrahedron_eq]
      simp [mulVec, dotProduct, Fin.sum_univ_succ, simplexCols]
      ring)
    exact ⟨fun q => ⟨_, rfl, h1 q⟩, fun x => congrArg some (h2 x)⟩

/-- The maps whose inverse is computed by an iteration with at most 100 steps. -/
def Limited (k : Kind) : Prop := k = .square ∨ k = .cube ∨ k = .hypercube ∨ k = .pyramid ∨ k = .prism

/-- The points that the iteration visits. -/
noncomputable def visited (k : Kind) (p : Nat → Pt k.dim) (q : Pt k.dim) (i : Nat) : Pt k.dim :=
  iterate (transform k p) (jacobian k p) q i

theorem inverse_limited (k : Kind) (hk : Limited k) (p : Nat → Pt k.dim) (q : Pt k.dim) :
    inverseTransform k p q = newton (transform k p) (jacobian k p) q := by
  rcases hk with rfl | rfl | rfl | rfl | rfl <;> rfl

/-- A point that was reached in less than 100 steps is returned, and it is mapped to the given point up to the
tolerance. Missing: what happens at the limit, see `inverse_nan_iff` and `inverse_unreachable`. -/
theorem inverse_limited_partial (k : Kind) (hk : Limited k) (p : Nat → Pt k.dim) (q : Pt k.dim) (j : Nat) (hj : j < 100)
    (h : distSq q (transform k p (visited k p q j)) ≤ 1e-28) :
    ∃ x, inverseTransform k p q = some x ∧ distSq q (transform k p x) ≤ 1e-28 := by
  rw [inverse_limited k hk]
  rcases first_or_never (fun i => distSq q (transform k p (visited k p q i)) > 1e-28) with ⟨i, h1, h2, h3⟩ | h1
  · have hij : i ≤ j := by
      by_contra hc
      exact absurd (h2 j (by omega)) (not_lt.2 h)
    rw [newton_first _ _ q i h1 h2 h3, if_neg (by omega)]
    exact ⟨_, rfl, not_lt.1 h3⟩
  · exact absurd (h1 j (by omega)) (not_lt.2 h)

/-- "Not a number" is not returned if the iteration does not get there within 100 steps, but exactly if the last of the
100 steps succeeds. -/
theorem inverse_nan_iff (k : Kind) (hk : Limited k) (p : Nat → Pt k.dim) (q : Pt k.dim) :
    inverseTransform k p q = none ↔
      (∀ i < 100, distSq q (transform k p (visited k p q i)) > 1e-28) ∧
        distSq q (transform k p (visited k p q 100)) ≤ 1e-28 := by
  rw [inverse_limited k hk]
  rcases first_or_never (fun i => distSq q (transform k p (visited k p q i)) > 1e-28) with ⟨i, h1, h2, h3⟩ | h1
  · rw [newton_first _ _ q i h1 h2 h3]
    constructor
    · intro h
      split at h
      · rename_i h'
        subst h'
        exact ⟨h2, not_lt.1 h3⟩
      · exact absurd h (by simp)
    · rintro ⟨h4, h5⟩
      rw [if_pos]
      by_contra hc
      exact h3 (h4 i (by omega))
  · rw [newton_never _ _ q h1]
    constructor
    · intro h; exact absurd h (by simp)
    · rintro ⟨_, h5⟩
      exact absurd (h1 100 (by omega)) (not_lt.2 h5)

/-- For a given point that no point is mapped to, a point is returned that is not mapped to it. -/
theorem inverse_unreachable (k : Kind) (hk : Limited k) (p : Nat → Pt k.dim) (q : Pt k.dim)
    (h : ∀ x, distSq q (transform k p x) > 1e-28) :
    inverseTransform k p q = some (visited k p q 100) := by
  rw [inverse_limited k hk]
  exact newton_never _ _ q fun i _ => h _

/-- The element of `inverse_wrong`, a convex quadrilateral. -/
def quadrilateral : Nat → Pt 2
  | 0 => ![1, -2]
  | 1 => ![3, -4]
  | 2 => ![3, 2]
  | _ => ![5, 4]

theorem quadrilateral_map (x : Pt 2) :
    transform .square quadrilateral x = ![x 0 + 3 + x 1, (x 0 + 3) * x 1] := by
  simp only [transform, square_eq, quadrilateral]
  ext i
  obtain rfl | rfl : i = 0 ∨ i = 1 := by revert i; decide
  all_goals simp; ring

/-- There are elements with a positive Jacobian for which this happens: the point (0, 1) is at a distance of at least
1/2 from the image of the plane, and yet a result is returned. -/
theorem inverse_wrong :
    (∀ x ∈ RefGeometry.body RefGeometry.squareG, 0 < (jacobian .square quadrilateral x).det) ∧
      ∃ x, inverseTransform .square quadrilateral ![0, 1] = some x ∧
        1 / 4 ≤ distSq ![0, 1] (transform .square quadrilateral x) := by
  have far : ∀ x : Pt 2, 1 / 4 ≤ distSq ![0, 1] (transform .square quadrilateral x) := by
    intro x
    rw [quadrilateral_map]
    simp only [distSq, Fin.sum_univ_two]
    simp
    nlinarith [sq_nonneg (x 0 + 3 - x 1), sq_nonneg ((x 0 + 3) * x 1 - 1 / 2)]
  refine ⟨fun x hx => ?_, _, inverse_unreachable .square (.inl rfl) _ _ fun x => ?_, far _⟩
  · obtain ⟨h1, h2, h3, h4⟩ := (show x 0 ≥ -1 ∧ x 0 ≤ 1 ∧ x 1 ≥ -1 ∧ x 1 ≤ 1 from hx)
    have : jacobian .square quadrilateral x = !![1, 1; x 1, x 0 + 3] := by
      ext i j
      obtain rfl | rfl : i = 0 ∨ i = 1 := by revert i; decide
      all_goals
        obtain rfl | rfl : j = 0 ∨ j = 1 := by revert j; decide
        all_goals simp [jacobian, cols, squareCols, reinit2, quadrilateral]; ring
    rw [this, det_fin_two_of]
    linarith
  · have := far x
    norm_num at this ⊢
    linarith

set_option maxHeartbeats 1000000 in
/-- The result of the inverse map of a quadratic triangle: unless the Jacobian is singular at a point next to it, the
result is mapped to a point that differs from the given point by at most `2e-9` times the size of the element, in every
coordinate. -/
theorem triangle2_inverse (p : Nat → Pt 2) (q x : Pt 2) (h : inverseTransform .triangle2 p q = some x) :
    ∃ y, (∑ i, (x i - y i) ^ 2 ≤ 1e-10 ∧
      ((jacobian .triangle2 p y).det = 0 ∨
        ∀ i c M, (∀ j < 6, |p j i - c| ≤ M) → |transform .triangle2 p x i - q i| ≤ 20 * M * 1e-10)) := by
  obtain ⟨y, rfl, h2⟩ := quadLoop_spec _ _ q _ x h
  refine ⟨y, by simpa using h2, ?_⟩
  by_cases hd : (jacobian .triangle2 p y).det = 0
  · exact .inl hd
  refine .inr fun i c M hM => ?_
  have hs := congrFun (solve_mul hd (transform .triangle2 p y - q)) i
  generalize solve (jacobian .triangle2 p y) (transform .triangle2 p y - q) = s at h2 hs ⊢
  simp only [Fin.sum_univ_two] at h2
  have key : transform .triangle2 p (y - s) i - q i =
      (p 0 i - c) * (2 * (s 0 + s 1) ^ 2) + (p 1 i - c) * (-4 * s 0 * (s 0 + s 1)) + (p 2 i - c) * (2 * s 0 ^ 2) +
      (p 3 i - c) * (-4 * s 1 * (s 0 + s 1)) + (p 4 i - c) * (4 * s 0 * s 1) + (p 5 i - c) * (2 * s 1 ^ 2) := by
    simp only [transform, triangle2_eq, jacobian, cols, triangle2Cols, triangle2Derivs, weigh, mulVec, dotProduct,
      Fin.sum_univ_two] at hs ⊢
    simp at hs ⊢
    linear_combination -hs
  rw [key]
  have bound : ∀ (a f K : ℝ), |a| ≤ M → |f| ≤ K → |a * f| ≤ M * K := fun a f K ha hf => by
    rw [abs_mul]; exact mul_le_mul ha hf (abs_nonneg _) ((abs_nonneg _).trans ha)
  have hM0 : 0 ≤ M := (abs_nonneg _).trans (hM 0 (by omega))
  set n := s 0 ^ 2 + s 1 ^ 2 with hn
  have a0 := sq_nonneg (s 0 - s 1)
  have a1 := sq_nonneg (s 0 + s 1)
  have a2 := sq_nonneg (s 0)
  have a3 := sq_nonneg (s 1)
  have b0 := bound _ (2 * (s 0 + s 1) ^ 2) (4 * n) (hM 0 (by omega)) (by rw [abs_le]; constructor <;> nlinarith)
  have b1 := bound _ (-4 * s 0 * (s 0 + s 1)) (5 * n) (hM 1 (by omega)) (by rw [abs_le]; constructor <;> nlinarith)
  have b2 := bound _ (2 * s 0 ^ 2) (2 * n) (hM 2 (by omega)) (by rw [abs_le]; constructor <;> nlinarith)
  have b3 := bound _ (-4 * s 1 * (s 0 + s 1)) (5 * n) (hM 3 (by omega)) (by rw [abs_le]; constructor <;> nlinarith)
  have b4 := bound _ (4 * s 0 * s 1) (2 * n) (hM 4 (by omega)) (by rw [abs_le]; constructor <;> nlinarith)
  have b5 := bound _ (2 * s 1 ^ 2) (2 * n) (hM 5 (by omega)) (by rw [abs_le]; constructor <;> nlinarith)
  have hMn : M * n ≤ M * 1e-10 := mul_le_mul_of_nonneg_left h2 hM0
  rw [abs_le] at b0 b1 b2 b3 b4 b5 ⊢
  constructor <;> nlinarith

set_option maxHeartbeats 2000000 in
/-- The same for the quadratic tetrahedron. -/
theorem tetrahedron2_inverse (p : Nat → Pt 3) (q x : Pt 3) (h : inverseTransform .tetrahedron2 p q = some x) :
    ∃ y, (∑ i, (x i - y i) ^ 2 ≤ 1e-10 ∧
      ((jacobian .tetrahedron2 p y).det = 0 ∨
        ∀ i c M, (∀ j < 10, |p j i - c| ≤ M) → |transform .tetrahedron2 p x i - q i| ≤ 40 * M * 1e-10)) := by
  obtain ⟨y, rfl, h2⟩ := quadLoop_spec _ _ q _ x h
  refine ⟨y, by simpa using h2, ?_⟩
  by_cases hd : (jacobian .tetrahedron2 p y).det = 0
  · exact .inl hd
  refine .inr fun i c M hM => ?_
  have hs := congrFun (solve_mul hd (transform .tetrahedron2 p y - q)) i
  generalize solve (jacobian .tetrahedron2 p y) (transform .tetrahedron2 p y - q) = s at h2 hs ⊢
  simp only [Fin.sum_univ_three] at h2
  have key : transform .tetrahedron2 p (y - s) i - q i =
      (p 0 i - c) * (2 * (s 0 + s 1 + s 2) ^ 2) + (p 1 i - c) * (-4 * s 0 * (s 0 + s 1 + s 2)) +
      (p 2 i - c) * (2 * s 0 ^ 2) + (p 3 i - c) * (-4 * s 1 * (s 0 + s 1 + s 2)) + (p 4 i - c) * (4 * s 0 * s 1) +
      (p 5 i - c) * (2 * s 1 ^ 2) + (p 6 i - c) * (-4 * s 2 * (s 0 + s 1 + s 2)) + (p 7 i - c) * (4 * s 0 * s 2) +
      (p 8 i - c) * (4 * s 1 * s 2) + (p 9 i - c) * (2 * s 2 ^ 2) := by
    simp only [transform, tetrahedron2_eq, jacobian, cols, tetrahedron2Cols, tetrahedron2Derivs, weigh, mulVec, dotProduct,
      Fin.sum_univ_three] at hs ⊢
    simp at hs ⊢
    linear_combination -hs
  rw [key]
  clear key hs h hd
  have bound : ∀ (a f K : ℝ), |a| ≤ M → |f| ≤ K → |a * f| ≤ M * K := fun a f K ha hf => by
    rw [abs_mul]; exact mul_le_mul ha hf (abs_nonneg _) ((abs_nonneg _).trans ha)
  have hM0 : 0 ≤ M := (abs_nonneg _).trans (hM 0 (by omega))
  generalize s 0 = a at *
  generalize s 1 = b at *
  generalize s 2 = e at *
  have sq := fun t : ℝ => sq_nonneg t
  have tw : ∀ a b : ℝ, |4 * a * b| ≤ 2 * (a ^ 2 + b ^ 2) := fun a b => by
    rw [abs_le]; constructor <;> nlinarith [sq (a - b), sq (a + b)]
  have dg : ∀ a b e : ℝ, |-4 * a * (a + b + e)| ≤ 6 * (a ^ 2 + b ^ 2 + e ^ 2) := fun a b e => by
    rw [abs_le]; constructor <;> nlinarith [sq (a - 2 * b), sq (a - 2 * e), sq (a + 2 * b), sq (a + 2 * e), sq a, sq b, sq e, sq (a + b + e)]
  have tp : |2 * (a + b + e) ^ 2| ≤ 6 * (a ^ 2 + b ^ 2 + e ^ 2) := by
    rw [abs_le]; constructor <;> nlinarith [sq (a - b), sq (a - e), sq (b - e), sq (a + b + e), sq a, sq b, sq e]
  have sg : ∀ a : ℝ, |2 * a ^ 2| ≤ 2 * a ^ 2 := fun a => by rw [abs_of_nonneg]; nlinarith [sq a]
  have b0 := bound _ _ _ (hM 0 (by omega)) tp
  have b1 := bound _ _ _ (hM 1 (by omega)) (dg a b e)
  have b2 := bound _ _ _ (hM 2 (by omega)) (sg a)
  have b3 := bound _ (-4 * b * (a + b + e)) (6 * (a ^ 2 + b ^ 2 + e ^ 2)) (hM 3 (by omega)) (by
    have := dg b a e
    rwa [show -4 * b * (b + a + e) = -4 * b * (a + b + e) by ring,
      show b ^ 2 + a ^ 2 + e ^ 2 = a ^ 2 + b ^ 2 + e ^ 2 by ring] at this)
  have b4 := bound _ _ _ (hM 4 (by omega)) (tw a b)
  have b5 := bound _ _ _ (hM 5 (by omega)) (sg b)
  have b6 := bound _ (-4 * e * (a + b + e)) (6 * (a ^ 2 + b ^ 2 + e ^ 2)) (hM 6 (by omega)) (by
    have := dg e a b
    rwa [show -4 * e * (e + a + b) = -4 * e * (a + b + e) by ring,
      show e ^ 2 + a ^ 2 + b ^ 2 = a ^ 2 + b ^ 2 + e ^ 2 by ring] at this)
  have b7 := bound _ _ _ (hM 7 (by omega)) (tw a e)
  have b8 := bound _ _ _ (hM 8 (by omega)) (tw b e)
  have b9 := bound _ _ _ (hM 9 (by omega)) (sg e)
  have hMn : M * (a ^ 2 + b ^ 2 + e ^ 2) ≤ M * 1e-10 := mul_le_mul_of_nonneg_left h2 hM0
  have hz : 0 ≤ M * 1e-10 := by positivity
  rw [abs_le] at *
  constructor <;> linarith

end Verif.PhysMap
