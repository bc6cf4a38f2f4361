import Verif.RefGeometry.Spec
import Mathlib.Analysis.Convex.Combination
import Mathlib.Analysis.Convex.Topology
import Mathlib.Analysis.Convex.Join
import Mathlib.LinearAlgebra.Matrix.DotProduct
import Mathlib.Analysis.Calculus.FDeriv.Add
import Mathlib.Analysis.Calculus.FDeriv.Comp
import Mathlib.Analysis.Calculus.FDeriv.Linear
import Mathlib.Tactic.FinCases
import Mathlib.Tactic.Linarith
import Mathlib.Tactic.FieldSimp

namespace Verif.RefGeometry
open Matrix

theorem mem_hull_of_weights {d n : Nat} (nodes : List (Pt d)) (hn : nodes.length = n)
    (w : Fin n → ℝ) (hw : ∀ i, 0 ≤ w i) (h1 : ∑ i, w i = 1) (p : Pt d)
    (hp : p = ∑ i : Fin n, w i • nodes[(i : Nat)]'(by omega)) :
    p ∈ convexHull ℝ {x | x ∈ nodes} := by
  rw [hp]
  refine (convex_convexHull ℝ _).sum_mem (fun i _ => hw i) h1 (fun i _ => ?_)
  exact subset_convexHull ℝ _ (List.getElem_mem _)

/-- The affine function whose non-positivity is the face inequality. -/
noncomputable def conormal : {d : Nat} → Face d → Pt (d + 1)
  | 0, f => ![f.map.sign]
  | 1, f => f.map.sign • wedge2 (f.map.jacobian 0)
  | 2, f => f.map.sign • wedge3 (f.map.jacobian 0)
  | 3, f => f.map.sign • wedge4 (f.map.jacobian 0)
  | _ + 4, _ => 0

noncomputable def level {d : Nat} (f : Face d) (x : Pt (d + 1)) : ℝ :=
  conormal f ⬝ᵥ (x - f.map.transform 0)

/-- `transform` is affine with the constant Jacobian `jacobian`. -/
def Affine {m n : Nat} (f : RefMap m n) : Prop :=
  ∀ p q, f.transform q = f.transform 0 + f.jacobian p *ᵥ q

theorem Affine.jacobianCorrect {m n : Nat} {f : RefMap m n} (h : Affine f) :
    JacobianCorrect f := by
  intro p
  have : f.transform = fun q => f.transform 0 + (f.jacobian p).mulVecLin.toContinuousLinearMap q := by
    funext q
    rw [h p q]
    rfl
  rw [this]
  exact (ContinuousLinearMap.hasFDerivAt _).const_add _

theorem Affine.image_hull {m n : Nat} {f : RefMap m n} (h : Affine f) (s : Set (Pt m)) :
    f.transform '' convexHull ℝ s = convexHull ℝ (f.transform '' s) := by
  let A : Pt m →ᵃ[ℝ] Pt n :=
    { toFun := f.transform
      linear := (f.jacobian 0).mulVecLin
      map_vadd' := by
        intro p v
        rw [vadd_eq_add, vadd_eq_add, h 0 (v + p), h 0 p, Matrix.mulVec_add]
        simp only [Matrix.mulVecLin_apply]
        abel }
  exact A.image_convexHull s

theorem level_affine {d : Nat} (f : Face d) (x y : Pt (d + 1)) (a b : ℝ) (hab : a + b = 1) :
    level f (a • x + b • y) = a * level f x + b * level f y := by
  have : a • x + b • y - f.map.transform 0 =
      a • (x - f.map.transform 0) + b • (y - f.map.transform 0) := by
    rw [smul_sub, smul_sub]
    have : f.map.transform 0 = a • f.map.transform 0 + b • f.map.transform 0 := by
      rw [← add_smul, hab, one_smul]
    conv_lhs => rw [this]
    abel
  rw [level, this, dotProduct_add, dotProduct_smul, dotProduct_smul]
  rfl

theorem level_convex {d : Nat} (f : Face d) : Convex ℝ {x | level f x ≤ 0} := by
  intro x hx y hy a b ha hb hab
  change level f _ ≤ 0
  rw [level_affine f x y a b hab]
  have hx : level f x ≤ 0 := hx
  have hy : level f y ≤ 0 := hy
  nlinarith

/-- Convex combination argument: points of the hull of `A ∪ B` with `level = 0` are in the hull of
`A`, when the level is 0 on `A` and negative on `B`. -/
theorem hull_level {d : Nat} (f : Face d) (A B : Set (Pt (d + 1))) (hA : ∀ x ∈ A, level f x = 0)
    (hB : ∀ x ∈ B, level f x < 0) {x : Pt (d + 1)} (hx : x ∈ convexHull ℝ (A ∪ B)) :
    level f x ≤ 0 ∧ (level f x = 0 → x ∈ convexHull ℝ A) := by
  have hAl : ∀ y ∈ convexHull ℝ A, level f y = 0 := by
    intro y hy
    have : convexHull ℝ A ⊆ {y | level f y = 0} := by
      refine convexHull_min hA ?_
      intro u hu v hv a b _ _ hab
      change level f _ = 0
      have hu : level f u = 0 := hu
      have hv : level f v = 0 := hv
      rw [level_affine f u v a b hab, hu, hv]; ring
    exact this hy
  have hBl : ∀ y ∈ convexHull ℝ B, level f y < 0 := by
    intro y hy
    have : convexHull ℝ B ⊆ {y | level f y < 0} := by
      refine convexHull_min hB ?_
      intro u hu v hv a b ha hb hab
      change level f _ < 0
      have hu : level f u < 0 := hu
      have hv : level f v < 0 := hv
      rw [level_affine f u v a b hab]
      rcases eq_or_lt_of_le ha with h | h
      · subst h
        have : b = 1 := by linarith
        subst this; linarith
      · nlinarith
    exact this hy
  rcases A.eq_empty_or_nonempty with h0 | hne
  · subst h0
    rw [Set.empty_union] at hx
    have := hBl x hx
    exact ⟨this.le, fun h => absurd h this.ne⟩
  rcases B.eq_empty_or_nonempty with h0 | hneB
  · subst h0
    rw [Set.union_empty] at hx
    exact ⟨(hAl x hx).le, fun _ => hx⟩
  rw [convexHull_union hne hneB, mem_convexJoin] at hx
  obtain ⟨u, hu, v, hv, a, b, ha, hb, hab, rfl⟩ := hx
  rw [level_affine f u v a b hab, hAl u hu]
  have hvl := hBl v hv
  constructor
  · nlinarith
  · intro h
    have : b = 0 := by
      have : b * level f v = 0 := by linarith
      rcases mul_eq_zero.1 this with h | h
      · exact h
      · exact absurd h hvl.ne
    subst this
    have : a = 1 := by linarith
    subst this
    simpa using hu

/-- The facts to be checked for each shape. -/
structure Good {d : Nat} (S : Shape d) : Prop where
  /-- inequality representation -/
  hrep : ∀ x, S.geom.isInternal x ↔ ∀ f ∈ S.faces, level f x ≤ 0
  /-- vertex representation -/
  vrep : ∀ x, S.geom.isInternal x → x ∈ convexHull ℝ {x | x ∈ S.geom.nodes}
  /-- the level vanishes on the nodes of the face and is negative on the others -/
  nodeZip : ∀ f ∈ S.faces, ∀ x ∈ S.geom.nodes.zipIdx,
    (x.2 ∈ f.nodeIdx ∧ level f x.1 = 0) ∨ (x.2 ∉ f.nodeIdx ∧ level f x.1 < 0)
  affine : ∀ f ∈ S.faces, Affine f.map.toRefMap
  nodes : ∀ f ∈ S.faces, List.Forall₂ (fun p k => S.geom.nodes[k]? = some (f.map.transform p))
    f.geom.nodes f.nodeIdx
  faceHull : ∀ f ∈ S.faces, body f.geom = convexHull ℝ {x | x ∈ f.geom.nodes}
  other : ∀ f ∈ S.faces, ∃ k, k < S.geom.nodes.length ∧ k ∉ f.nodeIdx

theorem forall2_image {α β : Type*} {P : α → β → Prop} {l : List α} {m : List β}
    (h : List.Forall₂ P l m) (a : α) (ha : a ∈ l) : ∃ b ∈ m, P a b := by
  induction h with
  | nil => simp at ha
  | cons hab _ ih =>
    rcases List.mem_cons.1 ha with rfl | ha
    · exact ⟨_, by simp, hab⟩
    · obtain ⟨b, hb, hp⟩ := ih ha
      exact ⟨b, by simp [hb], hp⟩

theorem forall2_image' {α β : Type*} {P : α → β → Prop} {l : List α} {m : List β}
    (h : List.Forall₂ P l m) (b : β) (hb : b ∈ m) : ∃ a ∈ l, P a b := by
  induction h with
  | nil => simp at hb
  | cons hab _ ih =>
    rcases List.mem_cons.1 hb with rfl | hb
    · exact ⟨_, by simp, hab⟩
    · obtain ⟨a, ha, hp⟩ := ih hb
      exact ⟨a, by simp [ha], hp⟩

namespace Good
variable {d : Nat} {S : Shape d} (G : Good S)
include G

theorem node (f : Face d) (hf : f ∈ S.faces) (k : Nat) (h : k < S.geom.nodes.length) :
    (k ∈ f.nodeIdx ∧ level f S.geom.nodes[k] = 0) ∨
      (k ∉ f.nodeIdx ∧ level f S.geom.nodes[k] < 0) :=
  G.nodeZip f hf (S.geom.nodes[k], k) (by rw [List.mem_zipIdx_iff_getElem?]; simp [h])

theorem conormal_ne (f : Face d) (hf : f ∈ S.faces) : conormal f ≠ 0 := by
  intro h0
  obtain ⟨k, hk, hkf⟩ := G.other f hf
  rcases G.node f hf k hk with h | h
  · exact hkf h.1
  · have := h.2
    rw [level, h0, zero_dotProduct] at this
    exact lt_irrefl _ this

theorem corners_eq (f : Face d) (hf : f ∈ S.faces) :
    f.map.transform '' {x | x ∈ f.geom.nodes} = faceCorners S f := by
  have hn := G.nodes f hf
  ext x
  constructor
  · rintro ⟨p, hp, rfl⟩
    obtain ⟨k, hk, h⟩ := forall2_image hn p hp
    exact ⟨k, hk, h⟩
  · rintro ⟨k, hk, h⟩
    obtain ⟨p, hp, h'⟩ := forall2_image' hn k hk
    rw [h'] at h
    exact ⟨p, hp, Option.some.inj h⟩

theorem image_eq_hull (f : Face d) (hf : f ∈ S.faces) :
    faceImage f = convexHull ℝ (faceCorners S f) := by
  rw [faceImage, G.faceHull f hf, (G.affine f hf).image_hull, G.corners_eq f hf]

theorem body_eq_hull : body S.geom = convexHull ℝ {x | x ∈ S.geom.nodes} := by
  ext x
  constructor
  · exact G.vrep x
  · intro h
    refine (G.hrep x).2 fun f hf => ?_
    have : convexHull ℝ {x | x ∈ S.geom.nodes} ⊆ {x | level f x ≤ 0} := by
      refine convexHull_min ?_ (level_convex f)
      intro y hy
      obtain ⟨k, hk, rfl⟩ := List.getElem_of_mem hy
      rcases G.node f hf k hk with h | h
      · exact h.2.le
      · exact h.2.le
    exact this h

theorem level_corner (f : Face d) (hf : f ∈ S.faces) (x : Pt (d + 1)) (hx : x ∈ faceCorners S f) :
    level f x = 0 := by
  obtain ⟨k, hk, h⟩ := hx
  obtain ⟨hlt, rfl⟩ := List.getElem?_eq_some_iff.1 h
  rcases G.node f hf k hlt with h | h
  · exact h.2
  · exact absurd hk h.1

theorem image_level (f : Face d) (hf : f ∈ S.faces) (x : Pt (d + 1)) :
    x ∈ faceImage f ↔ x ∈ body S.geom ∧ level f x = 0 := by
  rw [G.image_eq_hull f hf]
  set B : Set (Pt (d + 1)) := {x | ∃ k, ∃ h : k < S.geom.nodes.length, k ∉ f.nodeIdx ∧
    x = S.geom.nodes[k]} with hBdef
  have hB : ∀ x ∈ B, level f x < 0 := by
    rintro x ⟨k, hk, hnot, rfl⟩
    rcases G.node f hf k hk with h | h
    · exact absurd h.1 hnot
    · exact h.2
  have hA := G.level_corner f hf
  have hU : {x | x ∈ S.geom.nodes} = faceCorners S f ∪ B := by
    ext x
    constructor
    · intro hx
      obtain ⟨k, hk, rfl⟩ := List.getElem_of_mem hx
      by_cases hkf : k ∈ f.nodeIdx
      · exact Or.inl ⟨k, hkf, List.getElem?_eq_getElem hk⟩
      · exact Or.inr ⟨k, hk, hkf, rfl⟩
    · rintro (⟨k, _, h⟩ | ⟨k, hk, _, rfl⟩)
      · exact List.mem_of_getElem? h
      · exact List.getElem_mem _
  constructor
  · intro hx
    have hx' : x ∈ convexHull ℝ (faceCorners S f ∪ ∅) := by simpa using hx
    refine ⟨?_, ?_⟩
    · rw [G.body_eq_hull, hU]
      exact convexHull_mono Set.subset_union_left hx
    · have h0 : convexHull ℝ (faceCorners S f) ⊆ {y | level f y = 0} := by
        refine convexHull_min hA ?_
        intro u hu v hv a b _ _ hab
        change level f _ = 0
        have hu : level f u = 0 := hu
        have hv : level f v = 0 := hv
        rw [level_affine f u v a b hab, hu, hv]; ring
      exact h0 hx
  · rintro ⟨hx, h0⟩
    rw [G.body_eq_hull, hU] at hx
    exact (hull_level f _ _ hA hB hx).2 h0

omit G in
theorem level_continuous (f : Face d) : Continuous (level f) := by
  unfold level
  simp only [dotProduct]
  fun_prop

theorem body_closed : IsClosed (body S.geom) := by
  have : body S.geom = ⋂ f ∈ S.faces, {x | level f x ≤ 0} := by
    ext x
    simp only [body, Set.mem_iInter]
    exact G.hrep x
  rw [this]
  refine isClosed_biInter fun f _ => ?_
  exact isClosed_le (level_continuous f) continuous_const

theorem frontier_eq : frontier (body S.geom) = ⋃ f ∈ S.faces, faceImage f := by
  rw [frontier, G.body_closed.closure_eq]
  ext x
  simp only [Set.mem_sdiff, Set.mem_iUnion]
  constructor
  · rintro ⟨hx, hint⟩
    by_contra hcon
    apply hint
    have hstrict : ∀ f ∈ S.faces, level f x < 0 := by
      intro f hf
      have h1 : level f x ≤ 0 := (G.hrep x).1 hx f hf
      rcases lt_or_eq_of_le h1 with h | h
      · exact h
      · exact absurd ⟨f, hf, (G.image_level f hf x).2 ⟨hx, h⟩⟩ hcon
    rw [mem_interior]
    refine ⟨⋂ f ∈ {f | f ∈ S.faces}, {x | level f x < 0}, ?_, ?_, ?_⟩
    · intro y hy
      simp only [Set.mem_iInter] at hy
      exact (G.hrep y).2 fun f hf => (hy f hf).le
    · refine Set.Finite.isOpen_biInter (List.finite_toSet S.faces) fun f _ => ?_
      exact isOpen_lt (level_continuous f) continuous_const
    · simp only [Set.mem_iInter]
      exact fun f hf => hstrict f hf
  · rintro ⟨f, hf, hx⟩
    obtain ⟨hb, h0⟩ := (G.image_level f hf x).1 hx
    refine ⟨hb, fun hint => ?_⟩
    -- move along the conormal and leave the body
    have hpos : 0 < conormal f ⬝ᵥ conormal f := by
      have hne := G.conormal_ne f hf
      have : conormal f ⬝ᵥ conormal f ≠ 0 := by
        rw [Ne, dotProduct_self_eq_zero]; exact hne
      have h2 : 0 ≤ conormal f ⬝ᵥ conormal f := by
        simp only [dotProduct]
        exact Finset.sum_nonneg fun i _ => mul_self_nonneg _
      exact lt_of_le_of_ne h2 (Ne.symm this)
    have hcont : Continuous fun t : ℝ => x + t • conormal f := by fun_prop
    have hnhds : (fun t : ℝ => x + t • conormal f) ⁻¹' (body S.geom) ∈ nhds (0 : ℝ) := by
      apply hcont.continuousAt.preimage_mem_nhds
      simpa using mem_interior_iff_mem_nhds.1 hint
    obtain ⟨ε, hε, hball⟩ := Metric.mem_nhds_iff.1 hnhds
    have hin : (ε / 2) ∈ Metric.ball (0 : ℝ) ε := by
      rw [Metric.mem_ball, dist_zero_right, Real.norm_eq_abs, abs_of_pos (by linarith)]
      linarith
    have hbody := hball hin
    have hle := (G.hrep _).1 hbody f hf
    have hcalc : level f (x + (ε / 2) • conormal f) =
        level f x + ε / 2 * (conormal f ⬝ᵥ conormal f) := by
      simp only [level]
      have : x + (ε / 2) • conormal f - f.map.transform 0 =
          (x - f.map.transform 0) + (ε / 2) • conormal f := by abel
      rw [this, dotProduct_add, dotProduct_smul]
      rfl
    rw [hcalc, h0] at hle
    nlinarith

end Good
end Verif.RefGeometry
