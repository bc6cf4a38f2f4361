import Verif.Quadrature.Props
import Verif.PhysMap.Props
import Mathlib.MeasureTheory.Function.Jacobian

/-!
# Integrals over physical elements
-/
namespace Verif.Quadrature
open RefGeometry MeasureTheory Matrix

/-- Scaling with the Jacobian determinant is the same as integrating the scaled function. -/
theorem integrateElement_eq {d : Nat} (r : Rule d) (J : Pt d → Matrix (Fin d) (Fin d) ℝ)
    (f : Pt d → ℝ) :
    r.integrateElement true J f = r.integrate (fun x => |(J x).det| * f x) := by
  simp only [Rule.integrateElement, Rule.integrate, if_true]
  cases r.points with
  | nil => rfl
  | cons p ps =>
    simp only [mul_assoc]
    congr 3
    ring

/-- A rule only looks at its points. -/
theorem integrate_congr {d : Nat} (r : Rule d) (f f' : Pt d → ℝ)
    (h : ∀ q ∈ r.points, f q.2 = f' q.2) : r.integrate f = r.integrate f' := by
  unfold Rule.integrate
  split
  · rfl
  · rename_i p ps hps
    split
    · rfl
    · rw [h p (by rw [hps]; exact List.mem_cons_self)]
      congr 1
      have hin : ∀ q' ∈ ps.take (r.number - 1), f q'.2 = f' q'.2 := fun q' hq' =>
        h q' (by rw [hps]; exact List.mem_cons_of_mem _ (List.mem_of_mem_take hq'))
      generalize p.1 * f' p.2 = s
      generalize ps.take (r.number - 1) = l at hin
      induction l generalizing s with
      | nil => rfl
      | cons a l ih =>
        simp only [List.foldl_cons]
        rw [hin a List.mem_cons_self]
        exact ih _ (fun q' hq' => hin q' (List.mem_cons_of_mem _ hq'))

/-- A rule that is accurate for polynomials up to degree `n` gives the integral over the image of
the shape of every function that becomes a polynomial of degree at most `n` on the reference
element, once multiplied with the determinant. The map `T` has to be injective and differentiable, and
the matrix `J` used by the program has to be its derivative at the points of the rule. -/
theorem element_integral {d : Nat} {g : Geom d} {r : Rule d} {n : Nat} {ε : ℝ}
    (h : Integrates g r n ε) (hr : PointsInside g r) (hg : MeasurableSet (body g))
    (T : Pt d → Pt d) (D J : Pt d → Matrix (Fin d) (Fin d) ℝ)
    (hT : ∀ x ∈ body g, HasFDerivAt T (D x).mulVecLin.toContinuousLinearMap x)
    (hJ : ∀ q ∈ r.points, J q.2 = D q.2)
    (hinj : Set.InjOn T (body g)) (f : Pt d → ℝ) (q : MvPolynomial (Fin d) ℝ)
    (hq : q.totalDegree ≤ n)
    (hf : ∀ x ∈ body g, |(D x).det| * f (T x) = MvPolynomial.eval x q) :
    ∃ v, r.integrateElement true J (fun x => f (T x)) = some v ∧
      |v - ∫ y in T '' body g, f y| ≤ ε * coeffSum q := by
  obtain ⟨v, hv, hle⟩ := h q hq
  refine ⟨v, ?_, ?_⟩
  · rw [integrateElement_eq, ← hv]
    refine integrate_congr r _ _ fun s hs => ?_
    rw [hJ s hs]
    exact hf _ (hr s hs)
  · rw [integral_image_eq_integral_abs_det_fderiv_smul volume hg
      (fun x hx => (hT x hx).hasFDerivWithinAt) hinj]
    have e : ∫ x in body g, |((D x).mulVecLin.toContinuousLinearMap).det| • f (T x) =
        ∫ x in body g, MvPolynomial.eval x q := by
      refine setIntegral_congr_fun hg fun x hx => ?_
      simp only [smul_eq_mul]
      rw [← hf x hx]
      congr 2
      rw [ContinuousLinearMap.det]
      simp only [LinearMap.coe_toContinuousLinearMap, ← Matrix.toLin'_apply', LinearMap.det_toLin']
    rw [e]
    exact hle

/-- Replacing the variables of a polynomial by polynomials of degree at most one does not increase
the degree. -/
theorem affine_poly {d : Nat} (c : Pt d) (A : Matrix (Fin d) (Fin d) ℝ)
    (p : MvPolynomial (Fin d) ℝ) :
    ∃ q : MvPolynomial (Fin d) ℝ, q.totalDegree ≤ p.totalDegree ∧
      ∀ x, MvPolynomial.eval x q = MvPolynomial.eval (c + A *ᵥ x) p := by
  classical
  let L : Fin d → MvPolynomial (Fin d) ℝ := fun i =>
    MvPolynomial.C (c i) + ∑ j, MvPolynomial.C (A i j) * MvPolynomial.X j
  have hL : ∀ i, (L i).totalDegree ≤ 1 := by
    intro i
    refine (MvPolynomial.totalDegree_add _ _).trans (max_le (by simp) ?_)
    refine (MvPolynomial.totalDegree_finsetSum _ _).trans (Finset.sup_le fun j _ => ?_)
    exact (MvPolynomial.totalDegree_mul _ _).trans (by simp)
  refine ⟨∑ m ∈ p.support, MvPolynomial.C (p.coeff m) * ∏ i, L i ^ m i, ?_, fun x => ?_⟩
  · refine (MvPolynomial.totalDegree_finsetSum _ _).trans (Finset.sup_le fun m hm => ?_)
    refine (MvPolynomial.totalDegree_mul _ _).trans ?_
    rw [MvPolynomial.totalDegree_C, zero_add]
    refine (MvPolynomial.totalDegree_finsetProd _ _).trans ?_
    have h1 : ∑ i, (L i ^ m i).totalDegree ≤ ∑ i, m i := Finset.sum_le_sum fun i _ =>
      (MvPolynomial.totalDegree_pow _ _).trans
        ((Nat.mul_le_mul_left _ (hL i)).trans (le_of_eq (mul_one _)))
    refine h1.trans (le_trans (le_of_eq ?_) (MvPolynomial.le_totalDegree hm))
    rw [Finsupp.sum_fintype _ _ (by simp)]
  · rw [map_sum, MvPolynomial.eval_eq' (c + A *ᵥ x)]
    refine Finset.sum_congr rfl fun m _ => ?_
    rw [map_mul, MvPolynomial.eval_C, map_prod]
    congr 1
    refine Finset.prod_congr rfl fun i _ => ?_
    rw [map_pow]
    congr 1
    simp [L, mulVec, dotProduct]

/-- On an element whose nodes are the images of the nodes of the reference element under an
invertible affine map, a rule accurate for degree `n` integrates every polynomial of degree at most
`n` in the physical coordinates. -/
theorem affine_element (k : PhysMap.Kind) (c : Pt k.dim) (A : Matrix (Fin k.dim) (Fin k.dim) ℝ)
    (hA : A.det ≠ 0) (nodes : Nat → Pt k.dim)
    (hn : ∀ i x, k.nodes[i]? = some x → nodes i = c + A *ᵥ x)
    {g : Geom k.dim} (hg : MeasurableSet (body g)) {r : Rule k.dim} {n : Nat} {ε : ℝ}
    (h : Integrates g r n ε) (hr : PointsInside g r)
    (hreg : ∀ q ∈ r.points, PhysMap.Regular k q.2)
    (p : MvPolynomial (Fin k.dim) ℝ) (hp : p.totalDegree ≤ n) :
    ∃ q : MvPolynomial (Fin k.dim) ℝ,
      (∀ x, MvPolynomial.eval x q = MvPolynomial.eval (PhysMap.transform k nodes x) p) ∧
      ∃ v, r.integrateElement true (PhysMap.jacobian k nodes)
          (fun x => MvPolynomial.eval (PhysMap.transform k nodes x) p) = some v ∧
        |v - ∫ y in PhysMap.transform k nodes '' body g, MvPolynomial.eval y p| ≤
          |A.det| * ε * coeffSum q := by
  have hs : ∀ y : Pt k.dim, A *ᵥ y = ∑ j, y j • (fun i => A i j) := by
    intro y
    ext i
    simp [mulVec, dotProduct, mul_comm]
  have ht : ∀ y, PhysMap.transform k nodes y = c + A *ᵥ y := fun y => by
    rw [hs]
    exact PhysMap.affine_map k c (fun j i => A i j) nodes (fun i x hx => by rw [hn i x hx, hs]) y
  obtain ⟨q, hq1, hq2⟩ := affine_poly c A p
  refine ⟨q, fun x => by rw [hq2, ht], ?_⟩
  have hfun : PhysMap.transform k nodes = fun y => c + A *ᵥ y := funext ht
  have hd : ∀ x, HasFDerivAt (PhysMap.transform k nodes) A.mulVecLin.toContinuousLinearMap x := by
    intro x
    rw [hfun]
    exact (A.mulVecLin.toContinuousLinearMap.hasFDerivAt (x := x)).const_add c
  have hinj : Function.Injective (PhysMap.transform k nodes) := by
    intro x y hxy
    rw [ht, ht] at hxy
    exact Matrix.mulVec_injective_of_isUnit ((Matrix.isUnit_iff_isUnit_det A).2
      (isUnit_iff_ne_zero.2 hA)) (add_left_cancel hxy)
  obtain ⟨v, hv, hle⟩ := element_integral h hr hg (PhysMap.transform k nodes) (fun _ => A)
    (PhysMap.jacobian k nodes) (fun x _ => hd x)
    (fun s hs => (PhysMap.jacobian_affine k c A nodes hn s.2 (hreg s hs)).2) hinj.injOn
    (fun y => MvPolynomial.eval y p) (MvPolynomial.C |A.det| * q)
    ((MvPolynomial.totalDegree_mul _ _).trans (by simpa using hq1.trans hp))
    (fun x _ => by rw [map_mul, MvPolynomial.eval_C, hq2, ht])
  refine ⟨v, hv, hle.trans ?_⟩
  have hc : coeffSum (MvPolynomial.C |A.det| * q) = |A.det| * coeffSum q := by
    unfold coeffSum
    have hsup : (MvPolynomial.C |A.det| * q).support = q.support := by
      ext m
      simp [MvPolynomial.mem_support_iff, hA]
    rw [hsup, Finset.mul_sum]
    refine Finset.sum_congr rfl fun m _ => ?_
    rw [MvPolynomial.coeff_C_mul, abs_mul, abs_abs]
  rw [hc]
  exact le_of_eq (by ring)

/-- The columns of the affine map onto a triangle. -/
def triangleMatrix (nodes : Nat → Pt 2) : Matrix (Fin 2) (Fin 2) ℝ :=
  Matrix.of fun i j => nodes (j.val + 1) i - nodes 0 i

/-- Every triangle that is not degenerate: the rule answered to a request for order `n` integrates
every polynomial of degree at most `n` over the triangle. -/
theorem triangle_element (nodes : Nat → Pt 2) (hA : (triangleMatrix nodes).det ≠ 0)
    {curve : Option Nat} {n : Nat} {r : Rule 2} (hr : getRule triangleRules curve n = some r)
    (p : MvPolynomial (Fin 2) ℝ) (hp : p.totalDegree ≤ n) :
    ∃ q : MvPolynomial (Fin 2) ℝ,
      (∀ x, MvPolynomial.eval x q =
        MvPolynomial.eval (PhysMap.transform .triangle nodes x) p) ∧
      ∃ v, r.integrateElement true (PhysMap.jacobian .triangle nodes)
          (fun x => MvPolynomial.eval (PhysMap.transform .triangle nodes x) p) = some v ∧
        |v - ∫ y in PhysMap.transform .triangle nodes '' body triangleG, MvPolynomial.eval y p| ≤
          |(triangleMatrix nodes).det| * (1 / 10 ^ 13) * coeffSum q := by
  have hin : r ∈ triangleRules := ((foldl_perm _ []).mem_iff).2
    (by simpa using (getRule_lowest _ curve n r hr).1)
  refine affine_element .triangle (nodes 0) (triangleMatrix nodes) hA nodes ?_
    (by rw [triangle_body]; exact (simplex_compact 2 1).isClosed.measurableSet)
    (requested_order.2.2.2.2.2.1 r hr) (triangle_rules r hin).2 (fun _ _ => trivial) p hp
  intro i x hx
  match i with
  | 0 =>
    obtain rfl : ![(0 : ℝ), 0] = x := by simpa [PhysMap.Kind.nodes, triangleG] using hx
    ext j; rw [Pi.add_apply, Matrix.mulVec, dotProduct, Fin.sum_univ_two]; simp [triangleMatrix]
  | 1 =>
    obtain rfl : ![(1 : ℝ), 0] = x := by simpa [PhysMap.Kind.nodes, triangleG] using hx
    ext j; rw [Pi.add_apply, Matrix.mulVec, dotProduct, Fin.sum_univ_two]; simp [triangleMatrix]
  | 2 =>
    obtain rfl : ![(0 : ℝ), 1] = x := by simpa [PhysMap.Kind.nodes, triangleG] using hx
    ext j; rw [Pi.add_apply, Matrix.mulVec, dotProduct, Fin.sum_univ_two]; simp [triangleMatrix]
  | i + 3 => simp [PhysMap.Kind.nodes, triangleG] at hx

/-- Not vacuous: a triangle that is not the reference triangle. -/
example : (triangleMatrix fun i => if i = 0 then ![1, 1] else if i = 1 then ![3, 2]
    else ![0, 5]).det ≠ 0 := by
  simp [triangleMatrix, Matrix.det_fin_two]
  norm_num

end Verif.Quadrature
