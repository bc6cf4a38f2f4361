import Verif.MaxLocal.Spec
import Mathlib.Tactic.Ring
import Mathlib.Tactic.Abel
import Mathlib.Tactic.LinearCombination
import Mathlib.Tactic.FinCases
import Mathlib.Algebra.BigOperators.Ring.Finset
import Mathlib.Algebra.BigOperators.Ring.List

/-! # Local integrals: lemmas -/
set_option linter.all false

namespace Verif.MaxLocal

open scoped ComplexConjugate

variable {d nL nR n : Nat}

theorem dot_cast (a : Fin d → ℂ) (r : Fin d → ℝ) : dot a (cast r) = bil a (cast r) := by
  unfold dot bil cast
  simp

theorem applyCurl_add (T : Tensor) (a b : Fin d → ℂ) : T.applyCurl (a + b) = T.applyCurl a + T.applyCurl b := by
  rcases d with _ | _ | _ | _ | d <;> cases T <;> funext i <;> simp [Tensor.applyCurl] <;> (try fin_cases i) <;> simp [add_div]

theorem applyCurl_smul (T : Tensor) (c : ℂ) (a : Fin d → ℂ) : T.applyCurl (c • a) = c • T.applyCurl a := by
  rcases d with _ | _ | _ | _ | d <;> cases T <;> funext i <;> simp [Tensor.applyCurl] <;> (try fin_cases i) <;> simp [mul_div_assoc]

/-- `applyCurl` as a linear map. -/
noncomputable def curlMap (T : Tensor) : (Fin d → ℂ) →ₗ[ℂ] (Fin d → ℂ) where
  toFun := T.applyCurl
  map_add' := applyCurl_add T
  map_smul' := applyCurl_smul T

theorem applyDiv_add (T : Tensor) (a b : Fin d → ℂ) : T.applyDiv (a + b) = T.applyDiv a + T.applyDiv b := by
  cases T <;> funext i <;> simp [Tensor.applyDiv, add_mul]

theorem applyDiv_smul (T : Tensor) (c : ℂ) (a : Fin d → ℂ) : T.applyDiv (c • a) = c • T.applyDiv a := by
  cases T <;> funext i <;> simp [Tensor.applyDiv, mul_assoc]

/-- `applyDiv` as a linear map. -/
noncomputable def divMap (T : Tensor) : (Fin d → ℂ) →ₗ[ℂ] (Fin d → ℂ) where
  toFun := T.applyDiv
  map_add' := applyDiv_add T
  map_smul' := applyDiv_smul T

theorem cross_add (n a b : Fin d → ℂ) : cross n (a + b) = cross n a + cross n b := by
  rcases d with _ | _ | _ | _ | d <;> funext i <;> simp [cross] <;> (try fin_cases i) <;> simp <;> ring

theorem cross_smul (n : Fin d → ℂ) (c : ℂ) (a : Fin d → ℂ) : cross n (c • a) = c • cross n a := by
  rcases d with _ | _ | _ | _ | d <;> funext i <;> simp [cross] <;> (try fin_cases i) <;> simp <;> ring

/-- The cross product with a fixed vector as a linear map. -/
noncomputable def crossMap (n : Fin d → ℂ) : (Fin d → ℂ) →ₗ[ℂ] (Fin d → ℂ) where
  toFun := cross n
  map_add' := cross_add n
  map_smul' := cross_smul n

theorem cross_anticomm (a b : Fin d → ℂ) : cross a b = -cross b a := by
  rcases d with _ | _ | _ | _ | d <;> funext i <;> simp [cross] <;> (try fin_cases i) <;> simp <;> ring

theorem cross_cast (a b : Fin d → ℝ) : cast (cross a b) = cross (cast a) (cast b) := by
  rcases d with _ | _ | _ | _ | d <;> funext i <;> simp [cross, cast] <;> (try fin_cases i) <;> simp

theorem bil_add_left (a b c : Fin d → ℂ) : bil (a + b) c = bil a c + bil b c := by
  simp [bil, add_mul, Finset.sum_add_distrib]

theorem bil_add_right (a b c : Fin d → ℂ) : bil a (b + c) = bil a b + bil a c := by
  simp [bil, mul_add, Finset.sum_add_distrib]

theorem bil_sub_left (a b c : Fin d → ℂ) : bil (a - b) c = bil a c - bil b c := by
  simp [bil, sub_mul, Finset.sum_sub_distrib]

theorem bil_sub_right (a b c : Fin d → ℂ) : bil a (b - c) = bil a b - bil a c := by
  simp [bil, mul_sub, Finset.sum_sub_distrib]

theorem bil_smul_left (x : ℂ) (a c : Fin d → ℂ) : bil (x • a) c = x * bil a c := by
  simp [bil, Finset.mul_sum, mul_assoc]

theorem bil_smul_right (x : ℂ) (a c : Fin d → ℂ) : bil a (x • c) = x * bil a c := by
  simp only [bil, Finset.mul_sum, Pi.smul_apply, smul_eq_mul]
  exact Finset.sum_congr rfl fun i _ => by ring

theorem bil_neg_left (a c : Fin d → ℂ) : bil (-a) c = -bil a c := by simp [bil]
theorem bil_neg_right (a c : Fin d → ℂ) : bil a (-c) = -bil a c := by simp [bil]
theorem bil_zero_left (c : Fin d → ℂ) : bil 0 c = 0 := by simp [bil]
theorem bil_zero_right (c : Fin d → ℂ) : bil c 0 = 0 := by simp [bil]

theorem bil_sum_left {ι : Type} (t : Finset ι) (u : ι → ℂ) (a : ι → Fin d → ℂ) (c : Fin d → ℂ) : bil (∑ i ∈ t, u i • a i) c = ∑ i ∈ t, bil (a i) c * u i := by
  classical
  induction t using Finset.induction_on with
  | empty => simp [bil_zero_left]
  | insert i t hi ih => rw [Finset.sum_insert hi, Finset.sum_insert hi, bil_add_left, bil_smul_left, ih, mul_comm]

theorem bil_sum_right {ι : Type} (t : Finset ι) (u : ι → ℂ) (a : ι → Fin d → ℂ) (c : Fin d → ℂ) : bil c (∑ i ∈ t, u i • a i) = ∑ i ∈ t, u i * bil c (a i) := by
  classical
  induction t using Finset.induction_on with
  | empty => simp [bil_zero_right]
  | insert i t hi ih => rw [Finset.sum_insert hi, Finset.sum_insert hi, bil_add_right, bil_smul_right, ih]

theorem bil_sum {ι κ : Type} [Fintype ι] [Fintype κ] (u : ι → ℂ) (v : κ → ℂ) (a : ι → Fin d → ℂ) (b : κ → Fin d → ℂ) :
    bil (∑ i, u i • a i) (∑ j, v j • b j) = ∑ j, v j * ∑ i, bil (a i) (b j) * u i := by
  rw [bil_sum_right]
  exact Finset.sum_congr rfl fun j _ => by rw [bil_sum_left]

/-- The product with an integrated matrix is the sum of products over the points. -/
theorem quad_mulVec {ι α : Type} [Fintype ι] (l : List α) (w : α → ℂ) (f : α → ι → ι → ℂ) (u v : ι → ℂ) :
    v ⬝ᵥ ((Matrix.of fun j i => (l.map fun q => w q * f q j i).sum : Matrix ι ι ℂ).mulVec u) =
    (l.map fun q => w q * ∑ j, v j * ∑ i, f q j i * u i).sum := by
  simp only [Matrix.mulVec, dotProduct, Matrix.of_apply]
  induction l with
  | nil => simp
  | cons q l ih =>
    simp only [List.map_cons, List.sum_cons, ← ih, add_mul, Finset.sum_add_distrib, mul_add]
    congr 1
    simp only [Finset.mul_sum]
    exact Finset.sum_congr rfl fun j _ => Finset.sum_congr rfl fun i _ => by ring

/-- The same for an integrated vector. -/
theorem quad_dot {ι α : Type} [Fintype ι] (l : List α) (w : α → ℂ) (f : α → ι → ℂ) (v : ι → ℂ) :
    v ⬝ᵥ (fun j => (l.map fun q => w q * f q j).sum) = (l.map fun q => w q * ∑ j, v j * f q j).sum := by
  simp only [dotProduct]
  induction l with
  | nil => simp
  | cons q l ih =>
    simp only [List.map_cons, List.sum_cons, ← ih, Finset.sum_add_distrib, mul_add]
    congr 1
    simp only [Finset.mul_sum]
    exact Finset.sum_congr rfl fun j _ => by ring

theorem dot_adjoint_curl (a : Fin d → ℂ) (T : Tensor) (c : Fin d → ℝ) :
    dot a (T.adjoint.applyCurl (cast c)) = bil a (T.applyCurl (cast c)) := by
  rcases d with _ | _ | _ | _ | d <;> cases T <;> simp [dot, bil, Tensor.applyCurl, Tensor.adjoint, cast, Fin.sum_univ_succ]

theorem sum_cast_value {ι : Type} [Fintype ι] (u : ι → ℂ) (x : ι → Fin d → ℝ) : (fun k => ∑ i, u i * (x i k : ℂ)) = ∑ i, u i • cast (x i) := by
  funext k; simp [cast]

theorem sum_map_sub {α : Type} (l : List α) (f g : α → ℂ) : (l.map f).sum - (l.map g).sum = (l.map fun q => f q - g q).sum := by
  induction l with
  | nil => simp
  | cons q l ih => simp only [List.map_cons, List.sum_cons, ← ih]; ring

/-! ## Discrete fields -/

theorem map_sum_smul {ι : Type} [Fintype ι] (L : (Fin d → ℂ) →ₗ[ℂ] (Fin d → ℂ)) (u : ι → ℂ) (a : ι → Fin d → ℂ) : L (∑ i, u i • a i) = ∑ i, u i • L (a i) := by
  rw [map_sum]; exact Finset.sum_congr rfl fun i _ => by rw [map_smul]

/-- The jump of a discrete field on an internal face. -/
theorem jump_eq (q : FacePoint d nL nR) (u : Fin nL → ℂ) (u' : Fin nR → ℂ) :
    q.jump (q.left u) (q.right u') = ∑ i, (Sum.elim u u' i) • cast (q.normalCross i) := by
  rw [FacePoint.jump, Fintype.sum_sum_type]
  simp only [FacePoint.left, FacePoint.right, sum_cast_value, Sum.elim_inl, Sum.elim_inr]
  have h1 := map_sum_smul (crossMap q.outward) u fun i => cast (q.value (.inl i))
  have h2 := map_sum_smul (crossMap q.outward) u' fun i => cast (q.value (.inr i))
  simp only [crossMap, LinearMap.coe_mk, AddHom.coe_mk] at h1 h2
  rw [h1, h2, sub_eq_add_neg, ← Finset.sum_neg_distrib]
  congr 1
  · refine Finset.sum_congr rfl fun i _ => ?_
    simp only [FacePoint.normalCross]
    rw [cross_cast]; rfl
  · refine Finset.sum_congr rfl fun i _ => ?_
    have : cast (q.normalCross (.inr i)) = -cast (cross q.normal (q.value (.inr i))) := by
      funext k; simp [cast, FacePoint.normalCross]
    rw [this, cross_cast, smul_neg]; rfl

/-- The average of a discrete field on an internal face. -/
theorem average_eq (q : FacePoint d nL nR) (u : Fin nL → ℂ) (u' : Fin nR → ℂ) :
    q.average (q.left u) (q.right u') = (1 / 2 : ℂ) • ∑ i, (Sum.elim u u' i) • (q.mu i).applyCurl (cast (q.curl i)) := by
  rw [FacePoint.average, Fintype.sum_sum_type]
  simp only [FacePoint.left, FacePoint.right, sum_cast_value, Sum.elim_inl, Sum.elim_inr, FacePoint.mu]
  have h1 := map_sum_smul (curlMap q.muL) u fun i => cast (q.curl (.inl i))
  have h2 := map_sum_smul (curlMap q.muR) u' fun i => cast (q.curl (.inr i))
  simp only [curlMap, LinearMap.coe_mk, AddHom.coe_mk] at h1 h2
  rw [h1, h2]

/-- The same on the boundary. -/
theorem tangent_eq (q : FacePoint d nL 0) (u : Fin nL → ℂ) :
    cross q.outward (q.left u).value = ∑ i, (Sum.elim u Fin.elim0 i) • cast (q.normalCross i) := by
  rw [Fintype.sum_sum_type]
  simp only [FacePoint.left, sum_cast_value, Sum.elim_inl]
  have h1 := map_sum_smul (crossMap q.outward) u fun i => cast (q.value (.inl i))
  simp only [crossMap, LinearMap.coe_mk, AddHom.coe_mk] at h1
  rw [h1]
  simp only [Finset.univ_eq_empty, Finset.sum_empty, add_zero]
  refine Finset.sum_congr rfl fun i _ => ?_
  simp only [FacePoint.normalCross]
  rw [cross_cast]; rfl

theorem curlLeft_eq (q : FacePoint d nL 0) (u : Fin nL → ℂ) :
    q.muL.applyCurl (q.left u).curl = ∑ i, (Sum.elim u Fin.elim0 i) • (q.mu i).applyCurl (cast (q.curl i)) := by
  rw [Fintype.sum_sum_type]
  simp only [FacePoint.left, sum_cast_value, Sum.elim_inl]
  have h1 := map_sum_smul (curlMap q.muL) u fun i => cast (q.curl (.inl i))
  simp only [curlMap, LinearMap.coe_mk, AddHom.coe_mk] at h1
  rw [h1]
  simp only [Finset.univ_eq_empty, Finset.sum_empty, add_zero]
  exact Finset.sum_congr rfl fun i _ => rfl

theorem mu_boundary (q : FacePoint d nL 0) (j : Fin nL ⊕ Fin 0) : q.mu j = q.muL := by
  rcases j with j | j
  · rfl
  · exact j.elim0

/-- An entry of the integrand with bilinear products. -/
theorem entry_eq (q : FacePoint d nL nR) (internal : Bool) (s : ℝ) (j i : Fin nL ⊕ Fin nR) :
    q.entry internal s j i = -(if internal then 1 / 2 else 1) * (bil ((q.mu i).applyCurl (cast (q.curl i))) (cast (q.normalCross j)) +
      bil (cast (q.normalCross i)) ((q.mu j).applyCurl (cast (q.curl j)))) + (s : ℂ) * bil (cast (q.normalCross i)) (cast (q.normalCross j)) := by
  simp only [FacePoint.entry, dot_cast]
  rw [dot_adjoint_curl]

/-- The sum over entries. -/
theorem entry_sum (q : FacePoint d nL nR) (internal : Bool) (s : ℝ) (u v : Fin nL ⊕ Fin nR → ℂ) :
    ∑ j, v j * ∑ i, q.entry internal s j i * u i =
    -(if internal then 1 / 2 else 1) * (bil (∑ i, u i • (q.mu i).applyCurl (cast (q.curl i))) (∑ j, v j • cast (q.normalCross j)) +
      bil (∑ i, u i • cast (q.normalCross i)) (∑ j, v j • (q.mu j).applyCurl (cast (q.curl j)))) +
      (s : ℂ) * bil (∑ i, u i • cast (q.normalCross i)) (∑ j, v j • cast (q.normalCross j)) := by
  simp only [bil_sum, entry_eq, add_mul, mul_add, Finset.sum_add_distrib, Finset.mul_sum]
  congr 1
  · congr 1 <;> exact Finset.sum_congr rfl fun j _ => Finset.sum_congr rfl fun i _ => by ring
  · exact Finset.sum_congr rfl fun j _ => Finset.sum_congr rfl fun i _ => by ring

/-! ## Errors -/

theorem interior_sub (q : FacePoint d nL nR) (s : ℝ) (uL uR eL eR vL vR : Field d) :
    q.interior s (uL.sub eL) (uR.sub eR) vL vR = q.interior s uL uR vL vR - q.interior s eL eR vL vR := by
  have h1 : q.jump (uL.sub eL) (uR.sub eR) = q.jump uL uR - q.jump eL eR := by
    simp only [FacePoint.jump, Field.sub]
    have := (crossMap q.outward).map_sub uL.value eL.value
    have h' := (crossMap q.outward).map_sub uR.value eR.value
    simp only [crossMap, LinearMap.coe_mk, AddHom.coe_mk] at this h'
    rw [this, h']; abel
  have h2 : q.average (uL.sub eL) (uR.sub eR) = q.average uL uR - q.average eL eR := by
    simp only [FacePoint.average, Field.sub]
    have := (curlMap q.muL).map_sub uL.curl eL.curl
    have h' := (curlMap q.muR).map_sub uR.curl eR.curl
    simp only [curlMap, LinearMap.coe_mk, AddHom.coe_mk] at this h'
    rw [this, h', ← smul_sub]; congr 1; abel
  simp only [FacePoint.interior, h1, h2, bil_sub_left]
  ring

theorem boundary_sub (q : FacePoint d nL nR) (bc : BC) (s omega z : ℝ) (u e v : Field d) :
    q.boundary bc s omega z (u.sub e) v = q.boundary bc s omega z u v - q.boundary bc s omega z e v := by
  have h1 := (crossMap q.outward).map_sub u.value e.value
  have h2 := (curlMap q.muL).map_sub u.curl e.curl
  simp only [crossMap, curlMap, LinearMap.coe_mk, AddHom.coe_mk] at h1 h2
  cases bc <;> simp only [FacePoint.boundary, Field.sub, h1, h2, bil_sub_left] <;> ring

end Verif.MaxLocal
