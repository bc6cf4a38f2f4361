import Verif.CurlBasis.LemmasNedelecInd
import Verif.CurlBasis.Spec
import Mathlib.RingTheory.MvPolynomial.EulerIdentity
import Mathlib.RingTheory.MvPolynomial.Homogeneous
import Mathlib.Tactic.Abel

set_option linter.all false
namespace Verif.CurlBasis
open Verif.RefGeometry (Pt tetrahedronG)
open Verif.Basis (bary3)
open MvPolynomial

section span
variable {d : Nat} {F : Type} {eval : F → Pt d → Pt d} {S : List F} {u v : Pt d → Pt d}

theorem inSpan_zero : InSpan eval S (fun _ => 0) := ⟨fun _ => 0, fun p => by simp⟩

theorem inSpan_add (hu : InSpan eval S u) (hv : InSpan eval S v) :
    InSpan eval S (fun p => u p + v p) := by
  obtain ⟨c, hc⟩ := hu
  obtain ⟨e, he⟩ := hv
  refine ⟨fun f => c f + e f, fun p => ?_⟩
  show u p + v p = _
  rw [hc p, he p, ← List.sum_map_add]
  simp only [add_smul]

theorem inSpan_smul (hu : InSpan eval S u) (a : ℝ) : InSpan eval S (fun p => a • u p) := by
  obtain ⟨c, hc⟩ := hu
  refine ⟨fun f => a * c f, fun p => ?_⟩
  show a • u p = _
  rw [hc p, List.smul_sum, List.map_map]
  simp only [Function.comp_def, mul_smul]

theorem inSpan_congr (hu : InSpan eval S u) (h : ∀ p, u p = v p) : InSpan eval S v := by
  obtain rfl : u = v := funext h
  exact hu

theorem inSpan_sub (hu : InSpan eval S u) (hv : InSpan eval S v) :
    InSpan eval S (fun p => u p - v p) :=
  inSpan_congr (inSpan_add hu (inSpan_smul hv (-1))) fun p => by simp [sub_eq_add_neg]

theorem inSpan_sum {ι : Type} (I : Finset ι) (u : ι → Pt d → Pt d)
    (h : ∀ i ∈ I, InSpan eval S (u i)) : InSpan eval S (fun p => ∑ i ∈ I, u i p) := by
  classical
  induction I using Finset.induction_on with
  | empty => simpa using inSpan_zero
  | insert a I ha ih =>
    simp only [Finset.sum_insert ha]
    exact inSpan_add (h a (by simp)) (ih fun i hi => h i (by simp [hi]))

theorem inSpan_mem [DecidableEq F] (hS : S.Nodup) {f : F} (hf : f ∈ S) : InSpan eval S (eval f) := by
  refine ⟨fun g => if g = f then 1 else 0, fun p => ?_⟩
  rw [← List.sum_toFinset _ hS]
  simp only [ite_smul, one_smul, zero_smul]
  rw [Finset.sum_ite_eq' S.toFinset f, if_pos (List.mem_toFinset.mpr hf)]
end span

abbrev Sp (k : Nat) (u : Pt 3 → Pt 3) : Prop := InSpan NedelecFn.eval (nedelec3 k) u

theorem VV_lt {k : Nat} (β : Fin 4 → ℕ) (hβ : ∑ n, β n = k + 1) :
    ∀ (r : ℕ) (i j : Fin 4), i < j → j.val - i.val = r → 0 < β i → 0 < β j →
      Sp k (fun p => VV β i p - VV β j p) := by
  intro r
  induction r using Nat.strong_induction_on with
  | _ r ih =>
    intro i j hij hr hi hj
    by_cases h : ∃ n, i < n ∧ n < j ∧ 0 < β n
    · obtain ⟨n, h1, h2, h3⟩ := h
      have a1 := ih (n.val - i.val) (by omega) i n h1 rfl hi h3
      have a2 := ih (j.val - n.val) (by omega) n j h2 rfl h3 hj
      exact inSpan_congr (inSpan_add a1 a2) fun p => by abel
    · push Not at h
      obtain ⟨f, hf, e1, e2, e3⟩ := exists_fn β hβ i j hij hi hj fun n h1 h2 => by
        have := h n h1 h2; omega
      refine inSpan_congr (inSpan_mem (eval := NedelecFn.eval) (nedelec_nodup k) hf) fun p => ?_
      rw [eval_VV hf, e1, e2, e3]

theorem VV_mem {k : Nat} (β : Fin 4 → ℕ) (hβ : ∑ n, β n = k + 1) (i j : Fin 4) (hi : 0 < β i)
    (hj : 0 < β j) : Sp k (fun p => VV β i p - VV β j p) := by
  rcases lt_trichotomy i j with h | h | h
  · exact VV_lt β hβ _ i j h rfl hi hj
  · subst h; exact inSpan_congr inSpan_zero fun p => by simp
  · exact inSpan_congr (inSpan_smul (VV_lt β hβ _ j i h rfl hj hi) (-1)) fun p => by
      simp

noncomputable def WW (i j : Fin 4) (p : Pt 3) : Pt 3 :=
  bary3 j p • baryGrad i - bary3 i p • baryGrad j

def inc (α : Fin 4 → ℕ) (i : Fin 4) : Fin 4 → ℕ := fun n => α n + if n = i then 1 else 0

theorem mono_inc (α : Fin 4 → ℕ) (i : Fin 4) (p : Pt 3) : mono (inc α i) p = bary3 i p * mono α p := by
  have : dec (inc α i) i = α := by
    funext n; simp [dec, inc]
  rw [← bary_mul_dec (β := inc α i) (i := i) (by simp [inc]), this]

theorem sum_inc (α : Fin 4 → ℕ) (i : Fin 4) : ∑ n, inc α i n = ∑ n, α n + 1 := by
  simp [inc, Finset.sum_add_distrib]

theorem mono_WW {k : Nat} (i j : Fin 4) : ∀ (r : ℕ) (α : Fin 4 → ℕ), ∑ n, α n + r + 1 = k →
    Sp k (fun p => mono α p • WW i j p) := by
  intro r
  induction r with
  | zero =>
    intro α hα
    by_cases hij : i = j
    · subst hij
      exact inSpan_congr inSpan_zero fun p => by simp [WW]
    · have := VV_mem (k := k) (inc (inc α i) j) (by rw [sum_inc, sum_inc]; omega) i j
        (by simp [inc]) (by simp [inc])
      refine inSpan_congr this fun p => ?_
      have e1 : dec (inc (inc α i) j) i = inc α j := by
        funext n; simp only [dec, inc]; split_ifs <;> omega
      have e2 : dec (inc (inc α i) j) j = inc α i := by
        funext n; simp only [dec, inc]; split_ifs <;> omega
      simp only [VV, e1, e2, mono_inc, WW, smul_sub, smul_smul]
      congr 2 <;> ring
  | succ r ih =>
    intro α hα
    have := inSpan_sum Finset.univ (fun n p => mono (inc α n) p • WW i j p) fun n _ =>
      ih (inc α n) (by rw [sum_inc]; omega)
    refine inSpan_congr this fun p => ?_
    rw [← Finset.sum_smul]
    congr 1
    simp only [mono_inc]
    rw [← Finset.sum_mul, bary_sum, one_mul]

theorem grad_zero : ∑ j, baryGrad j = 0 := by
  rw [Fin.sum_univ_four]
  funext k; fin_cases k <;> simp [baryGrad]

theorem mono_grad {k : Nat} (i : Fin 4) (α : Fin 4 → ℕ) (hα : ∑ n, α n + 1 ≤ k) :
    Sp k (fun p => mono α p • baryGrad i) := by
  have := inSpan_sum Finset.univ (fun j p => mono α p • WW i j p) fun j _ =>
    mono_WW (k := k) i j (k - (∑ n, α n + 1)) α (by omega)
  refine inSpan_congr this fun p => ?_
  rw [← Finset.smul_sum]
  congr 1
  simp only [WW, Finset.sum_sub_distrib]
  rw [← Finset.sum_smul, bary_sum, one_smul, ← Finset.smul_sum, grad_zero, smul_zero, sub_zero]

def ex3 (m : Fin 3 →₀ ℕ) : Fin 4 → ℕ := ![0, m 0, m 1, m 2]

theorem eval_monomials (q : MvPolynomial (Fin 3) ℝ) (p : Pt 3) :
    eval p q = ∑ m ∈ q.support, coeff m q * mono (ex3 m) p := by
  rw [MvPolynomial.eval_eq']
  refine Finset.sum_congr rfl fun m _ => ?_
  simp [mono, ex3, Fin.prod_univ_three, Fin.prod_univ_four, bary3]

theorem deg_monomials {q : MvPolynomial (Fin 3) ℝ} {m : Fin 3 →₀ ℕ} (hm : m ∈ q.support) :
    ∑ n, (ex3 m) n ≤ q.totalDegree := by
  have := le_totalDegree hm
  rw [Finsupp.sum_fintype _ _ (by simp), Fin.sum_univ_three] at this
  rw [Fin.sum_univ_four]
  simpa [ex3] using this

theorem poly_grad {k : Nat} (i : Fin 4) (q : MvPolynomial (Fin 3) ℝ) (hq : q.totalDegree + 1 ≤ k) :
    Sp k (fun p => eval p q • baryGrad i) := by
  have := inSpan_sum q.support (fun m p => coeff m q • (mono (ex3 m) p • baryGrad i))
    fun m hm => inSpan_smul (mono_grad (k := k) i (ex3 m)
      (by have := deg_monomials hm; omega)) (coeff m q)
  refine inSpan_congr this fun p => ?_
  rw [eval_monomials, Finset.sum_smul]
  simp only [mul_smul]

theorem poly_WW {k : Nat} (i j : Fin 4) (q : MvPolynomial (Fin 3) ℝ) (hq : q.totalDegree + 1 ≤ k) :
    Sp k (fun p => eval p q • WW i j p) := by
  have := inSpan_sum q.support (fun m p => coeff m q • (mono (ex3 m) p • WW i j p))
    fun m hm => inSpan_smul (mono_WW (k := k) i j (k - (∑ n, (ex3 m) n + 1)) (ex3 m)
      (by have := deg_monomials hm; omega)) (coeff m q)
  refine inSpan_congr this fun p => ?_
  rw [eval_monomials, Finset.sum_smul]
  simp only [mul_smul]

theorem grad_unit (v : Pt 3) : v = ∑ i : Fin 3, v i • baryGrad i.succ := by
  rw [Fin.sum_univ_three]
  funext k; fin_cases k <;> simp [baryGrad]

theorem koszul {k : Nat} (r : Fin 3 → MvPolynomial (Fin 3) ℝ) (hr : ∀ i, (r i).IsHomogeneous k)
    (h : ∑ i, X i * r i = 0) (i : Fin 3) :
    ((k + 1 : ℕ) : MvPolynomial (Fin 3) ℝ) * r i = ∑ j, X j * (pderiv j (r i) - pderiv i (r j)) := by
  have h1 := (hr i).sum_X_mul_pderiv
  have h2 := congrArg (pderiv i) h
  rw [map_sum, map_zero] at h2
  have h3 : ∑ j, pderiv i (X j * r j) = r i + ∑ j, X j * pderiv i (r j) := by
    simp only [Derivation.leibniz, smul_eq_mul, pderiv_X, Finset.sum_add_distrib, Pi.single_apply]
    rw [add_comm]
    congr 1
    simp
  rw [h3] at h2
  simp only [mul_sub, Finset.sum_sub_distrib, h1]
  push_cast
  rw [nsmul_eq_mul]
  linear_combination h2

theorem homog_mem {k : Nat} (hk : 0 < k) (r : Fin 3 → MvPolynomial (Fin 3) ℝ)
    (hr : ∀ i, (r i).IsHomogeneous k) (h : ∑ i, X i * r i = 0) :
    Sp k (fun p i => eval p (r i)) := by
  let Cc (i j : Fin 3) := pderiv j (r i) - pderiv i (r j)
  have hC : ∀ i j, (Cc i j).totalDegree + 1 ≤ k := by
    intro i j
    have : (Cc i j).IsHomogeneous (k - 1) := (hr i).pderiv.sub (hr j).pderiv
    have := this.totalDegree_le
    omega
  have := inSpan_smul (inSpan_sum Finset.univ
    (fun (ij : Fin 3 × Fin 3) p => eval p (Cc ij.1 ij.2) • WW ij.1.succ ij.2.succ p)
    fun ij _ => poly_WW ij.1.succ ij.2.succ _ (hC _ _)) (1 / (2 * ((k + 1 : ℕ) : ℝ)))
  refine inSpan_congr this fun p => ?_
  have hk1 : ((k + 1 : ℕ) : ℝ) ≠ 0 := by positivity
  have hko : ∀ i, eval p (r i) = 1 / ((k + 1 : ℕ) : ℝ) * ∑ j, p j * eval p (Cc i j) := by
    intro i
    have := congrArg (eval p) (koszul r hr h i)
    simp only [map_mul, map_natCast, map_sum, eval_X] at this
    rw [show (∑ j, p j * eval p (Cc i j)) = _ from this.symm]
    field_simp
  have hanti : ∀ i j, eval p (Cc j i) = - eval p (Cc i j) := by
    intro i j; simp [Cc]
  have hb : ∀ i : Fin 3, bary3 i.succ p = p i := by intro i; fin_cases i <;> rfl
  rw [grad_unit (fun i => eval p (r i)), Fintype.sum_prod_type]
  simp only [WW, hb, hko]
  simp only [Fin.sum_univ_three]
  have h00 : eval p (Cc 0 0) = 0 := by have := hanti 0 0; linarith
  have h11 : eval p (Cc 1 1) = 0 := by have := hanti 1 1; linarith
  have h22 : eval p (Cc 2 2) = 0 := by have := hanti 2 2; linarith
  have h10 := hanti 0 1
  have h20 := hanti 0 2
  have h21 := hanti 1 2
  rw [h00, h11, h22, h10, h20, h21]
  generalize eval p (Cc 0 1) = A; generalize eval p (Cc 0 2) = B; generalize eval p (Cc 1 2) = D
  funext n
  fin_cases n <;> simp [baryGrad] <;> field_simp <;> ring

theorem low_degree {k : Nat} (q : MvPolynomial (Fin 3) ℝ) (hq : q.totalDegree ≤ k) (hk : 0 < k) :
    (q - homogeneousComponent k q).totalDegree + 1 ≤ k := by
  suffices (q - homogeneousComponent k q).totalDegree ≤ k - 1 by omega
  refine Finset.sup_le fun m hm => ?_
  rw [mem_support_iff, coeff_sub, coeff_homogeneousComponent] at hm
  have h1 : m.degree ≠ k := by
    intro e; simp [e] at hm
  have h2 : m ∈ q.support := by
    rw [mem_support_iff]; simpa [h1] using hm
  have h3 := le_totalDegree h2
  have h4 : m.degree = m.sum fun _ e => e := rfl
  omega

theorem nedelec_span {k : Nat} (hk : 0 < k) (u : Pt 3 → Pt 3) (hu : NedelecSpace 3 k u) : Sp k u := by
  obtain ⟨q, hq, hd, hx⟩ := hu
  let r i := homogeneousComponent k (q i)
  have hr : ∀ i, (r i).IsHomogeneous k := fun i => homogeneousComponent_isHomogeneous k (q i)
  have hlow : ∀ i, (q i - r i).totalDegree + 1 ≤ k := fun i => low_degree (q i) (hd i) hk
  have hz : ∑ i, X i * r i = 0 := by
    by_contra hne
    have h1 : (∑ i, X i * r i).IsHomogeneous (k + 1) := by
      refine MvPolynomial.IsHomogeneous.sum _ _ _ fun i _ => ?_
      rw [add_comm k 1]
      exact (isHomogeneous_X ℝ i).mul (hr i)
    have h2 := h1.totalDegree hne
    have h3 : (∑ i, X i * r i) = ∑ i, X i * q i - ∑ i, X i * (q i - r i) := by
      rw [← Finset.sum_sub_distrib]
      exact Finset.sum_congr rfl fun i _ => by ring
    have h4 : (∑ i, X i * (q i - r i)).totalDegree ≤ k := by
      refine totalDegree_finsetSum_le fun i _ => ?_
      refine (totalDegree_mul _ _).trans ?_
      rw [totalDegree_X]
      have := hlow i
      omega
    have h5 := totalDegree_sub (∑ i, X i * q i) (∑ i, X i * (q i - r i))
    rw [← h3, h2] at h5
    have := max_le hx h4
    omega
  have a1 := inSpan_sum Finset.univ (fun (i : Fin 3) p => eval p (q i - r i) • baryGrad i.succ)
    fun i _ => poly_grad i.succ _ (hlow i)
  have a2 := homog_mem hk r hr hz
  refine inSpan_congr (inSpan_add a1 a2) fun p => ?_
  rw [← grad_unit (fun i => eval p (q i - r i))]
  funext i
  simp [hq p i]


/-! ### The functions are in the space -/

noncomputable def bp : Fin 4 → MvPolynomial (Fin 3) ℝ
  | 0 => 1 - X 0 - X 1 - X 2
  | 1 => X 0
  | 2 => X 1
  | 3 => X 2

theorem eval_bp (n : Fin 4) (p : Pt 3) : eval p (bp n) = bary3 n p := by
  fin_cases n <;> simp [bp, bary3]

theorem deg_bp (n : Fin 4) : (bp n).totalDegree ≤ 1 := by
  have hX : ∀ i : Fin 3, (X i : MvPolynomial (Fin 3) ℝ).totalDegree ≤ 1 := fun i => by
    rw [totalDegree_X]
  fin_cases n
  · refine (totalDegree_sub _ _).trans (max_le ((totalDegree_sub _ _).trans (max_le
      ((totalDegree_sub _ _).trans (max_le ?_ (hX 0))) (hX 1))) (hX 2))
    simp
  · exact hX 0
  · exact hX 1
  · exact hX 2

noncomputable def mp (α : Fin 4 → ℕ) : MvPolynomial (Fin 3) ℝ := ∏ n, bp n ^ α n

theorem eval_mp (α : Fin 4 → ℕ) (p : Pt 3) : eval p (mp α) = mono α p := by
  simp [mp, mono, map_prod, eval_bp]

theorem deg_mp (α : Fin 4 → ℕ) : (mp α).totalDegree ≤ ∑ n, α n := by
  refine (totalDegree_finset_prod _ _).trans (Finset.sum_le_sum fun n _ => ?_)
  refine (totalDegree_pow _ _).trans ?_
  have := Nat.mul_le_mul_left (α n) (deg_bp n)
  omega

theorem grad_dot (n : Fin 4) (p : Pt 3) :
    ∑ i, p i * baryGrad n i = bary3 n p - if n = 0 then 1 else 0 := by
  rw [Fin.sum_univ_three]
  fin_cases n <;> simp [baryGrad, bary3]
  ring

theorem nedelec_mem_space {k : Nat} {f : NedelecFn} (hf : f ∈ nedelec3 k) :
    NedelecSpace 3 k f.eval := by
  obtain ⟨h1, h2, h3, h4⟩ := beta_pos hf
  have hs := sum_dec h1
  have hd := sum_dec h2
  refine ⟨fun i => C (baryGrad f.src i) * mp (dec f.beta f.src) -
    C (baryGrad f.dst i) * mp (dec f.beta f.dst), ?_, ?_, ?_⟩
  · intro p i
    rw [eval_VV hf]
    simp [VV, eval_mp, mul_comm]
  · intro i
    refine (totalDegree_sub _ _).trans (max_le ?_ ?_)
    · refine (totalDegree_mul _ _).trans ?_
      rw [totalDegree_C]
      have := deg_mp (dec f.beta f.src)
      omega
    · refine (totalDegree_mul _ _).trans ?_
      rw [totalDegree_C]
      have := deg_mp (dec f.beta f.dst)
      omega
  · have e : (∑ i, X i * (C (baryGrad f.src i) * mp (dec f.beta f.src) -
        C (baryGrad f.dst i) * mp (dec f.beta f.dst))) =
        C (if f.dst = 0 then 1 else 0) * mp (dec f.beta f.dst) -
          C (if f.src = 0 then 1 else 0) * mp (dec f.beta f.src) := by
      refine MvPolynomial.funext fun p => ?_
      simp only [map_sum, map_mul, map_sub, eval_X, eval_C, eval_mp]
      have g1 := grad_dot f.src p
      have g2 := grad_dot f.dst p
      have m1 := bary_mul_dec h1 p
      have m2 := bary_mul_dec h2 p
      rw [Fin.sum_univ_three] at g1 g2 ⊢
      linear_combination mono (dec f.beta f.src) p * g1 - mono (dec f.beta f.dst) p * g2 + m1 - m2
    rw [e]
    refine (totalDegree_sub _ _).trans (max_le ?_ ?_)
    · refine (totalDegree_mul _ _).trans ?_
      rw [totalDegree_C]
      have := deg_mp (dec f.beta f.dst)
      omega
    · refine (totalDegree_mul _ _).trans ?_
      rw [totalDegree_C]
      have := deg_mp (dec f.beta f.src)
      omega

theorem space_zero (d k : Nat) : NedelecSpace d k (fun _ => 0) :=
  ⟨fun _ => 0, by simp, by simp, by simp⟩

theorem space_add {d k : Nat} {u v : Pt d → Pt d} (hu : NedelecSpace d k u)
    (hv : NedelecSpace d k v) : NedelecSpace d k (fun p => u p + v p) := by
  obtain ⟨q, h1, h2, h3⟩ := hu
  obtain ⟨r, k1, k2, k3⟩ := hv
  refine ⟨fun i => q i + r i, fun p i => by simp [h1, k1], fun i => ?_, ?_⟩
  · exact (totalDegree_add _ _).trans (max_le (h2 i) (k2 i))
  · simp only [mul_add, Finset.sum_add_distrib]
    exact (totalDegree_add _ _).trans (max_le h3 k3)

theorem space_smul {d k : Nat} {u : Pt d → Pt d} (hu : NedelecSpace d k u) (a : ℝ) :
    NedelecSpace d k (fun p => a • u p) := by
  obtain ⟨q, h1, h2, h3⟩ := hu
  refine ⟨fun i => C a * q i, fun p i => by simp [h1], fun i => ?_, ?_⟩
  · refine (totalDegree_mul _ _).trans ?_
    rw [totalDegree_C]; have := h2 i; omega
  · have : ∑ i, X i * (C a * q i) = C a * ∑ i, X i * q i := by
      rw [Finset.mul_sum]; exact Finset.sum_congr rfl fun i _ => by ring
    rw [this]
    refine (totalDegree_mul _ _).trans ?_
    rw [totalDegree_C]; omega

theorem space_of_span {d k : Nat} {F : Type} {ev : F → Pt d → Pt d} (S : List F)
    (h : ∀ f ∈ S, NedelecSpace d k (ev f)) (c : F → ℝ) :
    NedelecSpace d k (fun p => (S.map fun f => c f • ev f p).sum) := by
  induction S with
  | nil => simpa using space_zero d k
  | cons f S ih =>
    simp only [List.map_cons, List.sum_cons]
    exact space_add (space_smul (h f (by simp)) _) (ih fun g hg => h g (by simp [hg]))

theorem nedelec_span_iff {k : Nat} (hk : 0 < k) (u : Pt 3 → Pt 3) :
    Sp k u ↔ NedelecSpace 3 k u := by
  refine ⟨?_, nedelec_span hk u⟩
  rintro ⟨c, hc⟩
  obtain rfl : u = fun p => ((nedelec3 k).map fun f => c f • f.eval p).sum := funext hc
  exact space_of_span _ (fun f hf => nedelec_mem_space hf) c

/-! ### The number of functions -/

theorem sum_range_sub (n : Nat) : 2 * ((List.range n).map fun l => n - l).sum = n * (n + 1) := by
  induction n with
  | zero => simp
  | succ n ih =>
    have : ((List.range (n + 1)).map fun l => n + 1 - l).sum =
        (n + 1) + ((List.range n).map fun l => n - l).sum := by
      rw [List.range_succ_eq_map, List.map_cons, List.sum_cons, List.map_map]
      simp [Function.comp_def]
    rw [this, mul_add, ih]; ring

theorem sum_range_tri (n : Nat) :
    6 * ((List.range n).map fun l => ((List.range (n - l)).map fun m => n - l - m).sum).sum =
      n * (n + 1) * (n + 2) := by
  induction n with
  | zero => simp
  | succ n ih =>
    have : ((List.range (n + 1)).map fun l => ((List.range (n + 1 - l)).map fun m =>
        n + 1 - l - m).sum).sum = ((List.range (n + 1)).map fun m => n + 1 - m).sum +
        ((List.range n).map fun l => ((List.range (n - l)).map fun m => n - l - m).sum).sum := by
      conv_lhs => rw [List.range_succ_eq_map, List.map_cons, List.sum_cons, List.map_map]
      simp [Function.comp_def]
    have h2 := sum_range_sub (n + 1)
    rw [this, mul_add, ih]
    linarith [h2]

theorem nedelec_length (k : Nat) : 2 * (nedelec3 k).length = k * (k + 2) * (k + 3) := by
  have h1 := sum_range_sub (k - 1)
  have h2 := sum_range_tri (k - 2)
  simp only [nedelec3, List.length_append, List.length_flatMap, List.length_cons, List.length_nil]
  have e2 : ((List.range (k - 2)).map fun l => ((List.range (k - 2 - l)).map fun m =>
      ((List.range (k - 2 - (m + l))).map fun _ => 0 + 1 + 1 + 1).sum).sum).sum =
      3 * ((List.range (k - 2)).map fun l => ((List.range (k - 2 - l)).map fun m =>
        k - 2 - l - m).sum).sum := by
    rw [← List.sum_map_mul_left]
    congr 1
    refine List.map_congr_left fun l _ => ?_
    rw [← List.sum_map_mul_left]
    congr 1
    refine List.map_congr_left fun m _ => ?_
    simp
    omega
  have e1 : ((List.range (k - 1)).map fun l => ((List.range (k - 1 - l)).map fun _ =>
      0 + 1 + 1 + 1 + 1 + 1 + 1 + 1 + 1).sum).sum =
      8 * ((List.range (k - 1)).map fun l => k - 1 - l).sum := by
    rw [← List.sum_map_mul_left]
    congr 1
    refine List.map_congr_left fun l _ => ?_
    simp
    omega
  rw [e1, e2]
  simp
  match k with
  | 0 => simp
  | 1 => simp
  | k + 2 =>
    simp only [show k + 2 - 1 = k + 1 by omega, show k + 2 - 2 = k by omega] at *
    nlinarith [h1, h2]

end Verif.CurlBasis
