import Verif.CurlBasis.LemmasNedelec
import Mathlib.Order.Interval.Set.Infinite
import Mathlib.Tactic.Positivity
import Mathlib.Tactic.FieldSimp
import Mathlib.Algebra.BigOperators.Field

set_option linter.all false
namespace Verif.CurlBasis
open Verif.RefGeometry (Pt tetrahedronG)
open Verif.Basis (bary3)
open MvPolynomial

theorem dec_inj {β β' : Fin 4 → ℕ} {i : Fin 4} (h : dec β i = dec β' i) (h1 : 0 < β i)
    (h2 : 0 < β' i) : β = β' := by
  funext n
  have := congrFun h n
  simp only [dec] at this
  by_cases e : n = i
  · subst e; simp at this; omega
  · simpa [e] using this

theorem bary_mul_dec {β : Fin 4 → ℕ} {i : Fin 4} (h : 0 < β i) (p : Pt 3) :
    bary3 i p * mono (dec β i) p = mono β p := by
  simp only [mono]
  rw [← Finset.mul_prod_erase _ _ (Finset.mem_univ i),
    ← Finset.mul_prod_erase Finset.univ (fun n => bary3 n p ^ β n) (Finset.mem_univ i)]
  have e : ∏ n ∈ Finset.univ.erase i, bary3 n p ^ dec β i n =
      ∏ n ∈ Finset.univ.erase i, bary3 n p ^ β n := by
    refine Finset.prod_congr rfl fun n hn => ?_
    have : n ≠ i := Finset.ne_of_mem_erase hn
    simp [dec, this]
  rw [e, ← mul_assoc]
  congr 1
  obtain ⟨m, hm⟩ : ∃ m, β i = m + 1 := ⟨β i - 1, by omega⟩
  simp [dec, hm, pow_succ, mul_comm]

theorem sum_dec {β : Fin 4 → ℕ} {i : Fin 4} (h : 0 < β i) : ∑ n, dec β i n + 1 = ∑ n, β n := by
  rw [← Finset.add_sum_erase _ _ (Finset.mem_univ i),
    ← Finset.add_sum_erase Finset.univ (fun n => β n) (Finset.mem_univ i)]
  have e : ∑ n ∈ Finset.univ.erase i, dec β i n = ∑ n ∈ Finset.univ.erase i, β n := by
    refine Finset.sum_congr rfl fun n hn => ?_
    have : n ≠ i := Finset.ne_of_mem_erase hn
    simp [dec, this]
  rw [e]
  simp [dec]; omega

theorem grad_sum (a : Fin 4 → ℝ) (h : ∑ i, a i • baryGrad i = 0) : ∀ i, a i = a 0 := by
  rw [Fin.sum_univ_four] at h
  have h0 := congrFun h 0
  have h1 := congrFun h 1
  have h2 := congrFun h 2
  simp [baryGrad] at h0 h1 h2
  intro i
  fin_cases i <;> simp <;> linarith

theorem bary_sum (p : Pt 3) : ∑ i, bary3 i p = 1 := by
  rw [Fin.sum_univ_four]; simp only [bary3]; ring

noncomputable def ex (γ : Fin 4 → ℕ) : Fin 4 →₀ ℕ := Finsupp.equivFunOnFinite.symm γ

theorem ex_inj {γ γ' : Fin 4 → ℕ} : ex γ = ex γ' ↔ γ = γ' := by simp [ex]

theorem eval_ex (γ : Fin 4 → ℕ) (x : Fin 4 → ℝ) :
    eval x (monomial (ex γ) (1 : ℝ)) = ∏ n, x n ^ γ n := by
  rw [eval_monomial, Finsupp.prod_fintype _ _ (by simp)]
  simp [ex]

theorem nedelec_ind {k : Nat} (F : Finset NedelecFn) (hF : ∀ f ∈ F, f ∈ nedelec3 k)
    (c : NedelecFn → ℝ)
    (h : ∀ p, tetrahedronG.isInternal p → ∑ f ∈ F, c f • f.eval p = 0) : ∀ f ∈ F, c f = 0 := by
  classical
  -- the coefficient of the gradient of coordinate i
  let s (f : NedelecFn) (i : Fin 4) : ℝ := (if f.src = i then 1 else 0) - (if f.dst = i then 1 else 0)
  have hs0 : ∀ f ∈ F, ∀ i, s f i ≠ 0 → 0 < f.beta i := by
    intro f hf i hi
    have hb := beta_pos (hF f hf)
    by_cases h1 : f.src = i
    · exact h1 ▸ hb.1
    · by_cases h2 : f.dst = i
      · exact h2 ▸ hb.2.1
      · simp [s, h1, h2] at hi
  have hev : ∀ f ∈ F, ∀ p, f.eval p = ∑ i, (s f i * mono (dec f.beta i) p) • baryGrad i := by
    intro f hf p
    rw [eval_VV (hF f hf)]
    simp only [s, sub_mul, sub_smul, Finset.sum_sub_distrib, ite_mul, one_mul, zero_mul, ite_smul,
      zero_smul, Finset.sum_ite_eq, Finset.mem_univ, if_true, VV]
  have hsum : ∀ f ∈ F, ∀ p, ∑ i, bary3 i p * (s f i * mono (dec f.beta i) p) = 0 := by
    intro f hf p
    have : ∀ i, bary3 i p * (s f i * mono (dec f.beta i) p) = s f i * mono f.beta p := by
      intro i
      by_cases hi : s f i = 0
      · simp [hi]
      · rw [← bary_mul_dec (hs0 f hf i hi)]; ring
    rw [Finset.sum_congr rfl fun i _ => this i]
    simp only [s, sub_mul, Finset.sum_sub_distrib, ite_mul, one_mul, zero_mul, Finset.sum_ite_eq,
      Finset.mem_univ, if_true, sub_self]
  let a (i : Fin 4) (p : Pt 3) : ℝ := ∑ f ∈ F, c f * (s f i * mono (dec f.beta i) p)
  have ha : ∀ p, tetrahedronG.isInternal p → ∀ i, a i p = 0 := by
    intro p hp
    have h1 : ∑ i, a i p • baryGrad i = 0 := by
      rw [← h p hp]
      simp only [a, Finset.sum_smul]
      rw [Finset.sum_comm]
      refine Finset.sum_congr rfl fun f hf => ?_
      rw [hev f hf p, Finset.smul_sum]
      simp only [smul_smul]
    have h2 := grad_sum (fun i => a i p) h1
    have h3 : ∑ i, bary3 i p * a i p = 0 := by
      simp only [a, Finset.mul_sum]
      rw [Finset.sum_comm]
      refine Finset.sum_eq_zero fun f hf => ?_
      have := hsum f hf p
      calc _ = c f * ∑ i, bary3 i p * (s f i * mono (dec f.beta i) p) := by
            rw [Finset.mul_sum]; refine Finset.sum_congr rfl fun i _ => by ring
        _ = 0 := by rw [this, mul_zero]
    have h4 : a 0 p = 0 := by
      have : ∑ i, bary3 i p * a i p = (∑ i, bary3 i p) * a 0 p := by
        rw [Finset.sum_mul]
        exact Finset.sum_congr rfl fun i _ => by rw [show a i p = a 0 p from h2 i]
      rw [this, bary_sum, one_mul] at h3
      exact h3
    intro i
    rw [show a i p = a 0 p from h2 i, h4]
  let P (i : Fin 4) : MvPolynomial (Fin 4) ℝ :=
    ∑ f ∈ F, C (c f * s f i) * monomial (ex (dec f.beta i)) 1
  have hP : ∀ i, P i = 0 := by
    intro i
    refine MvPolynomial.funext_set (fun _ => Set.Ioi (0 : ℝ)) (fun _ => Set.Ioi_infinite 0) ?_
    intro x hx
    have hx' : ∀ n, 0 < x n := fun n => hx n (Set.mem_univ n)
    have h0 := hx' 0; have h1 := hx' 1; have h2 := hx' 2; have h3 := hx' 3
    set σ := x 0 + x 1 + x 2 + x 3 with hσ
    have hσp : 0 < σ := by positivity
    let p : Pt 3 := ![x 1 / σ, x 2 / σ, x 3 / σ]
    have hb : ∀ n, x n = σ * bary3 n p := by
      intro n
      fin_cases n <;> simp [bary3, p] <;> field_simp <;> rw [hσ] <;> ring
    have hp : tetrahedronG.isInternal p := by
      have hq : ∀ n, 0 ≤ bary3 n p := by
        intro n
        have := hx' n
        rw [hb n] at this
        exact le_of_lt (pos_of_mul_pos_right this hσp.le)
      have q0 := hq 0; have q1 := hq 1; have q2 := hq 2; have q3 := hq 3
      simp only [bary3] at q0 q1 q2 q3
      refine ⟨?_, ?_, ?_, ?_, ?_, ?_⟩ <;> linarith
    have : eval x (P i) = σ ^ k * a i p := by
      simp only [P, a, map_sum, map_mul, eval_C, Finset.mul_sum]
      refine Finset.sum_congr rfl fun f hf => ?_
      by_cases hi : s f i = 0
      · simp [hi]
      rw [eval_ex]
      have hk : ∑ n, dec f.beta i n = k := by
        have e1 := sum_dec (hs0 f hf i hi)
        have e2 := (beta_pos (hF f hf)).2.2.2
        omega
      have : ∏ n, x n ^ dec f.beta i n = σ ^ k * mono (dec f.beta i) p := by
        rw [← hk, mono, ← Finset.prod_pow_eq_pow_sum, ← Finset.prod_mul_distrib]
        refine Finset.prod_congr rfl fun n _ => ?_
        rw [← mul_pow, ← hb n]
      rw [this]; ring
    rw [this, ha p hp i, mul_zero, map_zero]
  -- comparing coefficients
  have key : ∀ g ∈ F, ∑ f ∈ F, (if f.beta = g.beta then c f * s f g.src else 0) = 0 := by
    intro g hg
    have := congrArg (coeff (ex (dec g.beta g.src))) (hP g.src)
    rw [coeff_sum, coeff_zero] at this
    refine Eq.trans ?_ this
    refine Finset.sum_congr rfl fun f hf => ?_
    rw [coeff_C_mul, coeff_monomial]
    by_cases hi : s f g.src = 0
    · simp [hi]
    by_cases e : f.beta = g.beta
    · simp [e]
    · have : ex (dec f.beta g.src) ≠ ex (dec g.beta g.src) := by
        rw [Ne, ex_inj]
        exact fun h => e (dec_inj h (hs0 f hf _ hi) (beta_pos (hF g hg)).1)
      simp [e, this]
  have fin : ∀ (n : ℕ), ∀ g ∈ F, g.src.val = n → c g = 0 := by
    intro n
    induction n using Nat.strong_induction_on with
    | _ n ih =>
      intro g hg hn
      have := key g hg
      rw [Finset.sum_eq_single_of_mem g hg] at this
      · have hne : g.dst ≠ g.src := (ne_of_lt (beta_pos (hF g hg)).2.2.1).symm
        simpa [s, hne] using this
      · intro f hf hfg
        by_cases e : f.beta = g.beta
        · simp only [e, if_true]
          by_cases h1 : f.src = g.src
          · exfalso
            apply hfg
            rw [← decode_beta (hF f hf), ← decode_beta (hF g hg), e, h1]
          · by_cases h2 : f.dst = g.src
            · have hlt : f.src.val < n := by
                have := (beta_pos (hF f hf)).2.2.1
                rw [h2] at this
                rw [← hn]; exact this
              rw [ih _ hlt f hf rfl, zero_mul]
            · simp [s, h1, h2]
        · simp [e]
  exact fun f hf => fin _ f hf rfl

theorem nedelec_nodup (k : Nat) : (nedelec3 k).Nodup := by
  unfold nedelec3
  rw [List.nodup_append', List.nodup_append']
  refine ⟨⟨?_, ?_, ?_⟩, ?_, ?_⟩
  · rw [List.nodup_flatMap]
    refine ⟨fun l _ => by simp, ?_⟩
    refine List.Nodup.pairwise_of_forall_ne List.nodup_range fun a _ b _ hab => ?_
    simp [Function.onFun, List.disjoint_left, hab]
  · rw [List.nodup_flatMap]
    refine ⟨fun l _ => ?_, ?_⟩
    · rw [List.nodup_flatMap]
      refine ⟨fun l _ => by simp, ?_⟩
      refine List.Nodup.pairwise_of_forall_ne List.nodup_range fun a _ b _ hab => ?_
      simp [Function.onFun, List.disjoint_left, hab]
    · refine List.Nodup.pairwise_of_forall_ne List.nodup_range fun a _ b _ hab => ?_
      simp only [Function.onFun, List.disjoint_left, List.mem_flatMap, List.mem_range]
      rintro f ⟨m, hm, h⟩ ⟨m', hm', h'⟩
      simp at h h'
      rcases h with rfl | rfl | rfl | rfl | rfl | rfl | rfl | rfl <;> simp_all
  · simp only [List.disjoint_left, List.mem_flatMap, List.mem_range]
    rintro f ⟨m, hm, h⟩ ⟨m', hm', n, hn, h'⟩
    simp at h h'
    rcases h with rfl | rfl | rfl | rfl | rfl | rfl <;> simp at h'
  · rw [List.nodup_flatMap]
    refine ⟨fun l _ => ?_, ?_⟩
    · rw [List.nodup_flatMap]
      refine ⟨fun l _ => ?_, ?_⟩
      · rw [List.nodup_flatMap]
        refine ⟨fun l _ => by simp, ?_⟩
        refine List.Nodup.pairwise_of_forall_ne List.nodup_range fun a _ b _ hab => ?_
        simp [Function.onFun, List.disjoint_left, hab]
      · refine List.Nodup.pairwise_of_forall_ne List.nodup_range fun a _ b _ hab => ?_
        simp only [Function.onFun, List.disjoint_left, List.mem_flatMap, List.mem_range]
        rintro f ⟨m, hm, h⟩ ⟨m', hm', h'⟩
        simp at h h'
        rcases h with rfl | rfl | rfl <;> simp_all
    · refine List.Nodup.pairwise_of_forall_ne List.nodup_range fun a _ b _ hab => ?_
      simp only [Function.onFun, List.disjoint_left, List.mem_flatMap, List.mem_range]
      rintro f ⟨m, hm, n, hn, h⟩ ⟨m', hm', n', hn', h'⟩
      simp at h h'
      rcases h with rfl | rfl | rfl <;> simp_all
  · simp only [List.disjoint_left, List.mem_append, List.mem_flatMap, List.mem_range]
    rintro f h ⟨m', hm', n', hn', o', ho', h'⟩
    rcases h with ⟨m, hm, h⟩ | ⟨m, hm, n, hn, h⟩
    · simp at h h'
      rcases h with rfl | rfl | rfl | rfl | rfl | rfl <;> simp at h'
    · simp at h h'
      rcases h with rfl | rfl | rfl | rfl | rfl | rfl | rfl | rfl <;> simp at h'

end Verif.CurlBasis
