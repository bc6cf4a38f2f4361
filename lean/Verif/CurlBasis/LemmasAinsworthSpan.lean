import Verif.CurlBasis.LemmasStage3
import Mathlib.RingTheory.MvPolynomial.Basic
import Mathlib.LinearAlgebra.FiniteDimensional.Lemmas
import Mathlib.LinearAlgebra.Dimension.Constructions

set_option linter.all false
namespace Verif.CurlBasis
open Verif.RefGeometry (Pt tetrahedronG)
open Verif.Basis (bary3)
open Verif.Legendre (legendre legendreDeriv rodrigues)
open MvPolynomial

theorem ainsworth_nodup (k : Nat) : (ainsworth3 k).Nodup := by
  unfold ainsworth3
  rw [filter_two, List.nodup_append', List.nodup_append', List.nodup_append']
  refine ⟨⟨⟨?_, ?_, ?_⟩, ?_, ?_⟩, ?_, ?_⟩
  · rw [List.nodup_flatMap]
    refine ⟨fun l _ => by simp, ?_⟩
    refine List.Nodup.pairwise_of_forall_ne List.nodup_range fun a _ b _ hab => ?_
    simp [Function.onFun, List.disjoint_left, hab]
  · rw [List.nodup_flatMap]
    refine ⟨fun l _ => by simp, ?_⟩
    refine List.Nodup.pairwise_of_forall_ne
      (List.nodup_range.map fun a b h => by simpa using h) fun a _ b _ hab => ?_
    simp [Function.onFun, List.disjoint_left, hab]
  · simp only [List.disjoint_left, List.mem_flatMap, List.mem_range]
    rintro f ⟨m, hm, h⟩ ⟨m', hm', h'⟩
    simp at h h'
    rcases h with rfl | rfl | rfl | rfl | rfl | rfl <;> simp at h'
  · rw [List.nodup_flatMap]
    refine ⟨fun l _ => ?_, ?_⟩
    · rw [List.nodup_flatMap]
      refine ⟨fun l _ => by simp, ?_⟩
      refine List.Nodup.pairwise_of_forall_ne List.nodup_range fun a _ b _ hab => ?_
      simp [Function.onFun, List.disjoint_left, hab]
    · refine List.Nodup.pairwise_of_forall_ne List.nodup_range fun a _ b _ hab => ?_
      simp only [Function.onFun, List.disjoint_left, List.mem_flatMap, List.mem_range]
      rintro f ⟨m, hm, h⟩ ⟨m', hm', h'⟩
      simp at h h'
      rcases h with rfl | rfl | rfl | rfl | rfl | rfl | rfl | rfl | rfl | rfl | rfl | rfl <;> simp_all
  · simp only [List.disjoint_left, List.mem_append, List.mem_flatMap, List.mem_range]
    rintro f h ⟨m', hm', n', hn', h'⟩
    simp at h'
    rcases h with ⟨m, hm, h⟩ | ⟨m, hm, h⟩
    · simp at h
      rcases h with rfl | rfl | rfl | rfl | rfl | rfl <;> simp at h'
    · simp at h
      rcases h with rfl | rfl | rfl | rfl | rfl | rfl | rfl | rfl | rfl | rfl | rfl | rfl <;> simp at h'
  · rw [List.nodup_flatMap]
    refine ⟨fun l _ => ?_, ?_⟩
    · rw [List.nodup_flatMap]
      refine ⟨fun l _ => ?_, ?_⟩
      · rw [List.nodup_flatMap]
        refine ⟨fun l _ => by simp, ?_⟩
        refine List.Nodup.pairwise_of_forall_ne List.nodup_range fun a _ b _ hab => ?_
        simp [Function.onFun, List.disjoint_left, hab]
      · refine List.Nodup.pairwise_of_forall_ne List.nodup_range fun a _ b _ hab => ?_
        simp only [Function.onFun, List.disjoint_left, List.mem_flatMap, List.mem_range]
        rintro f ⟨m, hm, h⟩ ⟨m', hm', h'⟩
        simp at h h'
        rcases h with rfl | rfl | rfl <;> simp_all
    · refine List.Nodup.pairwise_of_forall_ne List.nodup_range fun a _ b _ hab => ?_
      simp only [Function.onFun, List.disjoint_left, List.mem_flatMap, List.mem_range]
      rintro f ⟨m, hm, n, hn, h⟩ ⟨m', hm', n', hn', h'⟩
      simp at h h'
      rcases h with rfl | rfl | rfl <;> simp_all
  · simp only [List.disjoint_left, List.mem_append, List.mem_flatMap, List.mem_range]
    rintro f h ⟨m', hm', n', hn', o', ho', h'⟩
    simp at h'
    rcases h with (⟨m, hm, h⟩ | ⟨m, hm, h⟩) | ⟨m, hm, n, hn, h⟩
    · simp at h
      rcases h with rfl | rfl | rfl | rfl | rfl | rfl <;> simp at h'
    · simp at h
      rcases h with rfl | rfl | rfl | rfl | rfl | rfl | rfl | rfl | rfl | rfl | rfl | rfl <;> simp at h'
    · simp at h
      rcases h with rfl | rfl | rfl | rfl | rfl | rfl | rfl | rfl | rfl | rfl | rfl | rfl <;> simp at h'

theorem ainsworth_length (k : Nat) (hk : 0 < k) :
    2 * (ainsworth3 k).length = (k + 1) * (k + 2) * (k + 3) := by
  have h1 := sum_range_sub (k - 2)
  have h2 := sum_range_tri (k - 3)
  unfold ainsworth3
  rw [filter_two]
  simp only [List.length_append, List.length_flatMap, List.length_cons, List.length_nil, List.map_map]
  have e2 : ((List.range (k - 3)).map fun l => ((List.range (k - 3 - l)).map fun m =>
      ((List.range (k - 3 - (m + l))).map fun _ => 0 + 1 + 1 + 1).sum).sum).sum =
      3 * ((List.range (k - 3)).map fun l => ((List.range (k - 3 - l)).map fun m =>
        k - 3 - l - m).sum).sum := by
    rw [← List.sum_map_mul_left]
    congr 1
    refine List.map_congr_left fun l _ => ?_
    rw [← List.sum_map_mul_left]
    congr 1
    refine List.map_congr_left fun m _ => ?_
    simp
    omega
  have e1 : ((List.range (k - 2)).map fun l => ((List.range (k - 2 - l)).map fun _ =>
      0 + 1 + 1 + 1 + 1 + 1 + 1 + 1 + 1 + 1 + 1 + 1 + 1).sum).sum =
      12 * ((List.range (k - 2)).map fun l => k - 2 - l).sum := by
    rw [← List.sum_map_mul_left]
    congr 1
    refine List.map_congr_left fun l _ => ?_
    simp
    omega
  rw [e1, e2]
  simp [Function.comp_def]
  match k with
  | 1 => simp
  | 2 => simp
  | k + 3 =>
    simp only [show k + 3 - 1 = k + 2 by omega, show k + 3 - 2 = k + 1 by omega,
      show k + 3 - 3 = k by omega] at *
    nlinarith [h1, h2]

/-! ### The functions are polynomials -/

theorem poly_add {d k : Nat} {u v : Pt d → Pt d} (hu : PolySpace d k u) (hv : PolySpace d k v) :
    PolySpace d k (fun p => u p + v p) := by
  obtain ⟨q, h1, h2⟩ := hu
  obtain ⟨r, k1, k2⟩ := hv
  exact ⟨fun i => q i + r i, fun p i => by simp [h1, k1],
    fun i => (totalDegree_add _ _).trans (max_le (h2 i) (k2 i))⟩

theorem poly_smul {d k : Nat} {u : Pt d → Pt d} (hu : PolySpace d k u) (a : ℝ) :
    PolySpace d k (fun p => a • u p) := by
  obtain ⟨q, h1, h2⟩ := hu
  refine ⟨fun i => C a * q i, fun p i => by simp [h1], fun i => ?_⟩
  refine (totalDegree_mul _ _).trans ?_
  rw [totalDegree_C]; have := h2 i; omega

theorem poly_zero (d k : Nat) : PolySpace d k (fun _ => 0) := ⟨fun _ => 0, by simp, by simp⟩

theorem poly_of_span {d k : Nat} {F : Type} {ev : F → Pt d → Pt d} (S : List F)
    (h : ∀ f ∈ S, PolySpace d k (ev f)) (c : F → ℝ) :
    PolySpace d k (fun p => (S.map fun f => c f • ev f p).sum) := by
  induction S with
  | nil => simpa using poly_zero d k
  | cons f S ih =>
    simp only [List.map_cons, List.sum_cons]
    exact poly_add (poly_smul (h f (by simp)) _) (ih fun g hg => h g (by simp [hg]))

/-- `s` is a polynomial of degree at most `k`. -/
def Sc (k : Nat) (s : Pt 3 → ℝ) : Prop :=
  ∃ q : MvPolynomial (Fin 3) ℝ, (∀ p, s p = eval p q) ∧ q.totalDegree ≤ k

theorem sc_mono {k l : Nat} {s : Pt 3 → ℝ} (h : Sc k s) (hkl : k ≤ l) : Sc l s := by
  obtain ⟨q, h1, h2⟩ := h; exact ⟨q, h1, h2.trans hkl⟩

theorem sc_mul {k l : Nat} {s t : Pt 3 → ℝ} (hs : Sc k s) (ht : Sc l t) :
    Sc (k + l) (fun p => s p * t p) := by
  obtain ⟨q, h1, h2⟩ := hs
  obtain ⟨r, k1, k2⟩ := ht
  exact ⟨q * r, fun p => by simp [h1, k1], (totalDegree_mul _ _).trans (Nat.add_le_add h2 k2)⟩

theorem sc_const (a : ℝ) : Sc 0 (fun _ => a) := ⟨C a, fun p => by simp, by simp⟩

theorem sc_bary (n : Fin 4) : Sc 1 (bary3 n) := ⟨bp n, fun p => (eval_bp n p).symm, deg_bp n⟩

theorem sc_legendre (n : Nat) (i j : Fin 4) : Sc n (fun p => legendre n (bary3 i p - bary3 j p)) := by
  refine ⟨Polynomial.aeval (bp i - bp j) (rodrigues n), fun p => ?_, ?_⟩
  · show legendre n (bary3 i p - bary3 j p) = _
    rw [Verif.Legendre.legendre_eq, Polynomial.aeval_eq_sum_range, Polynomial.eval_eq_sum_range]
    simp [eval_bp, smul_eval]
  · rw [Polynomial.aeval_eq_sum_range]
    refine totalDegree_finsetSum_le fun m hm => ?_
    refine (totalDegree_smul_le _ _).trans ((totalDegree_pow _ _).trans ?_)
    have h1 : (bp i - bp j).totalDegree ≤ 1 :=
      (totalDegree_sub _ _).trans (max_le (deg_bp i) (deg_bp j))
    have h2 := Finset.mem_range.mp hm
    rw [(Verif.Legendre.natDegree_rodrigues n).1] at h2
    have := Nat.mul_le_mul_left m h1
    omega

theorem sc_vec {k : Nat} {s : Pt 3 → ℝ} (h : Sc k s) (v : Pt 3) : PolySpace 3 k (fun p => s p • v) := by
  obtain ⟨q, h1, h2⟩ := h
  refine ⟨fun i => C (v i) * q, fun p i => by simp [h1, mul_comm], fun i => ?_⟩
  refine (totalDegree_mul _ _).trans ?_
  rw [totalDegree_C]; omega

theorem poly_congr {d k : Nat} {u v : Pt d → Pt d} (hu : PolySpace d k u) (h : ∀ p, u p = v p) :
    PolySpace d k v := by
  obtain rfl : u = v := funext h
  exact hu

theorem edge_poly (q : Nat) (o i : Fin 4) (k : Nat) (hq : q ≤ k) (hk : 0 < k) :
    PolySpace 3 k (AinsworthFn.edge q o i).eval := by
  match q with
  | 0 =>
    refine poly_congr (poly_add (sc_vec (sc_mono (sc_bary i) hk) (baryGrad o))
      (sc_vec (sc_mono (sc_bary o) hk) (-baryGrad i))) fun p => ?_
    simp [AinsworthFn.eval, sub_eq_add_neg]
  | 1 =>
    refine poly_congr (poly_add (sc_vec (sc_mono (sc_bary i) hk) (baryGrad o))
      (sc_vec (sc_mono (sc_bary o) hk) (baryGrad i))) fun p => ?_
    simp [AinsworthFn.eval]
  | n + 2 =>
    have a1 := sc_mono (sc_mul (sc_mul (sc_const (-((n + 1 : Nat) : ℝ) / ((n + 2 : Nat) : ℝ)))
      (sc_legendre n i o)) (sc_bary i)) (show 0 + n + 1 ≤ k by omega)
    have a2 := sc_mono (sc_mul (sc_mul (sc_const (-((n + 1 : Nat) : ℝ) / ((n + 2 : Nat) : ℝ)))
      (sc_legendre n i o)) (sc_bary o)) (show 0 + n + 1 ≤ k by omega)
    have a3 := sc_mono (sc_mul (sc_mul (sc_const (((2 * (n + 2) - 1 : Nat) : ℝ) / ((n + 2 : Nat) : ℝ)))
      (sc_legendre (n + 1) i o)) (sc_bary i)) (show 0 + (n + 1) + 1 ≤ k by omega)
    have a4 := sc_mono (sc_mul (sc_mul (sc_const (((2 * (n + 2) - 1 : Nat) : ℝ) / ((n + 2 : Nat) : ℝ)))
      (sc_legendre (n + 1) i o)) (sc_bary o)) (show 0 + (n + 1) + 1 ≤ k by omega)
    refine poly_congr (poly_add (poly_add (sc_vec a1 (baryGrad o)) (sc_vec a2 (-baryGrad i)))
      (poly_add (sc_vec a3 (baryGrad o)) (sc_vec a4 (baryGrad i)))) fun p => ?_
    simp only [AinsworthFn.eval]
    module

theorem ainsworth_poly {k : Nat} (hk : 0 < k) {f : AinsworthFn} (hf : f ∈ ainsworth3 k) :
    PolySpace 3 k f.eval := by
  have ef : ∀ q, q < k - 1 → ∀ d c, PolySpace 3 k (AinsworthFn.edgeFace (q + 2) d c).eval :=
    fun q hq d c => sc_vec (sc_mono (sc_mul (sc_mul (sc_bary _) (sc_bary _)) (sc_legendre _ _ _))
      (by omega)) _
  have fa : ∀ l m, l + m < k - 2 → ∀ d s, PolySpace 3 k (AinsworthFn.face l m d s).eval :=
    fun l m h d s => sc_vec (sc_mono (sc_mul (sc_mul (sc_mul (sc_mul (sc_bary _) (sc_bary _))
      (sc_bary _)) (sc_legendre _ _ _)) (sc_legendre _ _ _)) (by omega)) _
  have fi : ∀ l m, l + m < k - 2 → ∀ d, PolySpace 3 k (AinsworthFn.faceInterior l m d).eval :=
    fun l m h d => sc_vec (sc_mono (sc_mul (sc_mul (sc_mul (sc_mul (sc_bary _) (sc_bary _))
      (sc_bary _)) (sc_legendre _ _ _)) (sc_legendre _ _ _)) (by omega)) _
  have ii : ∀ l m n, l + m + n < k - 3 → ∀ d, PolySpace 3 k (AinsworthFn.interior l m n d).eval :=
    fun l m n h d => sc_vec (sc_mono (sc_mul (sc_mul (sc_mul (sc_mul (sc_mul (sc_mul (sc_bary _)
      (sc_bary _)) (sc_bary _)) (sc_bary _)) (sc_legendre _ _ _)) (sc_legendre _ _ _))
      (sc_legendre _ _ _)) (by omega)) _
  rcases ainsworth_forms hf with ⟨q, hq, h⟩ | ⟨q, hq, h⟩ | ⟨l, m, hlm, h⟩ | ⟨l, m, n, hlm, h⟩
  · rcases h with rfl | rfl | rfl | rfl | rfl | rfl <;> exact edge_poly _ _ _ _ (by omega) hk
  · rcases h with rfl | rfl | rfl | rfl | rfl | rfl | rfl | rfl | rfl | rfl | rfl | rfl <;>
      exact ef q hq _ _
  · rcases h with rfl | rfl | rfl | rfl | rfl | rfl | rfl | rfl | rfl | rfl | rfl | rfl <;>
      first | exact fa l m hlm _ _ | exact fi l m hlm _
  · rcases h with rfl | rfl | rfl <;> exact ii l m n hlm _

/-! ### They span the polynomials -/

def degSet (k : Nat) : Set (Fin 3 →₀ ℕ) := {m | m 0 + m 1 + m 2 ≤ k}

theorem mem_degSet {k : Nat} {q : MvPolynomial (Fin 3) ℝ} (h : q.totalDegree ≤ k) :
    q ∈ restrictSupport ℝ (degSet k) := by
  rw [mem_restrictSupport_iff]
  intro m hm
  have := le_totalDegree hm
  rw [Finsupp.sum_fintype _ _ (by simp), Fin.sum_univ_three] at this
  show m 0 + m 1 + m 2 ≤ k
  omega

theorem totalDegree_of_mem {k : Nat} {q : MvPolynomial (Fin 3) ℝ}
    (h : q ∈ restrictSupport ℝ (degSet k)) : q.totalDegree ≤ k := by
  rw [mem_restrictSupport_iff] at h
  refine Finset.sup_le fun m hm => ?_
  rw [Finsupp.sum_fintype _ _ (by simp), Fin.sum_univ_three]
  exact h hm

theorem degSet_sub (k : Nat) : degSet k ⊆
    ((((List.range (k + 1)).flatMap fun i => (List.range (k + 1 - i)).flatMap fun j =>
      (List.range (k + 1 - i - j)).map fun l => (i, j, l)).map
        fun t => Finsupp.equivFunOnFinite.symm ![t.1, t.2.1, t.2.2]).toFinset : Finset (Fin 3 →₀ ℕ)) := by
  intro m hm
  have hm : m 0 + m 1 + m 2 ≤ k := hm
  simp only [List.coe_toFinset, List.mem_map, List.mem_flatMap, List.mem_range]
  refine ⟨(m 0, m 1, m 2), ⟨m 0, by omega, m 1, by omega, m 2, by omega, rfl⟩, ?_⟩
  ext i; fin_cases i <;> rfl

theorem degSet_card (k : Nat) : (degSet k).Finite ∧ 6 * (degSet k).ncard ≤ (k + 1) * (k + 2) * (k + 3) := by
  refine ⟨(Finset.finite_toSet _).subset (degSet_sub k), ?_⟩
  have h1 := Set.ncard_le_ncard (degSet_sub k) (Finset.finite_toSet _)
  rw [Set.ncard_coe_finset] at h1
  have h2 := h1.trans (List.toFinset_card_le _)
  rw [List.length_map, List.length_flatMap] at h2
  simp only [List.length_flatMap, List.length_map, List.length_range] at h2
  have h3 := sum_range_tri (k + 1)
  calc 6 * (degSet k).ncard ≤ _ := Nat.mul_le_mul_left 6 h2
    _ = _ := h3

theorem ainsworth_span {k : Nat} (hk : 0 < k) (u : Pt 3 → Pt 3) (hu : PolySpace 3 k u) :
    InSpan AinsworthFn.eval (ainsworth3 k) u := by
  classical
  let S := ainsworth3 k
  let V := restrictSupport ℝ (degSet k)
  choose! q hq1 hq2 using fun (f : AinsworthFn) (hf : f ∈ S) => ainsworth_poly hk hf
  let v : S.toFinset → (Fin 3 → V) := fun f i =>
    ⟨q f i, mem_degSet (hq2 f (List.mem_toFinset.mp f.2) i)⟩
  have hfin := (degSet_card k).1
  have : Finite (degSet k) := hfin
  let B := basisRestrictSupport ℝ (degSet k)
  have : Module.Finite ℝ V := Module.Finite.of_basis B
  have hrank : Module.finrank ℝ (Fin 3 → V) = 3 * (degSet k).ncard := by
    rw [Module.finrank_pi_fintype, Fin.sum_univ_three, Module.finrank_eq_nat_card_basis B,
      Nat.card_coe_set_eq]
    ring
  have hcomb : ∀ (c : AinsworthFn → ℝ) (p : Pt 3) (i : Fin 3),
      eval p (((∑ f : S.toFinset, c f • v f) i : V) : MvPolynomial (Fin 3) ℝ) =
        (S.map fun f => c f • f.eval p).sum i := by
    intro c p i
    rw [← List.sum_toFinset _ (ainsworth_nodup k)]
    rw [← Finset.sum_coe_sort S.toFinset]
    simp only [Finset.sum_apply, Submodule.coe_sum, map_sum, Pi.smul_apply, Submodule.coe_smul,
      smul_eval, smul_eq_mul]
    refine Finset.sum_congr rfl fun f _ => ?_
    rw [hq1 f (List.mem_toFinset.mp f.2)]
  have hli : LinearIndependent ℝ v := by
    rw [Fintype.linearIndependent_iff]
    intro g hg f
    let c : AinsworthFn → ℝ := fun f => if h : f ∈ S.toFinset then g ⟨f, h⟩ else 0
    have hc : ∀ f : S.toFinset, c f = g f := fun f => by simp only [c]; rw [dif_pos f.2]
    rw [← hc]
    refine ainsworth_ind k c (fun p _ => ?_) f (List.mem_toFinset.mp f.2)
    funext i
    rw [← hcomb]
    simp only [hc]
    rw [hg]
    simp
  have hcard : Fintype.card S.toFinset = Module.finrank ℝ (Fin 3 → V) := by
    have h1 := hli.fintype_card_le_finrank
    have h2 := (degSet_card k).2
    have h3 := ainsworth_length k hk
    have h4 : Fintype.card S.toFinset = S.length := by
      rw [Fintype.card_coe, List.toFinset_card_of_nodup (ainsworth_nodup k)]
    rw [hrank] at h1 ⊢
    have h5 : S.length = (ainsworth3 k).length := rfl
    omega
  have hspan := hli.span_eq_top_of_card_eq_finrank' hcard
  obtain ⟨r, hr1, hr2⟩ := hu
  let w : Fin 3 → V := fun i => ⟨r i, mem_degSet (hr2 i)⟩
  have hw : w ∈ Submodule.span ℝ (Set.range v) := by rw [hspan]; trivial
  rw [Submodule.mem_span_range_iff_exists_fun] at hw
  obtain ⟨g, hg⟩ := hw
  let c : AinsworthFn → ℝ := fun f => if h : f ∈ S.toFinset then g ⟨f, h⟩ else 0
  have hc : ∀ f : S.toFinset, c f = g f := fun f => by simp only [c]; rw [dif_pos f.2]
  refine ⟨c, fun p => ?_⟩
  funext i
  rw [← hcomb]
  simp only [hc]
  rw [hg, hr1]

theorem ainsworth_span_iff {k : Nat} (hk : 0 < k) (u : Pt 3 → Pt 3) :
    InSpan AinsworthFn.eval (ainsworth3 k) u ↔ PolySpace 3 k u := by
  refine ⟨?_, ainsworth_span hk u⟩
  rintro ⟨c, hc⟩
  obtain rfl : u = fun p => ((ainsworth3 k).map fun f => c f • f.eval p).sum := funext hc
  exact poly_of_span _ (fun f hf => ainsworth_poly hk hf) c

end Verif.CurlBasis
