import Verif.CurlBasis.LemmasSpan
import Verif.CurlBasis.LemmasCurl

set_option linter.all false
namespace Verif.CurlBasis
open Verif.RefGeometry (Pt tetrahedronG)
open Verif.Basis (bary3)
open Verif.Legendre (legendre legendreDeriv rodrigues)

/-! ### Legendre polynomials are independent -/

theorem legendre_ind (N : Nat) (c : Nat → ℝ)
    (h : ∀ x : ℝ, 0 < x → x < 1 / 4 → ∑ n ∈ Finset.range N, c n * legendre n x = 0) :
    ∀ n < N, c n = 0 := by
  have hP : ∑ n ∈ Finset.range N, Polynomial.C (c n) * rodrigues n = 0 := by
    refine Polynomial.eq_zero_of_infinite_isRoot _ ?_
    refine Set.Infinite.mono ?_ (Set.Ioo_infinite (show (0 : ℝ) < 1 / 4 by norm_num))
    intro x hx
    have := h x hx.1 hx.2
    simp only [Set.mem_ofPred_eq, Polynomial.IsRoot.def, Polynomial.eval_finset_sum,
      Polynomial.eval_mul, Polynomial.eval_C]
    rw [← this]
    exact Finset.sum_congr rfl fun n _ => by rw [Verif.Legendre.legendre_eq]
  clear h
  induction N with
  | zero => intro n hn; omega
  | succ N ih =>
    have hN : c N = 0 := by
      have := congrArg (fun q => Polynomial.coeff q N) hP
      simp only [Polynomial.finset_sum_coeff, Polynomial.coeff_C_mul, Polynomial.coeff_zero] at this
      rw [Finset.sum_range_succ, Finset.sum_eq_zero, zero_add] at this
      · rcases mul_eq_zero.mp this with h | h
        · exact h
        · exact absurd h (ne_of_gt (Verif.Legendre.natDegree_rodrigues N).2)
      · intro n hn
        rw [Polynomial.coeff_eq_zero_of_natDegree_lt, mul_zero]
        rw [(Verif.Legendre.natDegree_rodrigues n).1]
        exact Finset.mem_range.mp hn
    intro n hn
    rcases Nat.lt_succ_iff_lt_or_eq.mp hn with h | h
    · refine ih ?_ n h
      rw [Finset.sum_range_succ, hN] at hP
      simpa using hP
    · rw [h, hN]

theorem legendre_ind2 (N : Nat) (c : Nat → Nat → ℝ)
    (h : ∀ x y : ℝ, 0 < x → x < 1 / 4 → 0 < y → y < 1 / 4 →
      ∑ l ∈ Finset.range N, ∑ m ∈ Finset.range (N - l), c l m * (legendre l x * legendre m y) = 0) :
    ∀ l m, l + m < N → c l m = 0 := by
  intro l m hlm
  refine legendre_ind (N - l) (c l) (fun y h1 h2 => ?_) m (by omega)
  refine legendre_ind N (fun l => ∑ m ∈ Finset.range (N - l), c l m * legendre m y) (fun x h3 h4 => ?_)
    l (by omega)
  rw [← h x y h3 h4 h1 h2]
  refine Finset.sum_congr rfl fun l _ => ?_
  rw [Finset.sum_mul]
  exact Finset.sum_congr rfl fun m _ => by ring

theorem legendre_ind3 (N : Nat) (c : Nat → Nat → Nat → ℝ)
    (h : ∀ x y z : ℝ, 0 < x → x < 1 / 4 → 0 < y → y < 1 / 4 → 0 < z → z < 1 / 4 →
      ∑ l ∈ Finset.range N, ∑ m ∈ Finset.range (N - l), ∑ n ∈ Finset.range (N - (m + l)),
        c l m n * (legendre l x * legendre m y * legendre n z) = 0) :
    ∀ l m n, l + m + n < N → c l m n = 0 := by
  intro l m n hlm
  refine legendre_ind (N - (m + l)) (c l m) (fun z h1 h2 => ?_) n (by omega)
  refine legendre_ind2 N
    (fun l m => ∑ n ∈ Finset.range (N - (m + l)), c l m n * legendre n z) (fun x y h3 h4 h5 h6 => ?_)
    l m (by omega)
  rw [← h x y z h3 h4 h5 h6 h1 h2]
  refine Finset.sum_congr rfl fun l _ => Finset.sum_congr rfl fun m _ => ?_
  rw [Finset.sum_mul]
  exact Finset.sum_congr rfl fun n _ => by ring

/-! ### Sums over the set -/

theorem list_sum_range {M : Type} [AddCommMonoid M] (n : Nat) (g : Nat → M) :
    ((List.range n).map g).sum = ∑ i ∈ Finset.range n, g i := by
  induction n with
  | zero => simp
  | succ n ih => rw [List.range_succ, List.map_append, List.sum_append, ih, Finset.sum_range_succ]; simp

theorem list_sum_flatMap {α β M : Type} [AddCommMonoid M] (L : List α) (k : α → List β) (g : β → M) :
    ((L.flatMap k).map g).sum = (L.map fun a => ((k a).map g).sum).sum := by
  induction L with
  | nil => simp
  | cons a L ih => simp [ih]

theorem filter_two (n : Nat) : (List.range (n + 1)).filter (2 ≤ ·) = (List.range (n - 1)).map (· + 2) := by
  induction n with
  | zero => decide
  | succ n ih =>
    rw [List.range_succ, List.filter_append, ih]
    match n with
    | 0 => decide
    | n + 1 =>
      simp [List.range_succ]

variable {M : Type} [AddCommMonoid M]

def edgeSum (order : Nat) (g : AinsworthFn → M) : M :=
  ∑ q ∈ Finset.range (order + 1), (g (.edge q 0 1) + (g (.edge q 0 2) + (g (.edge q 0 3) +
    (g (.edge q 2 3) + (g (.edge q 1 3) + g (.edge q 1 2))))))

def edgeFaceSum (order : Nat) (g : AinsworthFn → M) : M :=
  ∑ q ∈ Finset.range (order - 1), (g (.edgeFace (q + 2) 3 0) + (g (.edgeFace (q + 2) 3 1) +
    (g (.edgeFace (q + 2) 3 2) + (g (.edgeFace (q + 2) 2 0) + (g (.edgeFace (q + 2) 2 1) +
    (g (.edgeFace (q + 2) 2 3) + (g (.edgeFace (q + 2) 1 0) + (g (.edgeFace (q + 2) 1 2) +
    (g (.edgeFace (q + 2) 1 3) + (g (.edgeFace (q + 2) 0 1) + (g (.edgeFace (q + 2) 0 2) +
    g (.edgeFace (q + 2) 0 3))))))))))))

def faceSum (order : Nat) (g : AinsworthFn → M) : M :=
  ∑ l ∈ Finset.range (order - 2), ∑ m ∈ Finset.range (order - 2 - l),
    (g (.face l m 3 false) + (g (.face l m 3 true) + (g (.face l m 2 false) + (g (.face l m 2 true) +
    (g (.face l m 1 false) + (g (.face l m 1 true) + (g (.face l m 0 false) + (g (.face l m 0 true) +
    (g (.faceInterior l m 3) + (g (.faceInterior l m 2) + (g (.faceInterior l m 1) +
    g (.faceInterior l m 0))))))))))))

def interiorSum (order : Nat) (g : AinsworthFn → M) : M :=
  ∑ l ∈ Finset.range (order - 3), ∑ m ∈ Finset.range (order - 3 - l),
    ∑ n ∈ Finset.range (order - 3 - (m + l)),
      (g (.interior l m n 0) + (g (.interior l m n 1) + g (.interior l m n 2)))

theorem ainsworth_sum (order : Nat) (g : AinsworthFn → M) :
    ((ainsworth3 order).map g).sum =
      edgeSum order g + edgeFaceSum order g + faceSum order g + interiorSum order g := by
  unfold ainsworth3 edgeSum edgeFaceSum faceSum interiorSum
  rw [filter_two]
  simp only [List.map_append, List.sum_append, list_sum_flatMap, List.map_map, list_sum_range,
    List.map_cons, List.map_nil, List.sum_cons, List.sum_nil, Function.comp_def, add_zero]

/-! ### Values on edges and faces -/

def dot (u v : Pt 3) : ℝ := u 0 * v 0 + u 1 * v 1 + u 2 * v 2

theorem dot_add (u v t : Pt 3) : dot (u + v) t = dot u t + dot v t := by simp [dot]; ring
theorem dot_smul (a : ℝ) (u t : Pt 3) : dot (a • u) t = a * dot u t := by simp [dot]; ring
theorem dot_zero (t : Pt 3) : dot 0 t = 0 := by simp [dot]
theorem dot_sub (u v t : Pt 3) : dot (u - v) t = dot u t - dot v t := by simp [dot]; ring

/-- The functional `u ↦ u · t` is additive. -/
def dotHom (t : Pt 3) : Pt 3 →+ ℝ where
  toFun u := dot u t
  map_zero' := dot_zero t
  map_add' u v := dot_add u v t

theorem edge_zero (q : Nat) (o i : Fin 4) (p t : Pt 3)
    (h1 : bary3 i p * dot (baryGrad o) t = 0) (h2 : bary3 o p * dot (baryGrad i) t = 0) :
    dot ((AinsworthFn.edge q o i).eval p) t = 0 := by
  match q with
  | 0 => simp [AinsworthFn.eval, dot_add, dot_sub, dot_smul, h1, h2]
  | 1 => simp [AinsworthFn.eval, dot_add, dot_sub, dot_smul, h1, h2]
  | n + 2 => simp [AinsworthFn.eval, dot_add, dot_sub, dot_smul, h1, h2]

theorem edge_value (q : Nat) (o i : Fin 4) (p t : Pt 3) (h : bary3 o p + bary3 i p = 1)
    (h1 : dot (baryGrad o) t = -1) (h2 : dot (baryGrad i) t = 1) :
    dot ((AinsworthFn.edge q o i).eval p) t = -legendre q (bary3 i p - bary3 o p) := by
  match q with
  | 0 =>
    simp [AinsworthFn.eval, dot_add, dot_sub, dot_smul, h1, h2, legendre]; linarith
  | 1 => simp [AinsworthFn.eval, dot_add, dot_sub, dot_smul, h1, h2, legendre]; ring
  | n + 2 =>
    simp only [AinsworthFn.eval, dot_add, dot_sub, dot_smul, h1, h2, legendre]
    have e : ((2 * (n + 2) - 1 : Nat) : ℝ) = 2 * ((n + 2 : Nat) : ℝ) - 1 := by
      rw [Nat.cast_sub (by omega)]; push_cast; ring
    have e2 : ((n + 1 : Nat) : ℝ) = ((n + 2 : Nat) : ℝ) - 1 := by push_cast; ring
    rw [e, e2]
    have hn : ((n + 2 : Nat) : ℝ) ≠ 0 := by positivity
    generalize ((n + 2 : Nat) : ℝ) = N at *
    generalize legendre (n + 1) _ = P1
    generalize hP0 : legendre n _ = P0
    have hi : bary3 i p = 1 - bary3 o p := by linarith
    rw [hi]
    field_simp
    ring

end Verif.CurlBasis
