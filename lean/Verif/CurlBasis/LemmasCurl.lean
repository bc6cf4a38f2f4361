import Verif.CurlBasis.Model
import Verif.CurlBasis.Spec
import Verif.Basis.LemmasDeriv
import Verif.Legendre.Lemmas
import Mathlib.Analysis.Calculus.Deriv.Mul
import Mathlib.Analysis.Calculus.Deriv.Pow
import Mathlib.Analysis.Calculus.Deriv.Add
import Mathlib.Analysis.Calculus.Deriv.Comp
import Mathlib.Tactic.FinCases
import Mathlib.Tactic.Ring
import Mathlib.Tactic.FieldSimp

set_option linter.all false
namespace Verif.CurlBasis
open Verif.RefGeometry (Pt)
open Verif.Legendre (legendre legendreDeriv)
open Verif.Basis (bary3 LineFn TriangleFn lineDG triangleDG baryDeriv)

section partials
variable {d : Nat} {f g : Pt d → ℝ} {f' g' p : Pt d}

theorem HasPartials.congr {g : Pt d} (h : HasPartials f g p) (e : g = g') : HasPartials f g' p := e ▸ h

theorem hp_const (c : ℝ) : HasPartials (fun _ => c) 0 p := fun k => hasDerivAt_const _ _

theorem hp_add (hf : HasPartials f f' p) (hg : HasPartials g g' p) :
    HasPartials (fun q => f q + g q) (f' + g') p := fun k => (hf k).fun_add (hg k)

theorem hp_sub (hf : HasPartials f f' p) (hg : HasPartials g g' p) :
    HasPartials (fun q => f q - g q) (f' - g') p := fun k => (hf k).fun_sub (hg k)

theorem hp_mul (hf : HasPartials f f' p) (hg : HasPartials g g' p) :
    HasPartials (fun q => f q * g q) (g p • f' + f p • g') p := by
  intro k
  have := (hf k).fun_mul (hg k)
  simp only [Function.update_eq_self] at this
  refine this.congr_deriv ?_
  simp [mul_comm]

theorem hp_pow (hf : HasPartials f f' p) (n : Nat) :
    HasPartials (fun q => f q ^ n) ((n * f p ^ (n - 1)) • f') p := by
  intro k
  have := (hf k).fun_pow n
  simp only [Function.update_eq_self] at this
  refine this.congr_deriv ?_
  simp

theorem hp_legendre (hf : HasPartials f f' p) (n : Nat) :
    HasPartials (fun q => legendre n (f q)) (legendreDeriv n (f p) • f') p := by
  intro k
  have h1 : HasDerivAt (legendre n) (legendreDeriv n (f p)) (f p) :=
    Verif.Legendre.hasDerivAt_legendre n _
  have h2 := hf k
  have h3 : HasDerivAt (legendre n) (legendreDeriv n (f p)) (f (Function.update p k (p k))) := by
    rwa [Function.update_eq_self]
  exact HasDerivAt.comp (h₂ := legendre n) (h := fun t => f (Function.update p k t)) (p k) h3 h2
end partials

theorem hp_bary (i : Fin 4) (p : Pt 3) : HasPartials (bary3 i) (baryGrad i) p := by
  intro k
  refine (Verif.Basis.bary3_deriv i p k).congr_deriv ?_
  fin_cases i <;> fin_cases k <;> simp [baryDeriv, baryGrad]

theorem isCurl_sub {u v : Pt 3 → Pt 3} {c c' p : Pt 3} (hu : IsCurl u c p) (hv : IsCurl v c' p) :
    IsCurl (fun q => u q - v q) (c - c') p := by
  obtain ⟨J, hJ, h0, h1, h2⟩ := hu
  obtain ⟨K, hK, k0, k1, k2⟩ := hv
  refine ⟨fun i => J i - K i, fun i => hp_sub (hJ i) (hK i), ?_, ?_, ?_⟩ <;>
    simp only [Pi.sub_apply, h0, h1, h2, k0, k1, k2] <;> ring

theorem isCurl_add {u v : Pt 3 → Pt 3} {c c' p : Pt 3} (hu : IsCurl u c p) (hv : IsCurl v c' p) :
    IsCurl (fun q => u q + v q) (c + c') p := by
  obtain ⟨J, hJ, h0, h1, h2⟩ := hu
  obtain ⟨K, hK, k0, k1, k2⟩ := hv
  refine ⟨fun i => J i + K i, fun i => hp_add (hJ i) (hK i), ?_, ?_, ?_⟩ <;>
    simp only [Pi.add_apply, h0, h1, h2, k0, k1, k2] <;> ring

/-- A scalar function times a constant vector. -/
theorem isCurl_smul {s : Pt 3 → ℝ} {s' p : Pt 3} (hs : HasPartials s s' p) (v : Pt 3) :
    IsCurl (fun q => s q • v) (outer s' v) p := by
  refine ⟨fun i => v i • s', fun i => ?_, ?_, ?_, ?_⟩
  · have := hp_mul hs (hp_const (v i))
    refine this.congr ?_
    simp
  all_goals simp [outer]; ring

theorem IsCurl.congr {u v : Pt 3 → Pt 3} {c c' p : Pt 3} (h : IsCurl u c p) (hu : u = v)
    (hc : c = c') : IsCurl v c' p := hu ▸ hc ▸ h

macro "vec3" : tactic => `(tactic| (
  funext k; fin_cases k <;>
    simp [outer] <;> ring))

/-- The Nedelec form: a scalar times `y ∇x - x ∇y` with `x`, `y` barycentric coordinates. -/
theorem isCurl_whitney {s : Pt 3 → ℝ} {s' p : Pt 3} (hs : HasPartials s s' p) (i j : Fin 4) :
    IsCurl (fun q => s q • (bary3 j q • baryGrad i - bary3 i q • baryGrad j))
      (outer s' (bary3 j p • baryGrad i - bary3 i p • baryGrad j) +
        (2 * s p) • outer (baryGrad j) (baryGrad i)) p := by
  have h1 := isCurl_smul (hp_mul hs (hp_bary j p)) (baryGrad i)
  have h2 := isCurl_smul (hp_mul hs (hp_bary i p)) (baryGrad j)
  refine (isCurl_sub h1 h2).congr ?_ ?_
  · funext q; simp only [smul_sub, smul_smul]
  · generalize baryGrad i = u; generalize baryGrad j = v
    vec3

theorem mul_pow_pred (n : Nat) (x : ℝ) : (n : ℝ) * x ^ (n - 1) * x = n * x ^ n := by
  cases n with
  | zero => simp
  | succ n => simp only [Nat.add_sub_cancel]; ring

theorem nedelec_curl (f : NedelecFn) (p : Pt 3) : IsCurl f.eval (f.evalCurl p) p := by
  cases f with
  | edge l m i j =>
    have hs := hp_mul (hp_pow (hp_bary i p) l) (hp_pow (hp_bary j p) m)
    refine (isCurl_whitney hs i j).congr rfl ?_
    have h1 := mul_pow_pred l (bary3 i p)
    have h2 := mul_pow_pred m (bary3 j p)
    simp only [NedelecFn.evalCurl]
    generalize baryGrad i = u at *; generalize baryGrad j = v at *
    generalize bary3 i p = x at *; generalize bary3 j p = y at *
    funext k; fin_cases k <;> simp [outer]
    · linear_combination (v 1 * u 2 - v 2 * u 1) * (y ^ m * h1 + x ^ l * h2)
    · linear_combination (v 2 * u 0 - v 0 * u 2) * (y ^ m * h1 + x ^ l * h2)
    · linear_combination (v 0 * u 1 - v 1 * u 0) * (y ^ m * h1 + x ^ l * h2)
  | face1 l m n d =>
    have key : ∀ a b c : Fin 4,
        IsCurl (fun q => (bary3 a q ^ l * bary3 b q ^ m * bary3 c q ^ (n + 1)) •
          (bary3 b q • baryGrad a - bary3 a q • baryGrad b))
        ((((l + m + 2 : Nat) : ℝ) * bary3 a p ^ l * bary3 b p ^ m * bary3 c p ^ (n + 1)) •
            outer (baryGrad b) (baryGrad a) +
          (((1 + n : Nat) : ℝ) * bary3 a p ^ l * bary3 b p ^ m * bary3 c p ^ n) •
            outer (baryGrad c) (bary3 b p • baryGrad a - bary3 a p • baryGrad b)) p := by
      intro a b c
      have hs := hp_mul (hp_mul (hp_pow (hp_bary a p) l) (hp_pow (hp_bary b p) m))
        (hp_pow (hp_bary c p) (n + 1))
      refine (isCurl_whitney hs a b).congr rfl ?_
      have h1 := mul_pow_pred l (bary3 a p)
      have h2 := mul_pow_pred m (bary3 b p)
      generalize baryGrad a = u at *; generalize baryGrad b = v at *; generalize baryGrad c = w at *
      generalize bary3 a p = x at *; generalize bary3 b p = y at *; generalize bary3 c p = z at *
      funext k; fin_cases k <;> simp [outer]
      · linear_combination (v 1 * u 2 - v 2 * u 1) * z ^ (n + 1) * (y ^ m * h1 + x ^ l * h2)
      · linear_combination (v 2 * u 0 - v 0 * u 2) * z ^ (n + 1) * (y ^ m * h1 + x ^ l * h2)
      · linear_combination (v 0 * u 1 - v 1 * u 0) * z ^ (n + 1) * (y ^ m * h1 + x ^ l * h2)
    exact key _ _ _
  | face2 l m n d =>
    have key : ∀ a b c : Fin 4,
        IsCurl (fun q => (bary3 a q ^ (l + 1) * bary3 b q ^ m * bary3 c q ^ n) •
          (bary3 c q • baryGrad b - bary3 b q • baryGrad c))
        ((((m + n + 2 : Nat) : ℝ) * bary3 a p ^ (l + 1) * bary3 b p ^ m * bary3 c p ^ n) •
            outer (baryGrad c) (baryGrad b) +
          (((1 + l : Nat) : ℝ) * bary3 a p ^ l * bary3 b p ^ m * bary3 c p ^ n) •
            outer (baryGrad a) (bary3 c p • baryGrad b - bary3 b p • baryGrad c)) p := by
      intro a b c
      have hs := hp_mul (hp_mul (hp_pow (hp_bary a p) (l + 1)) (hp_pow (hp_bary b p) m))
        (hp_pow (hp_bary c p) n)
      refine (isCurl_whitney hs b c).congr rfl ?_
      have h1 := mul_pow_pred m (bary3 b p)
      have h2 := mul_pow_pred n (bary3 c p)
      generalize baryGrad a = w at *; generalize baryGrad b = u at *; generalize baryGrad c = v at *
      generalize bary3 a p = z at *; generalize bary3 b p = x at *; generalize bary3 c p = y at *
      funext k; fin_cases k <;> simp [outer]
      · linear_combination (v 1 * u 2 - v 2 * u 1) * z ^ (l + 1) * (y ^ n * h1 + x ^ m * h2)
      · linear_combination (v 2 * u 0 - v 0 * u 2) * z ^ (l + 1) * (y ^ n * h1 + x ^ m * h2)
      · linear_combination (v 0 * u 1 - v 1 * u 0) * z ^ (l + 1) * (y ^ n * h1 + x ^ m * h2)
    exact key _ _ _
  | interior1 l m n o =>
    have hs := hp_mul (hp_mul (hp_mul (hp_pow (hp_bary 0 p) l) (hp_pow (hp_bary 1 p) m))
      (hp_pow (hp_bary 2 p) (n + 1))) (hp_pow (hp_bary 3 p) (o + 1))
    refine (isCurl_whitney hs 0 1).congr rfl ?_
    have h1 := mul_pow_pred l (bary3 0 p)
    have h2 := mul_pow_pred m (bary3 1 p)
    simp only [NedelecFn.evalCurl]
    generalize baryGrad 0 = u at *; generalize baryGrad 1 = v at *
    generalize baryGrad 2 = w at *; generalize baryGrad 3 = w' at *
    generalize bary3 0 p = x at *; generalize bary3 1 p = y at *
    generalize bary3 2 p = z at *; generalize bary3 3 p = z' at *
    funext k; fin_cases k <;> simp [outer]
    · linear_combination (v 1 * u 2 - v 2 * u 1) * z ^ (n + 1) * z' ^ (o + 1) *
        (y ^ m * h1 + x ^ l * h2)
    · linear_combination (v 2 * u 0 - v 0 * u 2) * z ^ (n + 1) * z' ^ (o + 1) *
        (y ^ m * h1 + x ^ l * h2)
    · linear_combination (v 0 * u 1 - v 1 * u 0) * z ^ (n + 1) * z' ^ (o + 1) *
        (y ^ m * h1 + x ^ l * h2)
  | interior2 l m n o =>
    have hs := hp_mul (hp_mul (hp_mul (hp_pow (hp_bary 0 p) (l + 1)) (hp_pow (hp_bary 1 p) m))
      (hp_pow (hp_bary 2 p) n)) (hp_pow (hp_bary 3 p) (o + 1))
    refine (isCurl_whitney hs 1 2).congr rfl ?_
    have h1 := mul_pow_pred m (bary3 1 p)
    have h2 := mul_pow_pred n (bary3 2 p)
    simp only [NedelecFn.evalCurl]
    generalize baryGrad 0 = w at *; generalize baryGrad 1 = u at *
    generalize baryGrad 2 = v at *; generalize baryGrad 3 = w' at *
    generalize bary3 0 p = z at *; generalize bary3 1 p = x at *
    generalize bary3 2 p = y at *; generalize bary3 3 p = z' at *
    funext k; fin_cases k <;> simp [outer]
    · linear_combination (v 1 * u 2 - v 2 * u 1) * z ^ (l + 1) * z' ^ (o + 1) *
        (y ^ n * h1 + x ^ m * h2)
    · linear_combination (v 2 * u 0 - v 0 * u 2) * z ^ (l + 1) * z' ^ (o + 1) *
        (y ^ n * h1 + x ^ m * h2)
    · linear_combination (v 0 * u 1 - v 1 * u 0) * z ^ (l + 1) * z' ^ (o + 1) *
        (y ^ n * h1 + x ^ m * h2)
  | interior3 l m n o =>
    have hs := hp_mul (hp_mul (hp_mul (hp_pow (hp_bary 0 p) (l + 1)) (hp_pow (hp_bary 1 p) (m + 1)))
      (hp_pow (hp_bary 2 p) n)) (hp_pow (hp_bary 3 p) o)
    refine (isCurl_whitney hs 2 3).congr rfl ?_
    have h1 := mul_pow_pred n (bary3 2 p)
    have h2 := mul_pow_pred o (bary3 3 p)
    simp only [NedelecFn.evalCurl]
    generalize baryGrad 0 = w at *; generalize baryGrad 2 = u at *
    generalize baryGrad 3 = v at *; generalize baryGrad 1 = w' at *
    generalize bary3 0 p = z at *; generalize bary3 2 p = x at *
    generalize bary3 3 p = y at *; generalize bary3 1 p = z' at *
    funext k; fin_cases k <;> simp [outer]
    · linear_combination (v 1 * u 2 - v 2 * u 1) * z ^ (l + 1) * z' ^ (m + 1) *
        (y ^ o * h1 + x ^ n * h2)
    · linear_combination (v 2 * u 0 - v 0 * u 2) * z ^ (l + 1) * z' ^ (m + 1) *
        (y ^ o * h1 + x ^ n * h2)
    · linear_combination (v 0 * u 1 - v 1 * u 0) * z ^ (l + 1) * z' ^ (m + 1) *
        (y ^ o * h1 + x ^ n * h2)


/-- A scalar function with partial derivatives along several gradients, times a constant vector. -/
theorem ainsworth_curl (f : AinsworthFn) (p : Pt 3) : IsCurl f.eval (f.evalCurl p) p := by
  cases f with
  | edge deg o i =>
    have hphi0 : IsCurl (fun q => bary3 i q • baryGrad o - bary3 o q • baryGrad i)
        ((2 : ℝ) • outer (baryGrad i) (baryGrad o)) p := by
      refine (isCurl_sub (isCurl_smul (hp_bary i p) (baryGrad o))
        (isCurl_smul (hp_bary o p) (baryGrad i))).congr rfl ?_
      generalize baryGrad i = u; generalize baryGrad o = v
      vec3
    match deg with
    | 0 => exact hphi0
    | 1 =>
      refine (isCurl_add (isCurl_smul (hp_bary i p) (baryGrad o))
        (isCurl_smul (hp_bary o p) (baryGrad i))).congr rfl ?_
      simp only [AinsworthFn.evalCurl]
      generalize baryGrad i = u; generalize baryGrad o = v
      vec3
    | n + 2 =>
      have hs := hp_sub (hp_bary i p) (hp_bary o p)
      have l0 := hp_mul (hp_const (-((n + 1 : Nat) : ℝ) / ((n + 2 : Nat) : ℝ))) (hp_legendre hs n)
      have l1 := hp_mul (hp_const (((2 * (n + 2) - 1 : Nat) : ℝ) / ((n + 2 : Nat) : ℝ)))
        (hp_legendre hs (n + 1))
      have c0 := isCurl_whitney l0 o i
      have c1 := isCurl_add (isCurl_smul (hp_mul l1 (hp_bary i p)) (baryGrad o))
        (isCurl_smul (hp_mul l1 (hp_bary o p)) (baryGrad i))
      refine (isCurl_add c0 c1).congr ?_ ?_
      · funext q
        simp only [AinsworthFn.eval]
        generalize baryGrad i = u; generalize baryGrad o = v
        funext k
        simp
        ring
      · simp only [AinsworthFn.evalCurl]
        clear c0 c1 l0 l1 hs hphi0
        simp only [neg_div]
        generalize ((n + 1 : Nat) : ℝ) / ((n + 2 : Nat) : ℝ) = A at *
        generalize (((2 * (n + 2) - 1 : Nat) : ℝ) / ((n + 2 : Nat) : ℝ)) = B at *
        generalize legendre n _ = P0; generalize legendre (n + 1) _ = P1
        generalize legendreDeriv n _ = D0; generalize legendreDeriv (n + 1) _ = D1
        generalize baryGrad i = u; generalize baryGrad o = v
        generalize bary3 i p = x; generalize bary3 o p = y
        vec3
  | edgeFace deg o c =>
    have key : ∀ a b : Fin 4, IsCurl
        (fun q => (bary3 a q * bary3 b q * legendre (deg - 2) (bary3 b q - bary3 a q)) • baryGrad c)
        ((bary3 b p * legendre (deg - 2) (bary3 b p - bary3 a p) -
          bary3 a p * bary3 b p * legendreDeriv (deg - 2) (bary3 b p - bary3 a p)) •
            outer (baryGrad a) (baryGrad c) +
         (bary3 a p * legendre (deg - 2) (bary3 b p - bary3 a p) +
          bary3 a p * bary3 b p * legendreDeriv (deg - 2) (bary3 b p - bary3 a p)) •
            outer (baryGrad b) (baryGrad c)) p := by
      intro a b
      have hs := hp_mul (hp_mul (hp_bary a p) (hp_bary b p))
        (hp_legendre (hp_sub (hp_bary b p) (hp_bary a p)) (deg - 2))
      refine (isCurl_smul hs (baryGrad c)).congr rfl ?_
      generalize legendre _ _ = P0
      generalize legendreDeriv _ _ = D0
      generalize baryGrad a = u; generalize baryGrad b = v; generalize baryGrad c = w
      vec3
    exact key _ _
  | face l m o s =>
    have key : ∀ (a b c : Fin 4) (w : Pt 3), IsCurl
        (fun q => (bary3 a q * bary3 b q * bary3 c q * legendre l (bary3 b q - bary3 a q) *
          legendre m (bary3 c q - bary3 a q)) • w)
        ((bary3 b p * bary3 c p * legendre l (bary3 b p - bary3 a p) *
            legendre m (bary3 c p - bary3 a p) -
          bary3 a p * bary3 b p * bary3 c p * (legendreDeriv l (bary3 b p - bary3 a p) *
            legendre m (bary3 c p - bary3 a p) + legendre l (bary3 b p - bary3 a p) *
            legendreDeriv m (bary3 c p - bary3 a p))) • outer (baryGrad a) w +
         (bary3 a p * bary3 c p * legendre l (bary3 b p - bary3 a p) *
            legendre m (bary3 c p - bary3 a p) +
          bary3 a p * bary3 b p * bary3 c p * legendreDeriv l (bary3 b p - bary3 a p) *
            legendre m (bary3 c p - bary3 a p)) • outer (baryGrad b) w +
         (bary3 a p * bary3 b p * legendre l (bary3 b p - bary3 a p) *
            legendre m (bary3 c p - bary3 a p) +
          bary3 a p * bary3 b p * bary3 c p * legendre l (bary3 b p - bary3 a p) *
            legendreDeriv m (bary3 c p - bary3 a p)) • outer (baryGrad c) w) p := by
      intro a b c w
      have hs := hp_mul (hp_mul (hp_mul (hp_mul (hp_bary a p) (hp_bary b p)) (hp_bary c p))
        (hp_legendre (hp_sub (hp_bary b p) (hp_bary a p)) l))
        (hp_legendre (hp_sub (hp_bary c p) (hp_bary a p)) m)
      refine (isCurl_smul hs w).congr rfl ?_
      generalize legendre l _ = P0; generalize legendre m _ = P1
      generalize legendreDeriv l _ = D0; generalize legendreDeriv m _ = D1
      generalize baryGrad a = u; generalize baryGrad b = v; generalize baryGrad c = r
      vec3
    exact key _ _ _ _
  | faceInterior l m d =>
    have key : ∀ (a b c : Fin 4) (w : Pt 3), IsCurl
        (fun q => (bary3 a q * bary3 b q * bary3 c q * legendre l (bary3 b q - bary3 a q) *
          legendre m (bary3 c q - bary3 a q)) • w)
        ((bary3 b p * bary3 c p * legendre l (bary3 b p - bary3 a p) *
            legendre m (bary3 c p - bary3 a p) -
          bary3 a p * bary3 b p * bary3 c p * (legendreDeriv l (bary3 b p - bary3 a p) *
            legendre m (bary3 c p - bary3 a p) + legendre l (bary3 b p - bary3 a p) *
            legendreDeriv m (bary3 c p - bary3 a p))) • outer (baryGrad a) w +
         (bary3 a p * bary3 c p * legendre l (bary3 b p - bary3 a p) *
            legendre m (bary3 c p - bary3 a p) +
          bary3 a p * bary3 b p * bary3 c p * legendreDeriv l (bary3 b p - bary3 a p) *
            legendre m (bary3 c p - bary3 a p)) • outer (baryGrad b) w +
         (bary3 a p * bary3 b p * legendre l (bary3 b p - bary3 a p) *
            legendre m (bary3 c p - bary3 a p) +
          bary3 a p * bary3 b p * bary3 c p * legendre l (bary3 b p - bary3 a p) *
            legendreDeriv m (bary3 c p - bary3 a p)) • outer (baryGrad c) w) p := by
      intro a b c w
      have hs := hp_mul (hp_mul (hp_mul (hp_mul (hp_bary a p) (hp_bary b p)) (hp_bary c p))
        (hp_legendre (hp_sub (hp_bary b p) (hp_bary a p)) l))
        (hp_legendre (hp_sub (hp_bary c p) (hp_bary a p)) m)
      refine (isCurl_smul hs w).congr rfl ?_
      generalize legendre l _ = P0; generalize legendre m _ = P1
      generalize legendreDeriv l _ = D0; generalize legendreDeriv m _ = D1
      generalize baryGrad a = u; generalize baryGrad b = v; generalize baryGrad c = r
      vec3
    exact key _ _ _ _
  | interior l m n dir =>
    have hs := hp_mul (hp_mul (hp_mul (hp_mul (hp_mul (hp_mul (hp_bary 0 p) (hp_bary 1 p))
        (hp_bary 2 p)) (hp_bary 3 p))
      (hp_legendre (hp_sub (hp_bary 1 p) (hp_bary 0 p)) l))
      (hp_legendre (hp_sub (hp_bary 2 p) (hp_bary 0 p)) m))
      (hp_legendre (hp_sub (hp_bary 3 p) (hp_bary 0 p)) n)
    refine (isCurl_smul hs (unitVector dir)).congr rfl ?_
    simp only [AinsworthFn.evalCurl]
    generalize legendre l _ = P0; generalize legendre m _ = P1; generalize legendre n _ = P2
    generalize legendreDeriv l _ = D0; generalize legendreDeriv m _ = D1
    generalize legendreDeriv n _ = D2
    generalize unitVector dir = w
    generalize baryGrad 0 = u; generalize baryGrad 1 = v; generalize baryGrad 2 = r
    generalize baryGrad 3 = t
    vec3

theorem hp_coord {d : Nat} (i : Fin d) (p : Pt d) :
    HasPartials (fun q => q i) (fun k => if i = k then 1 else 0) p :=
  fun k => Verif.Basis.upd_any p k i

theorem hp_comp1 {d : Nat} {g : Pt 1 → ℝ} {s : Pt d → ℝ} {s' p : Pt d} {v : ℝ}
    (hs : HasPartials s s' p) (hg : HasDerivAt (fun t => g ![t]) v (s p)) :
    HasPartials (fun q => g ![s q]) (v • s') p := by
  intro k
  have h3 : HasDerivAt (fun t => g ![t]) v (s (Function.update p k (p k))) := by
    rwa [Function.update_eq_self]
  exact HasDerivAt.comp (h₂ := fun t => g ![t]) (h := fun t => s (Function.update p k t)) (p k) h3
    (hs k)

theorem isCurl2_mul {s u v : Pt 2 → ℝ} {s' u' v' p : Pt 2} (hs : HasPartials s s' p)
    (hu : HasPartials u u' p) (hv : HasPartials v v' p) :
    IsCurl2 (fun q => s q • ![u q, v q])
      (s p * (v' 0 - u' 1) + (s' 0 * v p - s' 1 * u p)) p := by
  refine ⟨![u p • s' + s p • u', v p • s' + s p • v'], fun i => ?_, ?_⟩
  · fin_cases i
    · simpa using hp_mul hs hu
    · simpa using hp_mul hs hv
  · simp; ring

theorem IsCurl2.congr {u v : Pt 2 → Pt 2} {c c' : ℝ} {p : Pt 2} (h : IsCurl2 u c p) (hu : u = v)
    (hc : c = c') : IsCurl2 v c' p := hu ▸ hc ▸ h

theorem nedelec2_curl (f : Nedelec2Fn) (p c : Pt 2) (h : f.evalCurl p = some c) :
    IsCurl2 f.eval (c 0) p ∧ c 1 = 0 := by
  have x0 := hp_coord (0 : Fin 2) p
  have x1 := hp_coord (1 : Fin 2) p
  have k1 : HasPartials (fun _ => (1 : ℝ)) 0 p := hp_const 1
  have k0 : HasPartials (fun _ => (0 : ℝ)) 0 p := hp_const 0
  cases f with
  | edge side g =>
    have hg : ∀ v, g.evalDeriv 0 (modulatorCoord side p) = some v →
        HasDerivAt (fun t => g.eval ![t]) v (modulatorCoord side p 0) := by
      intro v hv
      have := Verif.Basis.line_deriv g 0 (modulatorCoord side p) v hv
      refine this.congr_of_eventuallyEq (Filter.Eventually.of_forall fun t => ?_)
      show g.eval _ = g.eval _
      congr 1
      funext k; fin_cases k; simp
    simp only [Nedelec2Fn.evalCurl] at h
    cases hd : g.evalDeriv 0 (modulatorCoord side p) with
    | none => simp [hd] at h
    | some v =>
      have hgv := hg v hd
      clear hg
      rw [hd] at h
      fin_cases side
      · simp at h
        subst h
        refine ⟨(isCurl2_mul (hp_comp1 (g := g.eval) x0 hgv) (hp_sub x1 k1) (hp_sub k0 x0)).congr
          ?_ ?_, rfl⟩
        · funext q; simp [Nedelec2Fn.eval, sideFunction, modulatorCoord]
        · simp [sideFunction, modulatorCoord]; ring
      · simp at h
        subst h
        refine ⟨(isCurl2_mul (hp_comp1 (g := g.eval) x1 hgv) x1 (hp_sub k0 x0)).congr
          ?_ ?_, rfl⟩
        · funext q; simp [Nedelec2Fn.eval, sideFunction, modulatorCoord]
        · simp [sideFunction, modulatorCoord]; ring
      · simp at h
        subst h
        refine ⟨(isCurl2_mul (hp_comp1 (g := g.eval) (hp_sub k1 x1) hgv) x1 (hp_sub k1 x0)).congr
          ?_ ?_, rfl⟩
        · funext q; simp [Nedelec2Fn.eval, sideFunction, modulatorCoord]
        · simp [sideFunction, modulatorCoord]; ring
  | interior type g =>
    simp only [Nedelec2Fn.evalCurl] at h
    cases hd : g.evalDeriv 0 p with
    | none => simp [hd] at h
    | some v =>
      cases hd' : g.evalDeriv 1 p with
      | none => simp [hd, hd'] at h
      | some w =>
        have hgv : HasPartials g.eval ![v, w] p := by
          intro k
          fin_cases k
          · exact Verif.Basis.triangle_deriv g 0 p v hd
          · exact Verif.Basis.triangle_deriv g 1 p w hd'
        fin_cases type
        · simp [hd, hd'] at h
          subst h
          refine ⟨(isCurl2_mul hgv (hp_mul x0 x1) (hp_mul x0 (hp_sub k1 x0))).congr ?_ ?_, rfl⟩
          · funext q; simp [Nedelec2Fn.eval, typePart]
          · simp [typePart]; ring
        · simp [hd, hd'] at h
          subst h
          refine ⟨(isCurl2_mul hgv (hp_mul x1 (hp_sub k1 x1)) (hp_mul x1 x0)).congr ?_ ?_, rfl⟩
          · funext q; simp [Nedelec2Fn.eval, typePart]
          · simp [typePart]; ring

end Verif.CurlBasis
