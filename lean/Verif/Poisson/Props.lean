import Verif.Poisson.Lemmas
import Mathlib.Analysis.SpecialFunctions.Trigonometric.Deriv
import Mathlib.LinearAlgebra.FiniteDimensional.Basic
import Mathlib.LinearAlgebra.FiniteDimensional.Lemmas
import Mathlib.Tactic.FieldSimp
import Mathlib.Tactic.FinCases
import Mathlib.Tactic.IntervalCases
import Mathlib.Tactic.Positivity

/-!
# Properties of the Poisson programs
-/

namespace Verif.Poisson

open DgMesh Spec

variable {d : ℕ} {E F G : Type}

section

variable [Fintype E] [Fintype F] [Fintype G] [DecidableEq E]

/-- **C146, the system is symmetric.** -/
theorem symmetric (P fac : ℝ) {m : Mesh (d + 1) E F G} (hf : Faces m) (V U : Vec E) :
    pair m V (multiply m (integrands P fac) U) = pair m U (multiply m (integrands P fac) V) := by
  classical
  rw [pair_stiffness P fac hf, pair_stiffness P fac hf]
  congr 1
  · congr 1
    · exact Finset.sum_congr rfl fun e _ => Finset.sum_congr rfl fun q _ => by
        congr 1
        exact Finset.sum_congr rfl fun k _ => mul_comm _ _
    · exact Finset.sum_congr rfl fun f _ => Finset.sum_congr rfl fun q _ => by ring
  · refine Finset.sum_congr rfl fun g _ => Finset.sum_congr rfl fun q _ => ?_
    split_ifs <;> ring

omit [Fintype F] [Fintype G] in
theorem pair_ext {m : Mesh d E F G} {R R' : Vec E} (h : ∀ V, pair m V R = pair m V R') {e : E}
    {j : ℕ} (hj : j < m.nb e) : R e j = R' e j := by
  have key : ∀ R : Vec E, pair m (fun e' j' => if e' = e ∧ j' = j then 1 else 0) R = R e j := by
    intro R
    unfold pair
    rw [Finset.sum_eq_single e]
    · rw [Finset.sum_eq_single j]
      · simp
      · intro b _ hb; simp [hb]
      · intro hn; exact absurd (Finset.mem_range.mpr hj) hn
    · intro b _ hb; simp [hb]
    · simp
  rw [← key R, ← key R', h]

omit [Fintype F] [Fintype G] [DecidableEq E] in
theorem pair_source (m : Mesh d E F G) (f : (Fin d → ℝ) → ℝ) (V : Vec E) :
    pair m V (source m f) = ∑ e, ∑ q, (m.elem e q).weight *
      (value (m.nb e) (m.elem e q).toTrace (V e) * f (m.elem e q).position) := by
  unfold pair source value
  refine Finset.sum_congr rfl fun e _ => ?_
  simp only [Finset.mul_sum, Finset.sum_mul]
  rw [Finset.sum_comm]
  exact Finset.sum_congr rfl fun q _ => Finset.sum_congr rfl fun i _ => by ring

theorem solves_pair {m : Mesh (d + 1) E F G} {P fac : ℝ} {f : (Fin (d + 1) → ℝ) → ℝ}
    {U : Vec E} (h : Solves m P fac f U) (V : Vec E) :
    pair m V (multiply m (integrands P fac) U) = -pair m V (source m f) := by
  unfold pair
  rw [← Finset.sum_neg_distrib]
  refine Finset.sum_congr rfl fun e _ => ?_
  rw [← Finset.sum_neg_distrib]
  refine Finset.sum_congr rfl fun i hi => ?_
  rw [← h e i (Finset.mem_range.mp hi)]
  ring

/-- **C146, consistency.**  If the solution of `Δu = f`, with `u = 0` at the fixed
boundary and no normal derivative at the rest, is in the space, it solves the system
of the program. -/
theorem consistent {m : Mesh (d + 1) E F G} (hf : Faces m) (P fac : ℝ)
    {f : (Fin (d + 1) → ℝ) → ℝ} {U : Vec E} {lap : (e : E) → Fin (m.elemPoints e) → ℝ}
    (hG : Green m U lap) (hl : ∀ e q, lap e q = f (m.elem e q).position)
    (hj : ∀ f q, jump m U f q = 0) (hs : ∀ f q, slopeLeft m U f q = slopeRight m U f q)
    (hD : ∀ g q, Fixed (m.boundary g q).position → trace m U g q = 0)
    (hN : ∀ g q, ¬ Fixed (m.boundary g q).position → slope m U g q = 0) :
    Solves m P fac f U := by
  classical
  have key : ∀ V, pair m V (multiply m (integrands P fac) U) =
      pair m V (fun e j => -source m f e j) := by
    intro V
    have hneg : pair m V (fun e j => -source m f e j) = -pair m V (source m f) := by
      unfold pair
      simp only [mul_neg, Finset.sum_neg_distrib]
    rw [hneg, pair_source, pair_stiffness P fac hf]
    have e := hG V
    simp only [mul_add, Finset.sum_add_distrib, hl] at e
    have e1 : ∀ f (q : Fin (m.innerPoints f)), (m.inner f q).weight *
        (-((slopeLeft m U f q + slopeRight m U f q) / 2 * jump m V f q +
          (slopeLeft m V f q + slopeRight m V f q) / 2 * jump m U f q) +
          P * (jump m U f q * jump m V f q)) =
        -((m.inner f q).weight *
      (slopeLeft m U f q * value (m.nb (m.left f)) (m.inner f q).left (V (m.left f)) -
        slopeRight m U f q * value (m.nb (m.right f)) (m.inner f q).right (V (m.right f)))) := by
      intro f q
      rw [hj f q, hs f q]
      unfold jump
      ring
    have e2 : ∀ g (q : Fin (m.boundaryPoints g)), (m.boundary g q).weight *
        (if Fixed (m.boundary g q).position then
        -(slope m U g q * trace m V g q + slope m V g q * trace m U g q) +
          P * fac * (trace m U g q * trace m V g q) else 0) =
        -((m.boundary g q).weight * (slope m U g q * trace m V g q)) := by
      intro g q
      split_ifs with h
      · rw [hD g q h]; ring
      · rw [hN g q h]; ring
    rw [Finset.sum_congr rfl fun f _ => Finset.sum_congr rfl fun q _ => e1 f q,
      Finset.sum_congr rfl fun g _ => Finset.sum_congr rfl fun q _ => e2 g q]
    simp only [Finset.sum_neg_distrib]
    linear_combination e
  intro e j hj'
  rw [pair_ext key hj']
  ring

omit [Fintype F] [Fintype G] [DecidableEq E] in
theorem dirichlet_nonneg {m : Mesh (d + 1) E F G} (hw : ∀ e q, 0 ≤ (m.elem e q).weight)
    (U : Vec E) : 0 ≤ dirichlet m U :=
  Finset.sum_nonneg fun e _ => Finset.sum_nonneg fun q _ =>
    mul_nonneg (hw e q) (Finset.sum_nonneg fun _ _ => sq_nonneg _)

omit [Fintype E] [DecidableEq E] in
theorem gaps_nonneg {m : Mesh (d + 1) E F G} (hf : Faces m) (U : Vec E) : 0 ≤ gaps m U := by
  classical
  unfold gaps
  refine add_nonneg (Finset.sum_nonneg fun f _ => Finset.sum_nonneg fun q _ =>
    mul_nonneg (hf.1 f q).2 (sq_nonneg _)) (Finset.sum_nonneg fun g _ =>
    Finset.sum_nonneg fun q _ => mul_nonneg (hf.2 g q).2 ?_)
  split_ifs <;> positivity

omit [Fintype E] [DecidableEq E] in
theorem gaps_zero {m : Mesh (d + 1) E F G} (hf : Faces m) {U : Vec E} (h : gaps m U = 0) :
    (∀ f q, (m.inner f q).weight * jump m U f q ^ 2 = 0) ∧
    ∀ g q, Fixed (m.boundary g q).position →
      (m.boundary g q).weight * trace m U g q ^ 2 = 0 := by
  classical
  unfold gaps at h
  have a0 : ∀ f (q : Fin (m.innerPoints f)), 0 ≤ (m.inner f q).weight * jump m U f q ^ 2 :=
    fun f q => mul_nonneg (hf.1 f q).2 (sq_nonneg _)
  have b0 : ∀ g (q : Fin (m.boundaryPoints g)), 0 ≤ (m.boundary g q).weight *
      if Fixed (m.boundary g q).position then trace m U g q ^ 2 else 0 := fun g q =>
    mul_nonneg (hf.2 g q).2 (by split_ifs <;> positivity)
  have sa := Finset.sum_nonneg fun f (_ : f ∈ Finset.univ) =>
    Finset.sum_nonneg fun q (_ : q ∈ Finset.univ) => a0 f q
  have sb := Finset.sum_nonneg fun g (_ : g ∈ Finset.univ) =>
    Finset.sum_nonneg fun q (_ : q ∈ Finset.univ) => b0 g q
  have ha := (add_eq_zero_iff_of_nonneg sa sb).mp h
  refine ⟨fun f q => ?_, fun g q hg => ?_⟩
  · have h1 := (Finset.sum_eq_zero_iff_of_nonneg fun f _ =>
      Finset.sum_nonneg fun q _ => a0 f q).mp ha.1 f (Finset.mem_univ _)
    exact (Finset.sum_eq_zero_iff_of_nonneg fun q _ => a0 f q).mp h1 q (Finset.mem_univ _)
  · have h1 := (Finset.sum_eq_zero_iff_of_nonneg fun g _ =>
      Finset.sum_nonneg fun q _ => b0 g q).mp ha.2 g (Finset.mem_univ _)
    have h2 := (Finset.sum_eq_zero_iff_of_nonneg fun q _ => b0 g q).mp h1 q (Finset.mem_univ _)
    rwa [if_pos hg] at h2

/-- **C147, stability.**  If the penalty is above the constant of the trace
inequality, the matrix is bounded below by the gradient, the jumps and the values at
the fixed boundary. -/
theorem coercive {m : Mesh (d + 1) E F G} (hf : Faces m) {P fac C : ℝ} (hC : 0 ≤ C)
    (hP : C < P) (hPf : C < P * fac) (hT : TraceBound m C)
    (hw : ∀ e q, 0 ≤ (m.elem e q).weight) :
    ∃ c : ℝ, 0 < c ∧ ∀ U, c * (dirichlet m U + gaps m U) ≤
      pair m U (multiply m (integrands P fac) U) := by
  classical
  set M := min P (P * fac) with hM
  have hCM : C < M := lt_min hP hPf
  set κ := (C + M) / 2 with hκ
  have hκC : C < κ := by rw [hκ]; linarith
  have hκM : κ < M := by rw [hκ]; linarith
  have hκ0 : 0 < κ := lt_of_le_of_lt hC hκC
  have main : ∀ U, (1 - C / κ) * dirichlet m U + (M - κ) * gaps m U ≤
      pair m U (multiply m (integrands P fac) U) := by
    intro U
    rw [pair_stiffness P fac hf]
    have hd : ∑ e, ∑ q, (m.elem e q).weight *
        ∑ k, gradient (m.nb e) (m.elem e q).toTrace (U e) k *
          gradient (m.nb e) (m.elem e q).toTrace (U e) k = dirichlet m U := by
      unfold dirichlet
      simp only [pow_two]
    rw [hd]
    have young : ∀ s j p : ℝ, M ≤ p →
        -(1 / κ) * s ^ 2 + (M - κ) * j ^ 2 ≤ -(s * j + s * j) + p * (j * j) := by
      intro s j p hp
      have h1 : 0 ≤ (1 / κ) * (s - κ * j) ^ 2 := by positivity
      have h2 : (1 / κ) * (s - κ * j) ^ 2 = (1 / κ) * s ^ 2 - 2 * (s * j) + κ * j ^ 2 := by
        field_simp
        ring
      have h3 : 0 ≤ (p - M) * j ^ 2 := mul_nonneg (by linarith) (sq_nonneg j)
      nlinarith [h1, h2, h3]
    have hI : ∀ f (q : Fin (m.innerPoints f)), (m.inner f q).weight *
        (-(1 / κ) * ((slopeLeft m U f q + slopeRight m U f q) / 2) ^ 2 +
          (M - κ) * jump m U f q ^ 2) ≤ (m.inner f q).weight *
        (-((slopeLeft m U f q + slopeRight m U f q) / 2 * jump m U f q +
          (slopeLeft m U f q + slopeRight m U f q) / 2 * jump m U f q) +
          P * (jump m U f q * jump m U f q)) := fun f q =>
      mul_le_mul_of_nonneg_left (young _ _ _ (min_le_left _ _)) (hf.1 f q).2
    have hB : ∀ g (q : Fin (m.boundaryPoints g)), (m.boundary g q).weight *
        (-(1 / κ) * (if Fixed (m.boundary g q).position then slope m U g q ^ 2 else 0) +
          (M - κ) * if Fixed (m.boundary g q).position then trace m U g q ^ 2 else 0) ≤
        (m.boundary g q).weight * (if Fixed (m.boundary g q).position then
        -(slope m U g q * trace m U g q + slope m U g q * trace m U g q) +
          P * fac * (trace m U g q * trace m U g q) else 0) := by
      intro g q
      refine mul_le_mul_of_nonneg_left ?_ (hf.2 g q).2
      split_ifs with h
      · exact young _ _ _ (min_le_right _ _)
      · simp
    have sI := Finset.sum_le_sum fun f (_ : f ∈ Finset.univ) =>
      Finset.sum_le_sum fun q (_ : q ∈ Finset.univ) => hI f q
    have sB := Finset.sum_le_sum fun g (_ : g ∈ Finset.univ) =>
      Finset.sum_le_sum fun q (_ : q ∈ Finset.univ) => hB g q
    have eI : ∑ f, ∑ q, (m.inner f q).weight *
        (-(1 / κ) * ((slopeLeft m U f q + slopeRight m U f q) / 2) ^ 2 +
          (M - κ) * jump m U f q ^ 2) =
        -(1 / κ) * (∑ f, ∑ q, (m.inner f q).weight *
          ((slopeLeft m U f q + slopeRight m U f q) / 2) ^ 2) +
        (M - κ) * ∑ f, ∑ q, (m.inner f q).weight * jump m U f q ^ 2 := by
      simp only [Finset.mul_sum, ← Finset.sum_add_distrib]
      exact Finset.sum_congr rfl fun f _ => Finset.sum_congr rfl fun q _ => by ring
    have eB : ∑ g, ∑ q, (m.boundary g q).weight *
        (-(1 / κ) * (if Fixed (m.boundary g q).position then slope m U g q ^ 2 else 0) +
          (M - κ) * if Fixed (m.boundary g q).position then trace m U g q ^ 2 else 0) =
        -(1 / κ) * (∑ g, ∑ q, (m.boundary g q).weight *
          if Fixed (m.boundary g q).position then slope m U g q ^ 2 else 0) +
        (M - κ) * ∑ g, ∑ q, (m.boundary g q).weight *
          if Fixed (m.boundary g q).position then trace m U g q ^ 2 else 0 := by
      simp only [Finset.mul_sum, ← Finset.sum_add_distrib]
      exact Finset.sum_congr rfl fun f _ => Finset.sum_congr rfl fun q _ => by ring
    rw [eI] at sI
    rw [eB] at sB
    have hT' := mul_le_mul_of_nonneg_left (hT U) (show 0 ≤ 1 / κ by positivity)
    have : 1 / κ * (C * dirichlet m U) = C / κ * dirichlet m U := by ring
    unfold gaps
    linarith
  have hk : 0 < 1 - C / κ := by
    rw [sub_pos, div_lt_one hκ0]; exact hκC
  have gap0 := gaps_nonneg hf
  have dir0 := dirichlet_nonneg hw
  refine ⟨min (1 - C / κ) (M - κ), lt_min hk (by linarith), fun U => le_trans ?_ (main U)⟩
  have h1 := mul_le_mul_of_nonneg_right (min_le_left (1 - C / κ) (M - κ)) (dir0 U)
  have h2 := mul_le_mul_of_nonneg_right (min_le_right (1 - C / κ) (M - κ)) (gap0 U)
  linarith

/-- `multiply` is linear. -/
theorem multiply_linear (m : Mesh d E F G) (K : Integrands d) (c : ℝ) (U U' : Vec E) (e : E)
    (j : ℕ) : multiply m K (fun e i => c * U e i + U' e i) e j =
      c * multiply m K U e j + multiply m K U' e j := by
  have ht : ∀ (n : ℕ) (a : ℕ → ℕ → ℝ) (u u' : ℕ → ℝ),
      times n a (fun i => c * u i + u' i) j = c * times n a u j + times n a u' j := by
    intro n a u u'
    unfold times
    rw [Finset.mul_sum, ← Finset.sum_add_distrib]
    exact Finset.sum_congr rfl fun i _ => by ring
  unfold multiply
  simp only [ht]
  have h1 : ∀ f, ((if m.left f = e then
        (c * times (m.nb (m.left f)) (innerMatrix m K f .left .left) (U (m.left f)) j +
          times (m.nb (m.left f)) (innerMatrix m K f .left .left) (U' (m.left f)) j) +
        (c * times (m.nb (m.right f)) (innerMatrix m K f .left .right) (U (m.right f)) j +
          times (m.nb (m.right f)) (innerMatrix m K f .left .right) (U' (m.right f)) j) else 0) +
      if m.right f = e then
        (c * times (m.nb (m.left f)) (innerMatrix m K f .right .left) (U (m.left f)) j +
          times (m.nb (m.left f)) (innerMatrix m K f .right .left) (U' (m.left f)) j) +
        (c * times (m.nb (m.right f)) (innerMatrix m K f .right .right) (U (m.right f)) j +
          times (m.nb (m.right f)) (innerMatrix m K f .right .right) (U' (m.right f)) j)
      else 0) =
      c * ((if m.left f = e then
        times (m.nb (m.left f)) (innerMatrix m K f .left .left) (U (m.left f)) j +
        times (m.nb (m.right f)) (innerMatrix m K f .left .right) (U (m.right f)) j else 0) +
      if m.right f = e then
        times (m.nb (m.left f)) (innerMatrix m K f .right .left) (U (m.left f)) j +
        times (m.nb (m.right f)) (innerMatrix m K f .right .right) (U (m.right f)) j else 0) +
      ((if m.left f = e then
        times (m.nb (m.left f)) (innerMatrix m K f .left .left) (U' (m.left f)) j +
        times (m.nb (m.right f)) (innerMatrix m K f .left .right) (U' (m.right f)) j else 0) +
      if m.right f = e then
        times (m.nb (m.left f)) (innerMatrix m K f .right .left) (U' (m.left f)) j +
        times (m.nb (m.right f)) (innerMatrix m K f .right .right) (U' (m.right f)) j
      else 0) := by
    intro f
    split_ifs <;> ring
  have h2 : ∀ g, (if m.inside g = e then
        c * times (m.nb (m.inside g)) (boundaryMatrix m K g) (U (m.inside g)) j +
        times (m.nb (m.inside g)) (boundaryMatrix m K g) (U' (m.inside g)) j else 0) =
      c * (if m.inside g = e then
        times (m.nb (m.inside g)) (boundaryMatrix m K g) (U (m.inside g)) j else 0) +
      if m.inside g = e then
        times (m.nb (m.inside g)) (boundaryMatrix m K g) (U' (m.inside g)) j else 0 := by
    intro g
    split_ifs <;> ring
  rw [Finset.sum_congr rfl fun f _ => h1 f, Finset.sum_congr rfl fun g _ => h2 g]
  simp only [Finset.sum_add_distrib, ← Finset.mul_sum]
  ring

/-- **C147, exactly one solution.** -/
theorem solvable {m : Mesh (d + 1) E F G} (hf : Faces m) {P fac C : ℝ} (hC : 0 ≤ C)
    (hP : C < P) (hPf : C < P * fac) (hT : TraceBound m C)
    (hw : ∀ e q, 0 ≤ (m.elem e q).weight) (hd : Definite m) (f : (Fin (d + 1) → ℝ) → ℝ) :
    ∃ U, Solves m P fac f U ∧
      ∀ U', Solves m P fac f U' → ∀ e j, j < m.nb e → U' e j = U e j := by
  classical
  obtain ⟨c, hc, hco⟩ := coercive hf hC hP hPf hT hw
  have zero : ∀ U : Vec E, (∀ e j, j < m.nb e → multiply m (integrands P fac) U e j = 0) →
      ∀ e j, j < m.nb e → U e j = 0 := by
    intro U h
    have hp : pair m U (multiply m (integrands P fac) U) = 0 := by
      unfold pair
      refine Finset.sum_eq_zero fun e _ => Finset.sum_eq_zero fun j hj => ?_
      rw [h e j (Finset.mem_range.mp hj), mul_zero]
    have h0 := hco U
    rw [hp] at h0
    have hD := dirichlet_nonneg hw U
    have hG := gaps_nonneg hf U
    have hs : dirichlet m U + gaps m U ≤ 0 := by
      by_contra hn
      push Not at hn
      exact absurd h0 (not_le.mpr (mul_pos hc hn))
    obtain ⟨h1, h2⟩ := gaps_zero hf (le_antisymm (by linarith) hG)
    exact hd U (le_antisymm (by linarith) hD) h1 h2
  let ext : ((Σ e, Fin (m.nb e)) → ℝ) → Vec E := fun x e j =>
    if h : j < m.nb e then x ⟨e, ⟨j, h⟩⟩ else 0
  have ext_lin : ∀ (a : ℝ) x y, ext (fun i => a * x i + y i) =
      fun e i => a * ext x e i + ext y e i := by
    intro a x y
    funext e i
    simp only [ext]
    split_ifs <;> simp
  let L : ((Σ e, Fin (m.nb e)) → ℝ) →ₗ[ℝ] ((Σ e, Fin (m.nb e)) → ℝ) :=
    { toFun := fun x i => multiply m (integrands P fac) (ext x) i.1 i.2
      map_add' := by
        intro x y
        funext i
        have := multiply_linear m (integrands P fac) 1 (ext x) (ext y) i.1 i.2
        rw [← ext_lin] at this
        simp only [one_mul] at this
        exact this
      map_smul' := by
        intro a x
        funext i
        have := multiply_linear m (integrands P fac) a (ext x) (fun _ _ => 0) i.1 i.2
        have z := multiply_linear m (integrands P fac) 1 (fun _ _ => 0) (fun _ _ => 0) i.1 i.2
        simp only [mul_zero, add_zero, one_mul] at z
        have z0 : multiply m (integrands P fac) (fun _ _ => 0) i.1 i.2 = 0 := by linarith
        rw [z0, add_zero] at this
        have e0 : ext (a • x) = fun e i => a * ext x e i + 0 := by
          funext e i
          simp only [ext]
          split_ifs <;> simp
        simp only [RingHom.id_apply, Pi.smul_apply, smul_eq_mul]
        rw [e0]
        exact this }
  have hinj : Function.Injective L := by
    rw [← LinearMap.ker_eq_bot, LinearMap.ker_eq_bot']
    intro x hx
    have h := zero (ext x) fun e j hj => congrFun hx ⟨e, ⟨j, hj⟩⟩
    funext i
    have := h i.1 i.2 i.2.isLt
    simp only [ext, i.2.isLt, dif_pos] at this
    exact this
  obtain ⟨x, hx⟩ := (LinearMap.injective_iff_surjective.mp hinj)
    fun i => -source m f i.1 i.2
  refine ⟨ext x, fun e j hj => ?_, fun U' hU' e j hj => ?_⟩
  · have : multiply m (integrands P fac) (ext x) e j = -source m f e j :=
      congrFun hx ⟨e, ⟨j, hj⟩⟩
    rw [this]
    ring
  · have := zero (fun e i => -1 * ext x e i + U' e i) (fun e j hj => by
      rw [multiply_linear]
      have h1 : multiply m (integrands P fac) (ext x) e j = -source m f e j :=
        congrFun hx ⟨e, ⟨j, hj⟩⟩
      have h2 := hU' e j hj
      linarith) e j hj
    linarith

end

/-! ## A line of equal elements -/

/-- The unit interval in `N + 1` elements with linear functions `1` and `ξ`, one
quadrature point. -/
noncomputable def line (N : ℕ) : Mesh 1 (Fin (N + 1)) (Fin N) Bool where
  nb _ := 2
  elemPoints _ := 1
  elem e _ := { phi := fun i => if i = 0 then 1 else 0
                grad := fun i _ => if i = 1 then 2 * (N + 1) else 0
                weight := 1 / (N + 1)
                position := fun _ => (e + 1 / 2) / (N + 1) }
  left f := f.castSucc
  right f := f.succ
  innerPoints _ := 1
  inner _ _ := { weight := 1
                 normal := fun _ => 1
                 left := { phi := fun _ => 1, grad := fun i _ => if i = 1 then 2 * (N + 1) else 0 }
                 right := { phi := fun i => if i = 0 then 1 else -1
                            grad := fun i _ => if i = 1 then 2 * (N + 1) else 0 } }
  inside g := if g then Fin.last N else 0
  boundaryPoints _ := 1
  boundary g _ := { phi := fun i => if i = 0 then 1 else if g then 1 else -1
                    grad := fun i _ => if i = 1 then 2 * (N + 1) else 0
                    weight := 1
                    normal := fun _ => if g then 1 else -1
                    position := fun _ => if g then 1 else 0 }

theorem line_faces (N : ℕ) : Faces (line N) := by
  refine ⟨fun f q => ?_, fun g q => ?_⟩
  · simp [line]
  · cases g <;> simp [line]

theorem line_fixed (N : ℕ) (g : Bool) (q : Fin ((line N).boundaryPoints g)) :
    Fixed ((line N).boundary g q).position := by
  cases g
  · left; simp [line]
  · right; simp [line]

/-- Sums over the single points. -/
theorem line_elem (N : ℕ) (e : Fin (N + 1)) (a : Fin ((line N).elemPoints e) → ℝ) :
    ∑ q, a q = a (0 : Fin 1) := Fin.sum_univ_one (f := a)

theorem line_inner (N : ℕ) (f : Fin N) (a : Fin ((line N).innerPoints f) → ℝ) :
    ∑ q, a q = a (0 : Fin 1) := Fin.sum_univ_one (f := a)

theorem line_boundary (N : ℕ) (g : Bool) (a : Fin ((line N).boundaryPoints g) → ℝ) :
    ∑ q, a q = a (0 : Fin 1) := Fin.sum_univ_one (f := a)

theorem line_dirichlet (N : ℕ) (U : Vec (Fin (N + 1))) :
    dirichlet (line N) U = ∑ e, 4 * (N + 1 : ℝ) * U e 1 ^ 2 := by
  unfold dirichlet
  refine Finset.sum_congr rfl fun e _ => ?_
  rw [line_elem]
  have h : (N + 1 : ℝ) ≠ 0 := by positivity
  simp [line, gradient, Finset.sum_range_succ]
  field_simp
  ring

theorem line_trace (N : ℕ) : TraceBound (line N) (2 * (N + 1)) := by
  classical
  intro U
  rw [line_dirichlet]
  set a : Fin (N + 1) → ℝ := fun e => U e 1 with ha
  have hN : (0 : ℝ) ≤ N + 1 := by positivity
  have e1 : ∀ f, ∑ q, ((line N).inner f q).weight *
      ((slopeLeft (line N) U f q + slopeRight (line N) U f q) / 2) ^ 2 =
      (N + 1) ^ 2 * (a f.castSucc + a f.succ) ^ 2 := by
    intro f
    rw [line_inner]
    simp [line, slopeLeft, slopeRight, normalDeriv, gradient, Finset.sum_range_succ, ha]
    ring
  have e2 : ∀ g, ∑ q, ((line N).boundary g q).weight *
      (if Fixed ((line N).boundary g q).position then slope (line N) U g q ^ 2 else 0) =
      4 * (N + 1) ^ 2 * a (if g then Fin.last N else 0) ^ 2 := by
    intro g
    simp only [line_fixed, if_true]
    rw [line_boundary]
    cases g <;>
    · simp [line, Spec.slope, normalDeriv, gradient, Finset.sum_range_succ, ha]
      ring
  rw [Finset.sum_congr rfl fun f _ => e1 f, Finset.sum_congr rfl fun g _ => e2 g]
  rw [Fintype.sum_bool]
  have b1 : ∑ f : Fin N, (N + 1 : ℝ) ^ 2 * (a f.castSucc + a f.succ) ^ 2 ≤
      ∑ f : Fin N, 2 * (N + 1 : ℝ) ^ 2 * (a f.castSucc ^ 2 + a f.succ ^ 2) := by
    refine Finset.sum_le_sum fun f _ => ?_
    have : (a f.castSucc + a f.succ) ^ 2 ≤ 2 * (a f.castSucc ^ 2 + a f.succ ^ 2) := by
      nlinarith [sq_nonneg (a f.castSucc - a f.succ)]
    nlinarith [mul_le_mul_of_nonneg_left this (sq_nonneg (N + 1 : ℝ))]
  have c1 := Fin.sum_univ_castSucc fun e => a e ^ 2
  have c2 := Fin.sum_univ_succ fun e => a e ^ 2
  have b2 : ∑ f : Fin N, 2 * (N + 1 : ℝ) ^ 2 * (a f.castSucc ^ 2 + a f.succ ^ 2) =
      2 * (N + 1) ^ 2 * (∑ f : Fin N, a f.castSucc ^ 2 + ∑ f : Fin N, a f.succ ^ 2) := by
    rw [← Finset.mul_sum, Finset.sum_add_distrib]
  have b3 : ∑ e, 4 * (N + 1 : ℝ) * U e 1 ^ 2 = 4 * (N + 1) * ∑ e, a e ^ 2 := by
    rw [Finset.mul_sum]
  rw [b3]
  have l0 : a 0 ^ 2 ≤ ∑ e, a e ^ 2 :=
    Finset.single_le_sum (f := fun e => a e ^ 2) (fun e _ => sq_nonneg (a e)) (Finset.mem_univ 0)
  have l1 : a (Fin.last N) ^ 2 ≤ ∑ e, a e ^ 2 :=
    Finset.single_le_sum (f := fun e => a e ^ 2) (fun e _ => sq_nonneg (a e))
      (Finset.mem_univ (Fin.last N))
  have hA : a (if true = true then Fin.last N else 0) = a (Fin.last N) := rfl
  have hB : a (if false = true then Fin.last N else 0) = a 0 := rfl
  rw [hA, hB]
  generalize ∑ e, a e ^ 2 = S at *
  generalize ∑ f : Fin N, a f.castSucc ^ 2 = S1 at *
  generalize ∑ f : Fin N, a f.succ ^ 2 = S2 at *
  generalize ∑ f : Fin N, (N + 1 : ℝ) ^ 2 * (a f.castSucc + a f.succ) ^ 2 = X at *
  generalize a 0 ^ 2 = x at *
  generalize a (Fin.last N) ^ 2 = y at *
  have m0 := mul_le_mul_of_nonneg_left l0 (sq_nonneg (N + 1 : ℝ))
  have m1 := mul_le_mul_of_nonneg_left l1 (sq_nonneg (N + 1 : ℝ))
  rw [b2] at b1
  have e1 : S1 = S - y := by linarith
  have e2 : S2 = S - x := by linarith
  rw [e1, e2] at b1
  nlinarith [m0, m1, b1]

theorem line_definite (N : ℕ) : Definite (line N) := by
  intro U hD hJ hB
  rw [line_dirichlet] at hD
  have hN : (0 : ℝ) < N + 1 := by positivity
  have h1 : ∀ e, U e 1 = 0 := by
    intro e
    have := (Finset.sum_eq_zero_iff_of_nonneg fun e _ => by positivity).mp hD e
      (Finset.mem_univ _)
    have h4 : (4 * (N + 1 : ℝ)) ≠ 0 := by positivity
    exact pow_eq_zero_iff (two_ne_zero) |>.mp ((mul_eq_zero.mp this).resolve_left h4)
  have h0 : ∀ e, U e 0 = 0 := by
    intro e
    induction e using Fin.induction with
    | zero =>
      have := hB false (0 : Fin 1) (line_fixed N false _)
      simpa [line, trace, value, Finset.sum_range_succ, h1] using this
    | succ f ih =>
      have := hJ f (0 : Fin 1)
      simpa [line, jump, value, Finset.sum_range_succ, h1, ih] using this
  intro e j hj
  have : j < 2 := hj
  interval_cases j
  · exact h0 e
  · exact h1 e

/-- The tutorial in one dimension on a line of `N + 1` elements, called with
`N + 1`: exactly one solution, for every source. -/
theorem line_solvable (N : ℕ) (f : (Fin 1 → ℝ) → ℝ) :
    ∃ U, Solves (line N) (penalty 1 (N + 1) 1) 1 f U ∧
      ∀ U', Solves (line N) (penalty 1 (N + 1) 1) 1 f U' → ∀ e j, j < 2 → U' e j = U e j := by
  have hN : (0 : ℝ) ≤ N + 1 := by positivity
  have hp : (2 * (N + 1) : ℝ) < (penalty 1 (N + 1) 1 : ℕ) := by
    unfold penalty
    push_cast
    linarith
  exact solvable (line_faces N) (by positivity) hp (by linarith) (line_trace N)
    (fun e q => by simp only [line]; positivity) (line_definite N) f

/-! ## A mesh that is finer than the command line says -/

/-- Two elements of width `h` next to each other. -/
noncomputable def two (h : ℝ) : Mesh 1 Bool Unit Empty where
  nb _ := 2
  elemPoints _ := 1
  elem e _ := { phi := fun i => if i = 0 then 1 else 0
                grad := fun i _ => if i = 1 then 2 / h else 0
                weight := h
                position := fun _ => 1 / 2 + if e then h / 2 else -(h / 2) }
  left _ := false
  right _ := true
  innerPoints _ := 1
  inner _ _ := { weight := 1
                 normal := fun _ => 1
                 left := { phi := fun _ => 1, grad := fun i _ => if i = 1 then 2 / h else 0 }
                 right := { phi := fun i => if i = 0 then 1 else -1
                            grad := fun i _ => if i = 1 then 2 / h else 0 } }
  inside := Empty.elim
  boundaryPoints := Empty.elim
  boundary g := g.elim

theorem two_faces (h : ℝ) : Faces (two h) := ⟨fun f q => by simp [two], fun g => g.elim⟩

theorem two_indefinite {P : ℝ} (hP : 0 < P) :
    ∃ U, pair (two (1 / (4 * P))) U (multiply (two (1 / (4 * P))) (integrands P 1) U) < 0 := by
  refine ⟨fun e i => if i = 0 then (if e then 0 else 1 / 2) else 1 / 4, ?_⟩
  rw [pair_stiffness _ _ (two_faces _)]
  have e1 : ∀ e (a : Fin ((two (1 / (4 * P))).elemPoints e) → ℝ), ∑ q, a q = a (0 : Fin 1) :=
    fun e a => Fin.sum_univ_one (f := a)
  have e2 : ∀ f (a : Fin ((two (1 / (4 * P))).innerPoints f) → ℝ), ∑ q, a q = a (0 : Fin 1) :=
    fun f a => Fin.sum_univ_one (f := a)
  simp only [e1, e2]
  have hP' := hP.ne'
  simp [two, slopeLeft, slopeRight, normalDeriv, gradient, jump, value, Finset.sum_range_succ]
  field_simp
  norm_num
  exact hP

/-- **C147, the penalty does not know the mesh.**  Whatever the arguments are, on
elements that are small enough the matrix has a negative direction. -/
theorem penalty_not_from_mesh (dim n p : ℕ) :
    ∃ h : ℝ, 0 < h ∧ Faces (two h) ∧ (∀ e q, 0 < ((two h).elem e q).weight) ∧
      ∃ U, pair (two h) U (multiply (two h) (integrands (penalty dim n p) 1) U) < 0 := by
  have hP : (0 : ℝ) < (penalty dim n p : ℕ) := by
    rw [Nat.cast_pos]
    unfold penalty
    omega
  have h0 : (0 : ℝ) < 1 / (4 * (penalty dim n p : ℕ)) := by positivity
  exact ⟨_, h0, two_faces _, fun e q => h0, two_indefinite hP⟩

/-! ## A parabola -/

/-- The unit interval as one element with the functions `1, x, x²`, Simpson's rule. -/
noncomputable def single : Mesh 1 Unit Empty Bool where
  nb _ := 3
  elemPoints _ := 3
  elem _ q := { phi := fun i => ((q : ℝ) / 2) ^ i
                grad := fun i _ => i * ((q : ℝ) / 2) ^ (i - 1)
                weight := if q = 1 then 4 / 6 else 1 / 6
                position := fun _ => (q : ℝ) / 2 }
  left := Empty.elim
  right := Empty.elim
  innerPoints := Empty.elim
  inner f := f.elim
  inside _ := ()
  boundaryPoints _ := 1
  boundary g _ := { phi := fun i => (if g then 1 else 0) ^ i
                    grad := fun i _ => i * (if g then 1 else 0) ^ (i - 1)
                    weight := 1
                    normal := fun _ => if g then 1 else -1
                    position := fun _ => if g then 1 else 0 }

/-- Coefficients of `x - x²`. -/
def parabola : Vec Unit := fun _ i => if i = 1 then 1 else if i = 2 then -1 else 0

/-- `consistent` applied: `x - x²` solves the system with source `-2`, for every
penalty. -/
theorem parabola_solves (P fac : ℝ) : Solves single P fac (fun _ => -2) parabola := by
  have fixed : ∀ g q, Fixed (single.boundary g q).position := by
    intro g q
    cases g
    · left; simp [single]
    · right; simp [single]
  refine consistent (lap := fun _ _ => -2) ⟨fun f => f.elim, fun g q => ?_⟩ P fac ?_
    (fun _ _ => rfl) (fun f => f.elim) (fun f => f.elim) (fun g q _ => ?_)
    fun g q h => absurd (fixed g q) h
  · cases g <;> simp [single]
  · intro V
    have e1 : ∀ e (a : Fin (single.elemPoints e) → ℝ),
        ∑ q, a q = a (0 : Fin 3) + a (1 : Fin 3) + a (2 : Fin 3) :=
      fun e a => Fin.sum_univ_three (f := a)
    have e2 : ∀ g (a : Fin (single.boundaryPoints g) → ℝ), ∑ q, a q = a (0 : Fin 1) :=
      fun g a => Fin.sum_univ_one (f := a)
    simp only [e1, e2]
    simp [single, parabola, Spec.slope, trace, normalDeriv, gradient, value,
      Finset.sum_range_succ]
    ring
  · cases g <;> simp [single, parabola, trace, value, Finset.sum_range_succ]

/-! ## The exact solutions -/

theorem sine (y : ℝ) : HasDerivAt (fun y => Real.sin (2 * Real.pi * y))
    (2 * Real.pi * Real.cos (2 * Real.pi * y)) y := by
  have h := (Real.hasDerivAt_sin (2 * Real.pi * y)).comp y
    ((hasDerivAt_id' y).const_mul (2 * Real.pi))
  exact h.congr_deriv (by ring)

theorem cosine (y : ℝ) : HasDerivAt (fun y => Real.cos (2 * Real.pi * y))
    (-(2 * Real.pi) * Real.sin (2 * Real.pi * y)) y := by
  have h := (Real.hasDerivAt_cos (2 * Real.pi * y)).comp y
    ((hasDerivAt_id' y).const_mul (2 * Real.pi))
  exact h.congr_deriv (by ring)

theorem sine_ends {y : ℝ} (h : y = 0 ∨ y = 1) : Real.sin (2 * Real.pi * y) = 0 := by
  rcases h with rfl | rfl
  · simp
  · simp

/-- **C148, the solution of the tutorial.**  `Δu` is the source, `u = 0` at `x = 0, 1`
and `∂u/∂y = 0` at `y = 0, 1`. -/
theorem exact2_solves :
    ∃ D D2 : Fin 2 → (Fin 2 → ℝ) → ℝ,
      (∀ k x, HasDerivAt (fun y => exact2 (Function.update x k y)) (D k x) (x k)) ∧
      (∀ k x, HasDerivAt (fun y => D k (Function.update x k y)) (D2 k x) (x k)) ∧
      (∀ x, ∑ k, D2 k x = source2 x) ∧
      (∀ x, x 0 = 0 ∨ x 0 = 1 → exact2 x = 0) ∧
      ∀ x, x 1 = 0 ∨ x 1 = 1 → D 1 x = 0 := by
  refine ⟨![fun x => 2 * Real.pi * Real.cos (2 * Real.pi * x 0) * Real.cos (2 * Real.pi * x 1),
      fun x => Real.sin (2 * Real.pi * x 0) * (-(2 * Real.pi) * Real.sin (2 * Real.pi * x 1))],
    fun _ x => -(4 * Real.pi * Real.pi) * exact2 x, fun k x => ?_, fun k x => ?_, fun x => ?_,
    fun x h => ?_, fun x h => ?_⟩
  · match k with
    | 0 =>
      have e : (fun y => exact2 (Function.update x 0 y)) =
          fun y => Real.sin (2 * Real.pi * y) * Real.cos (2 * Real.pi * x 1) := by
        funext y; simp [exact2]
      rw [e]
      exact (sine (x 0)).mul_const _
    | 1 =>
      have e : (fun y => exact2 (Function.update x 1 y)) =
          fun y => Real.sin (2 * Real.pi * x 0) * Real.cos (2 * Real.pi * y) := by
        funext y; simp [exact2]
      rw [e]
      exact (cosine (x 1)).const_mul _
  · match k with
    | 0 =>
      have e : (fun y => (![fun x => 2 * Real.pi * Real.cos (2 * Real.pi * x 0) *
          Real.cos (2 * Real.pi * x 1), fun x => Real.sin (2 * Real.pi * x 0) *
          (-(2 * Real.pi) * Real.sin (2 * Real.pi * x 1))] : Fin 2 → (Fin 2 → ℝ) → ℝ) 0
            (Function.update x 0 y)) =
          fun y => 2 * Real.pi * Real.cos (2 * Real.pi * y) * Real.cos (2 * Real.pi * x 1) := by
        funext y; simp
      rw [e]
      exact (((cosine (x 0)).const_mul (2 * Real.pi)).mul_const _).congr_deriv
        (by unfold exact2; ring)
    | 1 =>
      have e : (fun y => (![fun x => 2 * Real.pi * Real.cos (2 * Real.pi * x 0) *
          Real.cos (2 * Real.pi * x 1), fun x => Real.sin (2 * Real.pi * x 0) *
          (-(2 * Real.pi) * Real.sin (2 * Real.pi * x 1))] : Fin 2 → (Fin 2 → ℝ) → ℝ) 1
            (Function.update x 1 y)) =
          fun y => Real.sin (2 * Real.pi * x 0) * (-(2 * Real.pi) *
            Real.sin (2 * Real.pi * y)) := by
        funext y; simp
      rw [e]
      exact (((sine (x 1)).const_mul (-(2 * Real.pi))).const_mul _).congr_deriv
        (by unfold exact2; ring)
  · rw [Fin.sum_univ_two]
    unfold exact2 source2
    ring
  · unfold exact2
    rw [sine_ends h, zero_mul]
  · simp [sine_ends h]

/-- **C148, the solution of `PoissonTest`.** -/
theorem exact3_solves :
    ∃ D D2 : Fin 3 → (Fin 3 → ℝ) → ℝ,
      (∀ k x, HasDerivAt (fun y => exact3 (Function.update x k y)) (D k x) (x k)) ∧
      (∀ k x, HasDerivAt (fun y => D k (Function.update x k y)) (D2 k x) (x k)) ∧
      (∀ x, ∑ k, D2 k x = source3 x) ∧
      (∀ x, x 0 = 0 ∨ x 0 = 1 → exact3 x = 0) ∧
      ∀ k x, k ≠ 0 → x k = 0 ∨ x k = 1 → D k x = 0 := by
  refine ⟨fun k x => if k = 0 then
        2 * Real.pi * Real.cos (2 * Real.pi * x 0) * Real.cos (2 * Real.pi * x 1) *
          Real.cos (2 * Real.pi * x 2)
      else if k = 1 then Real.sin (2 * Real.pi * x 0) *
          (-(2 * Real.pi) * Real.sin (2 * Real.pi * x 1)) * Real.cos (2 * Real.pi * x 2)
      else Real.sin (2 * Real.pi * x 0) * Real.cos (2 * Real.pi * x 1) *
          (-(2 * Real.pi) * Real.sin (2 * Real.pi * x 2)),
    fun _ x => -(4 * Real.pi * Real.pi) * exact3 x, fun k x => ?_, fun k x => ?_, fun x => ?_,
    fun x h => ?_, fun k x hk h => ?_⟩
  · match k with
    | 0 =>
      have e : (fun y => exact3 (Function.update x 0 y)) = fun y =>
          Real.sin (2 * Real.pi * y) * Real.cos (2 * Real.pi * x 1) *
            Real.cos (2 * Real.pi * x 2) := by
        funext y; simp [exact3, Function.update]
      rw [e]
      exact (((sine (x 0)).mul_const _).mul_const _).congr_deriv (by simp)
    | 1 =>
      have e : (fun y => exact3 (Function.update x 1 y)) = fun y =>
          Real.sin (2 * Real.pi * x 0) * Real.cos (2 * Real.pi * y) *
            Real.cos (2 * Real.pi * x 2) := by
        funext y; simp [exact3, Function.update]
      rw [e]
      exact (((cosine (x 1)).const_mul _).mul_const _).congr_deriv (by simp)
    | 2 =>
      have e : (fun y => exact3 (Function.update x 2 y)) = fun y =>
          Real.sin (2 * Real.pi * x 0) * Real.cos (2 * Real.pi * x 1) *
            Real.cos (2 * Real.pi * y) := by
        funext y; simp [exact3, Function.update]
      rw [e]
      exact ((cosine (x 2)).const_mul _).congr_deriv (by simp)
  · match k with
    | 0 =>
      have h := ((((cosine (x 0)).const_mul (2 * Real.pi)).mul_const
        (Real.cos (2 * Real.pi * x 1))).mul_const (Real.cos (2 * Real.pi * x 2)))
      refine (h.congr_deriv (by unfold exact3; ring)).congr_of_eventuallyEq
        (Filter.Eventually.of_forall fun y => ?_)
      simp [Function.update]
    | 1 =>
      have h := ((((sine (x 1)).const_mul (-(2 * Real.pi))).const_mul
        (Real.sin (2 * Real.pi * x 0))).mul_const (Real.cos (2 * Real.pi * x 2)))
      refine (h.congr_deriv (by unfold exact3; ring)).congr_of_eventuallyEq
        (Filter.Eventually.of_forall fun y => ?_)
      simp [Function.update]
    | 2 =>
      have h := (((sine (x 2)).const_mul (-(2 * Real.pi))).const_mul
        (Real.sin (2 * Real.pi * x 0) * Real.cos (2 * Real.pi * x 1)))
      refine (h.congr_deriv (by unfold exact3; ring)).congr_of_eventuallyEq
        (Filter.Eventually.of_forall fun y => ?_)
      simp [Function.update]
  · rw [Fin.sum_univ_three]
    unfold exact3 source3
    ring
  · unfold exact3
    rw [sine_ends h, zero_mul, zero_mul]
  · match k with
    | 0 => exact absurd rfl hk
    | 1 => simp [sine_ends h]
    | 2 => simp [sine_ends h]

/-- **C148.**  The source at the faces is zero in the unit cube. -/
theorem faceSource_zero (x : Fin (d + 1) → ℝ) (h0 : 0 ≤ x 0) (h1 : x 0 ≤ 1) :
    faceSource x = 0 := by
  unfold faceSource
  rw [if_neg, if_neg]
  · rw [abs_lt]
    intro h
    norm_num at h
    linarith [h.1]
  · rw [abs_lt]
    intro h
    norm_num at h
    linarith [h.2]

end Verif.Poisson
