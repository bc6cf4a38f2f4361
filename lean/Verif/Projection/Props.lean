import Verif.Projection.Lemmas
import Mathlib.LinearAlgebra.Matrix.ToLin
import Mathlib.LinearAlgebra.FiniteDimensional.Basic
import Mathlib.Analysis.SpecialFunctions.Sqrt

/-! # The initial solution and the errors: the properties -/
namespace Verif.Projection
open Finset

/-- **C85.** The entries of the mass matrix: the quadrature of products of basis functions of one unknown, and zero between different unknowns. -/
theorem massMatrix_entry (nV nB : Nat) (points : List Point) (i j v v' : Nat) (hi : i < nB) (hj : j < nB) (hv : v < nV) (hv' : v' < nV) :
    massMatrix nV nB points (index nB i v, index nB j v') =
      if v = v' then (points.map fun p => p.weight * (p.basis i * p.basis j)).sum else 0 := by
  rw [massMatrix_eq]
  simp only [massIntegrand_entry nV nB _ i j v v' hi hj hv hv']
  split
  · rfl
  · simp

/-- **C85.** The mass matrix is symmetric. -/
theorem massMatrix_symmetric (nV nB : Nat) (points : List Point) (k l : Nat) (hk : k < nV * nB) (hl : l < nV * nB) :
    massMatrix nV nB points (k, l) = massMatrix nV nB points (l, k) := by
  obtain ⟨i, hi, v, hv, rfl⟩ := index_surj hk
  obtain ⟨j, hj, v', hv', rfl⟩ := index_surj hl
  rw [massMatrix_entry nV nB points i j v v' hi hj hv hv', massMatrix_entry nV nB points j i v' v hj hi hv' hv]
  simp only [eq_comm (a := v), mul_comm]

/-- **C85.** The mass matrix represents the discrete inner product. -/
theorem massMatrix_inner (nV nB : Nat) (points : List Point) (c d : Nat → ℝ) :
    ∑ k ∈ range (nV * nB), d k * ∑ l ∈ range (nV * nB), massMatrix nV nB points (k, l) * c l =
      inner nV points (value nB c) (value nB d) := by
  rw [inner_eq_sum, sum_index]
  refine Finset.sum_congr rfl fun v hv => Finset.sum_congr rfl fun b hb => ?_
  rw [← row nV nB points c b v (Finset.mem_range.1 hb) (Finset.mem_range.1 hv), sum_list_range]

/-- **C85.** With positive weights the mass matrix is positive definite exactly when the basis functions are independent on the quadrature points. -/
theorem massMatrix_definite (nV nB : Nat) (hV : 0 < nV) (points : List Point) (hw : ∀ p ∈ points, 0 < p.weight) :
    (∀ c : Nat → ℝ, (∃ k < nV * nB, c k ≠ 0) →
      0 < ∑ k ∈ range (nV * nB), c k * ∑ l ∈ range (nV * nB), massMatrix nV nB points (k, l) * c l) ↔ Independent nB points := by
  simp only [massMatrix_inner]
  constructor
  · intro h a ha b hb
    by_contra hne
    have := h (fun k => if k < nB then a k else 0) ⟨b, by
      calc b < nB := hb
        _ = 1 * nB := by ring
        _ ≤ nV * nB := Nat.mul_le_mul_right _ hV, by simpa [hb] using hne⟩
    refine absurd this (not_lt.2 (le_of_eq ?_))
    unfold inner
    apply List.sum_eq_zero
    intro x hx
    obtain ⟨p, hp, rfl⟩ := List.mem_map.1 hx
    rw [Finset.sum_eq_zero, mul_zero]
    intro v _
    have : value nB (fun k => if k < nB then a k else 0) p v = 0 := by
      unfold value
      rcases Nat.eq_zero_or_pos v with rfl | hv
      · rw [← ha p hp]
        refine Finset.sum_congr rfl fun b hb => ?_
        simp [index, Finset.mem_range.1 hb]
      · refine Finset.sum_eq_zero fun b _ => ?_
        dsimp only
        rw [if_neg, mul_zero]
        unfold index
        have := Nat.le_mul_of_pos_left nB hv
        omega
    rw [this, mul_zero]
  · intro h c hc
    refine lt_of_le_of_ne (inner_self_nonneg nV points (fun p hp => (hw p hp).le) _) fun h0 => ?_
    obtain ⟨k, hk, hne⟩ := hc
    obtain ⟨b, hb, v, hv, rfl⟩ := index_surj hk
    have := inner_self_eq_zero nV points hw _ h0.symm
    exact hne (h (fun b => c (index nB b v)) (fun p hp => this p hp v hv) b hb)

/-- **C85.** The initial solution is the projection: its difference from the given function is orthogonal to all basis functions. -/
theorem initial_iff_orthogonal (nV nB : Nat) (points : List Point) (c : Nat → ℝ) : IsInitialSolution nV nB points c ↔
    ∀ d : Nat → ℝ, inner nV points (fun p v => value nB c p v - p.exact v) (value nB d) = 0 := by
  constructor
  · intro h d
    rw [inner_sub, inner_eq_sum, inner_eq_sum, sub_eq_zero]
    refine Finset.sum_congr rfl fun v hv => Finset.sum_congr rfl fun b hb => ?_
    have hb := Finset.mem_range.1 hb
    have hv := Finset.mem_range.1 hv
    have := h (index nB b v) (index_lt hb hv)
    rw [row nV nB points c b v hb hv, initialVector_entry nV nB points b v hb hv] at this
    rw [this]
  · intro h k hk
    obtain ⟨b, hb, v, hv, rfl⟩ := index_surj hk
    rw [row nV nB points c b v hb hv, initialVector_entry nV nB points b v hb hv]
    have h1 := h fun k => if k = index nB b v then 1 else 0
    rw [inner_sub, inner_eq_sum, inner_eq_sum, sub_eq_zero] at h1
    have key : ∀ g : Nat → Nat → ℝ, ∑ v' ∈ range nV, ∑ b' ∈ range nB, (if index nB b' v' = index nB b v then (1 : ℝ) else 0) * g b' v' = g b v := by
      intro g
      rw [Finset.sum_eq_single_of_mem v (Finset.mem_range.2 hv), Finset.sum_eq_single_of_mem b (Finset.mem_range.2 hb)]
      · simp
      · intro b' hb' hne
        rw [if_neg fun h => hne (index_inj (Finset.mem_range.1 hb') hb h).1, zero_mul]
      · intro v' hv' hne
        refine Finset.sum_eq_zero fun b' hb' => ?_
        rw [if_neg fun h => hne (index_inj (Finset.mem_range.1 hb') hb h).2, zero_mul]
    rw [key fun b v => (points.map fun p => p.weight * (p.basis b * value nB c p v)).sum,
      key fun b v => (points.map fun p => p.weight * (p.basis b * p.exact v)).sum] at h1
    exact h1

/-- **C85.** No other coefficients come closer to the given function in the discrete norm. -/
theorem initial_best (nV nB : Nat) (points : List Point) (hw : ∀ p ∈ points, 0 ≤ p.weight) (c : Nat → ℝ)
    (h : IsInitialSolution nV nB points c) (d : Nat → ℝ) :
    inner nV points (fun p v => value nB c p v - p.exact v) (fun p v => value nB c p v - p.exact v) ≤
      inner nV points (fun p v => value nB d p v - p.exact v) (fun p v => value nB d p v - p.exact v) := by
  have ho := (initial_iff_orthogonal nV nB points c).1 h
  have h1 := ho c
  have h2 := ho d
  have h3 := inner_self_nonneg nV points hw fun p v => value nB d p v - value nB c p v
  have e : ∀ f g h : Point → Nat → ℝ, inner nV points f (fun p v => g p v - h p v) = inner nV points f g - inner nV points f h := by
    intro f g h
    rw [inner_comm, inner_sub, inner_comm nV points g, inner_comm nV points h]
  rw [inner_sub] at h1 h2 h3 ⊢
  rw [inner_sub]
  simp only [e] at h1 h2 h3 ⊢
  rw [inner_comm nV points (fun p v => p.exact v) (value nB c)] at *
  rw [inner_comm nV points (fun p v => p.exact v) (value nB d)] at *
  rw [inner_comm nV points (value nB d) (value nB c)] at h3
  linarith

/-- **C85.** A function that the basis functions represent on the quadrature points is reproduced. -/
theorem initial_reproduces (nV nB : Nat) (points : List Point) (hw : ∀ p ∈ points, 0 < p.weight) (hi : Independent nB points) (c d : Nat → ℝ)
    (h : IsInitialSolution nV nB points c) (hd : ∀ p ∈ points, ∀ v < nV, p.exact v = value nB d p v) : ∀ k < nV * nB, c k = d k := by
  have ho := (initial_iff_orthogonal nV nB points c).1 h fun k => c k - d k
  have hval : ∀ p v, value nB (fun k => c k - d k) p v = value nB c p v - value nB d p v := by
    intro p v
    unfold value
    rw [← Finset.sum_sub_distrib]
    exact Finset.sum_congr rfl fun b _ => by ring
  have h0 : inner nV points (value nB fun k => c k - d k) (value nB fun k => c k - d k) = 0 := by
    rw [← ho]
    unfold inner
    congr 1
    apply List.map_congr_left
    intro p hp
    congr 1
    refine Finset.sum_congr rfl fun v hv => ?_
    dsimp only
    rw [hval, hd p hp v (Finset.mem_range.1 hv)]
  have hz := inner_self_eq_zero nV points hw _ h0
  intro k hk
  obtain ⟨b, hb, v, hv, rfl⟩ := index_surj hk
  have := hi (fun b => c (index nB b v) - d (index nB b v)) (fun p hp => hz p hp v hv) b hb
  linarith

/-- **C85.** The initial solution exists and is unique. -/
theorem initial_unique (nV nB : Nat) (points : List Point) (hw : ∀ p ∈ points, 0 < p.weight) (hi : Independent nB points) :
    (∃ c, IsInitialSolution nV nB points c) ∧
      ∀ c d, IsInitialSolution nV nB points c → IsInitialSolution nV nB points d → ∀ k < nV * nB, c k = d k := by
  have huniq : ∀ c d, IsInitialSolution nV nB points c → IsInitialSolution nV nB points d → ∀ k < nV * nB, c k = d k := by
    intro c d hc hd
    have h1 := (initial_iff_orthogonal nV nB points c).1 hc
    have h2 := (initial_iff_orthogonal nV nB points d).1 hd
    have hval : ∀ p v, value nB (fun k => c k - d k) p v = value nB c p v - value nB d p v := by
      intro p v
      unfold value
      rw [← Finset.sum_sub_distrib]
      exact Finset.sum_congr rfl fun b _ => by ring
    have h0 : inner nV points (value nB fun k => c k - d k) (value nB fun k => c k - d k) = 0 := by
      have a := h1 fun k => c k - d k
      have b := h2 fun k => c k - d k
      have e : (value nB fun k => c k - d k) = fun p v => (value nB c p v - p.exact v) - (value nB d p v - p.exact v) := by
        funext p v
        rw [hval]; ring
      conv_lhs => rw [show inner nV points (value nB fun k => c k - d k) (value nB fun k => c k - d k) =
        inner nV points (fun p v => (value nB c p v - p.exact v) - (value nB d p v - p.exact v)) (value nB fun k => c k - d k) by rw [← e]]
      rw [inner_sub, a, b, sub_zero]
    have hz := inner_self_eq_zero nV points hw _ h0
    intro k hk
    obtain ⟨b, hb, v, hv, rfl⟩ := index_surj hk
    have := hi (fun b => c (index nB b v) - d (index nB b v)) (fun p hp => hz p hp v hv) b hb
    linarith
  refine ⟨?_, huniq⟩
  let N := nV * nB
  let M : Matrix (Fin N) (Fin N) ℝ := fun k l => massMatrix nV nB points (k, l)
  let ext : (Fin N → ℝ) → Nat → ℝ := fun x k => if h : k < N then x ⟨k, h⟩ else 0
  have hM : ∀ (x : Fin N → ℝ) (k : Fin N), M.mulVec x k = ∑ l ∈ range N, massMatrix nV nB points (k, l) * ext x l := by
    intro x k
    rw [Finset.sum_range]
    simp [Matrix.mulVec, dotProduct, M, ext]
  have hinj : Function.Injective M.mulVecLin := by
    rw [← LinearMap.ker_eq_bot, LinearMap.ker_eq_bot']
    intro x hx
    have hx : ∀ k : Fin N, M.mulVec x k = 0 := fun k => congrFun hx k
    have h0 : inner nV points (value nB (ext x)) (value nB (ext x)) = 0 := by
      rw [← massMatrix_inner]
      refine Finset.sum_eq_zero fun k hk => ?_
      have := hx ⟨k, Finset.mem_range.1 hk⟩
      rw [hM] at this
      rw [this, mul_zero]
    have hz := inner_self_eq_zero nV points hw _ h0
    funext k
    obtain ⟨b, hb, v, hv, hkk⟩ := index_surj k.2
    have := hi (fun b => ext x (index nB b v)) (fun p hp => hz p hp v hv) b hb
    simp only [← hkk, ext, k.2, dite_true] at this
    exact this
  obtain ⟨x, hx⟩ := LinearMap.injective_iff_surjective.1 hinj fun k : Fin N => initialVector nV nB points k
  refine ⟨ext x, fun k hk => ?_⟩
  have := congrFun hx ⟨k, hk⟩
  rw [Matrix.mulVecLin_apply, hM] at this
  rw [sum_list_range]
  exact this

/-! ## Errors -/

/-- The error of an element: the discrete norm of the difference of the numerical and the exact solution. -/
theorem errorAtElement_eq (nV nB : Nat) (points : List Point) (c : Nat → ℝ) : errorAtElement nV nB points c =
    inner nV points (fun p v => p.exact v - value nB c p v) fun p v => p.exact v - value nB c p v := by
  unfold errorAtElement inner
  rw [foldl_add points (fun p => p.weight * errorIntegrand nV nB p c), zero_add]
  congr 1
  apply List.map_congr_left
  intro p _
  unfold errorIntegrand
  rw [foldl_add (List.range nV) fun v => (p.exact v - numericalSolution nV nB p c v) * (p.exact v - numericalSolution nV nB p c v), zero_add,
    sum_list_range]
  congr 1
  refine Finset.sum_congr rfl fun v hv => ?_
  rw [numericalSolution_eq nV nB p c v (Finset.mem_range.1 hv)]

theorem sum_procs (f : Nat → ℝ) (procs : List (List Nat)) :
    procs.foldl (fun s own => s + own.foldl (fun s e => s + f e) 0) 0 = (procs.flatten.map f).sum := by
  rw [foldl_add procs fun own => own.foldl (fun s e => s + f e) 0, zero_add]
  induction procs with
  | nil => simp
  | cons own l ih => simp [ih, foldl_add own f]

/-- **C86.** The total error is the square root of the sum over all elements, whatever elements the processes have and in whatever order they are added. With weights that
are not negative there is no warning. -/
theorem totalError_eq (nV nB : Nat) (points : Nat → List Point) (c : Nat → Nat → ℝ) (procs : List (List Nat)) (n : Nat)
    (hp : procs.flatten.Perm (List.range n)) (hw : ∀ e < n, ∀ p ∈ points e, 0 ≤ p.weight) :
    totalError nV nB points c procs = (√(∑ e ∈ range n, inner nV (points e) (fun p v => p.exact v - value nB (c e) p v)
      fun p v => p.exact v - value nB (c e) p v), false) := by
  have h : procs.foldl (fun s own => s + own.foldl (fun s e => s + errorAtElement nV nB (points e) (c e)) 0) 0 =
      ∑ e ∈ range n, inner nV (points e) (fun p v => p.exact v - value nB (c e) p v) fun p v => p.exact v - value nB (c e) p v := by
    rw [sum_procs, (hp.map _).sum_eq, sum_list_range]
    simp only [errorAtElement_eq]
  unfold totalError
  simp only [h]
  rw [if_pos]
  exact Finset.sum_nonneg fun e he => inner_self_nonneg nV _ (hw e (Finset.mem_range.1 he)) _

/-- **C86.** The total error is zero exactly if the numerical solution is exact at all points. -/
theorem totalError_eq_zero (nV nB : Nat) (points : Nat → List Point) (c : Nat → Nat → ℝ) (procs : List (List Nat)) (n : Nat)
    (hp : procs.flatten.Perm (List.range n)) (hw : ∀ e < n, ∀ p ∈ points e, 0 < p.weight) :
    (totalError nV nB points c procs).1 = 0 ↔ ∀ e < n, ∀ p ∈ points e, ∀ v < nV, value nB (c e) p v = p.exact v := by
  rw [totalError_eq nV nB points c procs n hp fun e he p hpp => (hw e he p hpp).le]
  have hnn : ∀ e ∈ range n, 0 ≤ inner nV (points e) (fun p v => p.exact v - value nB (c e) p v) fun p v => p.exact v - value nB (c e) p v :=
    fun e he => inner_self_nonneg nV _ (fun p hpp => (hw e (Finset.mem_range.1 he) p hpp).le) _
  simp only [Real.sqrt_eq_zero (Finset.sum_nonneg hnn)]
  rw [Finset.sum_eq_zero_iff_of_nonneg hnn]
  constructor
  · intro h e he p hpp v hv
    have := inner_self_eq_zero nV _ (hw e he) _ (h e (Finset.mem_range.2 he)) p hpp v hv
    linarith
  · intro h e he
    unfold inner
    apply List.sum_eq_zero
    intro x hx
    obtain ⟨p, hpp, rfl⟩ := List.mem_map.1 hx
    rw [Finset.sum_eq_zero, mul_zero]
    intro v hv
    dsimp only
    rw [h e (Finset.mem_range.1 he) p hpp v (Finset.mem_range.1 hv)]
    ring

theorem max_loop (nV : Nat) (f : Nat → ℝ) (m : Nat → ℝ) (v : Nat) (hv : v < nV) :
    ((List.range nV).foldl (fun m v => if f v > m v then assign m v (f v) else m) m) v = max (m v) (f v) := by
  have key : ∀ n, ((List.range n).foldl (fun m v => if f v > m v then assign m v (f v) else m) m) v = if v < n then max (m v) (f v) else m v := by
    intro n
    induction n with
    | zero => simp
    | succ n ih =>
      rw [List.range_succ, List.foldl_append]
      simp only [List.foldl_cons, List.foldl_nil]
      by_cases h : v = n
      · subst h
        simp only [lt_irrefl, if_false] at ih
        rw [if_pos (by omega : v < v + 1)]
        split
        · next hgt =>
          rw [ih] at hgt
          rw [assign, Function.update_self, max_eq_right hgt.le]
        · next hle =>
          rw [ih] at hle
          rw [ih, max_eq_left (not_lt.1 hle)]
      · have : (if f n > ((List.range n).foldl (fun m v => if f v > m v then assign m v (f v) else m) m) n then
            assign ((List.range n).foldl (fun m v => if f v > m v then assign m v (f v) else m) m) n (f n)
            else (List.range n).foldl (fun m v => if f v > m v then assign m v (f v) else m) m) v =
            ((List.range n).foldl (fun m v => if f v > m v then assign m v (f v) else m) m) v := by
          split
          · rw [assign, Function.update_of_ne h]
          · rfl
        rw [this, ih]
        by_cases h2 : v < n
        · rw [if_pos h2, if_pos (by omega)]
        · rw [if_neg h2, if_neg (by omega)]
  rw [key, if_pos hv]

theorem isMax_foldl {A : Type} (l : List A) (f : A → ℝ) : IsMax l f (l.foldl (fun x a => max x (f a)) 0) := by
  induction l using List.reverseRecOn with
  | nil => exact ⟨le_refl _, by simp, Or.inl rfl⟩
  | append_singleton l a ih =>
    rw [List.foldl_append]
    simp only [List.foldl_cons, List.foldl_nil]
    obtain ⟨h1, h2, h3⟩ := ih
    refine ⟨le_max_of_le_left h1, fun b hb => ?_, ?_⟩
    · rcases List.mem_append.1 hb with hb | hb
      · exact le_max_of_le_left (h2 b hb)
      · simp only [List.mem_cons, List.not_mem_nil, or_false] at hb
        subst hb
        exact le_max_right _ _
    · rcases max_choice (l.foldl (fun x a => max x (f a)) 0) (f a) with h | h
      · rw [h]
        rcases h3 with h3 | ⟨b, hb, h3⟩
        · exact Or.inl h3
        · exact Or.inr ⟨b, by simp [hb], h3⟩
      · rw [h]
        exact Or.inr ⟨a, by simp, rfl⟩

theorem maxErrorAtElement_eq (nV nB : Nat) (points : List Point) (c : Nat → ℝ) (v : Nat) (hv : v < nV) :
    maxErrorAtElement nV nB points c v = points.foldl (fun x p => max x |value nB c p v - p.exact v|) 0 := by
  unfold maxErrorAtElement
  have : ∀ (l : List Point) (m : Nat → ℝ), (l.foldl (fun m p => (List.range nV).foldl (fun m v =>
      if |numericalSolution nV nB p c v - p.exact v| > m v then assign m v |numericalSolution nV nB p c v - p.exact v| else m) m) m) v =
      l.foldl (fun x p => max x |value nB c p v - p.exact v|) (m v) := by
    intro l
    induction l with
    | nil => intro m; rfl
    | cons p l ih =>
      intro m
      rw [List.foldl_cons, ih, max_loop nV (fun v => |numericalSolution nV nB p c v - p.exact v|) m v hv, List.foldl_cons,
        numericalSolution_eq nV nB p c v hv]
  exact this points _

/-- **C86.** The maximal error is the largest difference at the quadrature points of all elements, whatever elements the processes have. -/
theorem maxError_isMax (nV nB : Nat) (points : Nat → List Point) (c : Nat → Nat → ℝ) (procs : List (List Nat)) (n : Nat)
    (hp : procs.flatten.Perm (List.range n)) (v : Nat) (hv : v < nV) :
    IsMax ((List.range n).flatMap fun e => (points e).map fun p => (e, p)) (fun x => |value nB (c x.1) x.2 v - x.2.exact v|)
      (maxError nV nB points c procs v) := by
  have h1 : maxError nV nB points c procs v = procs.foldl (fun x own => max x (own.foldl (fun x e =>
      max x ((points e).foldl (fun x p => max x |value nB (c e) p v - p.exact v|) 0)) 0)) 0 := by
    unfold maxError
    have hone : ∀ (own : List Nat) (m : Nat → ℝ), (own.foldl (fun m e => (List.range nV).foldl (fun m v =>
        if maxErrorAtElement nV nB (points e) (c e) v > m v then assign m v (maxErrorAtElement nV nB (points e) (c e) v) else m) m) m) v =
        own.foldl (fun x e => max x ((points e).foldl (fun x p => max x |value nB (c e) p v - p.exact v|) 0)) (m v) := by
      intro own
      induction own with
      | nil => intro m; rfl
      | cons e l ih =>
        intro m
        rw [List.foldl_cons, ih, max_loop nV (fun v => maxErrorAtElement nV nB (points e) (c e) v) m v hv, List.foldl_cons,
          maxErrorAtElement_eq nV nB _ _ v hv]
    have hall : ∀ (l : List (List Nat)) (m : Nat → ℝ), (l.foldl (fun m own v => max (m v) ((own.foldl (fun m e => (List.range nV).foldl (fun m v =>
        if maxErrorAtElement nV nB (points e) (c e) v > m v then assign m v (maxErrorAtElement nV nB (points e) (c e) v) else m) m)
          (fun _ => 0)) v)) m) v =
        l.foldl (fun x own => max x (own.foldl (fun x e => max x ((points e).foldl (fun x p => max x |value nB (c e) p v - p.exact v|) 0)) 0)) (m v) := by
      intro l
      induction l with
      | nil => intro m; rfl
      | cons own l ih =>
        intro m
        rw [List.foldl_cons, ih, List.foldl_cons, hone]
    exact hall procs _
  rw [h1]
  have A := isMax_foldl procs fun own => own.foldl (fun x e => max x ((points e).foldl (fun x p => max x |value nB (c e) p v - p.exact v|) 0)) 0
  have B := fun own : List Nat => isMax_foldl own fun e => (points e).foldl (fun x p => max x |value nB (c e) p v - p.exact v|) 0
  have C := fun e : Nat => isMax_foldl (points e) fun p => |value nB (c e) p v - p.exact v|
  have hmem : ∀ e, e < n ↔ ∃ own ∈ procs, e ∈ own := by
    intro e
    rw [← List.mem_range, ← hp.mem_iff, List.mem_flatten]
  refine ⟨A.1, ?_, ?_⟩
  · rintro ⟨e, p⟩ h
    simp only [List.mem_flatMap, List.mem_map, List.mem_range, Prod.mk.injEq] at h
    obtain ⟨e', he, p', hpp, rfl, rfl⟩ := h
    obtain ⟨own, ho, heo⟩ := (hmem e').1 he
    exact ((C e').2.1 p' hpp).trans (((B own).2.1 e' heo).trans (A.2.1 own ho))
  · rcases A.2.2 with h | ⟨own, ho, h⟩
    · exact Or.inl h
    · rw [← h]
      dsimp only
      rcases (B own).2.2 with h' | ⟨e, he, h'⟩
      · exact Or.inl h'
      · rw [← h']
        rcases (C e).2.2 with h'' | ⟨p, hpp, h''⟩
        · exact Or.inl h''
        · refine Or.inr ⟨(e, p), ?_, h''⟩
          simp only [List.mem_flatMap, List.mem_map, List.mem_range, Prod.mk.injEq]
          exact ⟨e, (hmem e).2 ⟨own, ho, he⟩, p, hpp, rfl, rfl⟩

/-! ## The estimate of the error of a time step -/

/-- **C86.** The estimated error is the norm, over all elements, of the combination of the stages with the error coefficients, whatever elements the processes have. -/
theorem updateError_eq (size : Nat → Nat) (sol : Nat → Nat → ℝ) (stage : Nat → Nat → Nat → ℝ) (stages : Nat) (err : Nat → ℝ) (dt : ℝ)
    (procs : List (List Nat)) (n : Nat) (hp : procs.flatten.Perm (List.range n)) :
    (errorAndNorm size sol stage stages err dt procs).1 =
      √(∑ e ∈ range n, ∑ k ∈ range (size e), (dt * ∑ i ∈ range stages, err i * stage e i k) ^ 2) := by
  unfold errorAndNorm
  simp only
  rw [sum_procs fun e => normSq (size e) ((List.range stages).foldl (fun d i k => d k + stage e i k * dt * err i) fun _ => 0), (hp.map _).sum_eq,
    sum_list_range]
  congr 1
  refine Finset.sum_congr rfl fun e _ => ?_
  unfold normSq
  rw [foldl_add (List.range (size e)) fun k => (List.range stages).foldl (fun d i k => d k + stage e i k * dt * err i) (fun _ => 0) k *
    (List.range stages).foldl (fun d i k => d k + stage e i k * dt * err i) (fun _ => 0) k, zero_add, sum_list_range]
  refine Finset.sum_congr rfl fun k _ => ?_
  rw [foldl_add_fun (List.range stages) (fun i k => stage e i k * dt * err i), zero_add, sum_list_range, ← pow_two, Finset.mul_sum]
  congr 1
  exact Finset.sum_congr rfl fun i _ => by ring

/-- **C86.** The second result is the sum of the norms of the coefficients of the elements. -/
theorem updateNorm_eq (size : Nat → Nat) (sol : Nat → Nat → ℝ) (stage : Nat → Nat → Nat → ℝ) (stages : Nat) (err : Nat → ℝ) (dt : ℝ)
    (procs : List (List Nat)) (n : Nat) (hp : procs.flatten.Perm (List.range n)) :
    (errorAndNorm size sol stage stages err dt procs).2 = ∑ e ∈ range n, √(∑ k ∈ range (size e), sol e k ^ 2) := by
  unfold errorAndNorm
  simp only
  rw [sum_procs fun e => √(normSq (size e) (sol e)), (hp.map _).sum_eq, sum_list_range]
  refine Finset.sum_congr rfl fun e _ => ?_
  unfold normSq
  rw [foldl_add (List.range (size e)) fun k => sol e k * sol e k, zero_add, sum_list_range]
  simp only [pow_two]

/-- **C86, finding.** That sum is at least the norm of all coefficients together, to which the error belongs, and it is larger as soon as there are two elements: for `n` elements
with equal coefficients it is `√n` times the norm. The relative error that an adaptive time step accepts grows with the number of elements. -/
theorem updateNorm_overestimates (size : Nat → Nat) (sol : Nat → Nat → ℝ) (stage : Nat → Nat → Nat → ℝ) (stages : Nat) (err : Nat → ℝ) (dt : ℝ)
    (procs : List (List Nat)) (n : Nat) (hp : procs.flatten.Perm (List.range n)) :
    √(∑ e ∈ range n, ∑ k ∈ range (size e), sol e k ^ 2) ≤ (errorAndNorm size sol stage stages err dt procs).2 ∧
      ∀ a : ℝ, (∀ e < n, ∑ k ∈ range (size e), sol e k ^ 2 = a) →
        (errorAndNorm size sol stage stages err dt procs).2 = √n * √(∑ e ∈ range n, ∑ k ∈ range (size e), sol e k ^ 2) := by
  rw [updateNorm_eq size sol stage stages err dt procs n hp]
  constructor
  · clear hp
    induction n with
    | zero => simp
    | succ n ih =>
      rw [Finset.sum_range_succ, Finset.sum_range_succ]
      refine le_trans ?_ (add_le_add ih (le_refl _))
      have ha : 0 ≤ ∑ e ∈ range n, ∑ k ∈ range (size e), sol e k ^ 2 := Finset.sum_nonneg fun e _ => Finset.sum_nonneg fun k _ => sq_nonneg _
      have hb : 0 ≤ ∑ k ∈ range (size n), sol n k ^ 2 := Finset.sum_nonneg fun k _ => sq_nonneg _
      rw [Real.sqrt_le_iff]
      refine ⟨add_nonneg (Real.sqrt_nonneg _) (Real.sqrt_nonneg _), ?_⟩
      rw [add_sq, Real.sq_sqrt ha, Real.sq_sqrt hb]
      have := mul_nonneg (Real.sqrt_nonneg (∑ e ∈ range n, ∑ k ∈ range (size e), sol e k ^ 2))
        (Real.sqrt_nonneg (∑ k ∈ range (size n), sol n k ^ 2))
      linarith
  · intro a ha
    rw [Finset.sum_congr rfl fun e he => by rw [ha e (Finset.mem_range.1 he)],
      Finset.sum_congr (g := fun _ => a) rfl fun e he => ha e (Finset.mem_range.1 he)]
    simp only [Finset.sum_const, Finset.card_range, nsmul_eq_mul]
    rw [Real.sqrt_mul (Nat.cast_nonneg n), ← mul_assoc, Real.mul_self_sqrt (Nat.cast_nonneg n)]

/-! ## Example -/

/-- Two points with the functions `1` and `x`, for an initial solution `x²` in one component and `2 x + 1` in another. -/
def twoPoints : List Point :=
  [⟨1, fun b => if b = 0 then 1 else -1, fun v => if v = 0 then 1 else -1⟩, ⟨1, fun b => if b = 0 then 1 else 1, fun v => if v = 0 then 1 else 3⟩]

/-- The hypotheses hold for them, and the initial solution has coefficients `1, 0` and `1, 2`. -/
example : (∀ p ∈ twoPoints, 0 < p.weight) ∧ Independent 2 twoPoints ∧
    IsInitialSolution 2 2 twoPoints (fun k => if k = 0 then 1 else if k = 2 then 1 else if k = 3 then 2 else 0) := by
  refine ⟨by simp [twoPoints], ?_, ?_⟩
  · intro a ha b hb
    have h1 := ha twoPoints[0] (by simp [twoPoints])
    have h2 := ha twoPoints[1] (by simp [twoPoints])
    simp [twoPoints, Finset.sum_range_succ] at h1 h2
    obtain rfl | rfl : b = 0 ∨ b = 1 := by omega
    · linarith
    · linarith
  · rw [initial_iff_orthogonal]
    intro d
    simp [inner, value, twoPoints, Finset.sum_range_succ, index]
    ring

/-- Six elements on three processes. -/
example : [[1, 0], [2, 3], [5, 4]].flatten.Perm (List.range 6) := by decide

end Verif.Projection
