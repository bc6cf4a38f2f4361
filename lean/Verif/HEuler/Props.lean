import Verif.HEuler.Lemmas
import Mathlib.LinearAlgebra.Matrix.ToLin
import Mathlib.LinearAlgebra.FiniteDimensional.Basic
import Mathlib.LinearAlgebra.Dimension.Constructions
import Mathlib.Logic.Function.Iterate
import Mathlib.Tactic.FieldSimp
import Mathlib.Tactic.FinCases

/-!
# What the Hamiltonian discretisation conserves
-/

namespace Verif.HEuler

open Finset Matrix

set_option linter.all false

variable {E nb : Nat}

/-! ### The operators -/

/-- Rows of different velocity coefficients have different numbers, below `3 Nu`. -/
theorem numbering_injective :
    Function.Injective (numbering (E := E) (nb := nb)) ∧ ∀ x : VIdx E nb, numbering x < 3 * (E * nb) := by
  have hlt : ∀ (e : Fin E) (j : Fin nb), e.val * nb + j.val < E * nb := by
    intro e j
    have h1 : (e.val + 1) * nb ≤ E * nb := Nat.mul_le_mul_right _ e.isLt
    have h2 := j.isLt
    rw [Nat.add_mul] at h1
    omega
  have hdiv : ∀ {n a b a' b' : Nat}, b < n → b' < n → a * n + b = a' * n + b' → a = a' ∧ b = b' := by
    intro n a b a' b' h h' he
    have h1 := congrArg (· / n) he
    have h2 := congrArg (· % n) he
    have hn : 0 < n := by omega
    simp only [Nat.mul_comm _ n, Nat.mul_add_div hn, Nat.mul_add_mod, Nat.div_eq_of_lt h,
      Nat.div_eq_of_lt h', Nat.mod_eq_of_lt h, Nat.mod_eq_of_lt h', Nat.add_zero] at h1 h2
    exact ⟨h1, h2⟩
  constructor
  · rintro ⟨k, e, j⟩ ⟨k', e', j'⟩ h
    obtain ⟨h1, h2⟩ := hdiv (hlt e j) (hlt e' j') h
    obtain ⟨h3, h4⟩ := hdiv j.isLt j'.isLt h2
    have h1' : k = k' := Fin.ext h1
    rw [h1', Fin.ext h3, Fin.ext h4]
  · rintro ⟨k, e, j⟩
    have h1 := hlt e j
    have h2 : (k.val + 1) * (E * nb) ≤ 3 * (E * nb) := Nat.mul_le_mul_right _ k.isLt
    rw [Nat.add_mul] at h2
    simp only [numbering]
    omega

/-- The assembled divergence is the weak divergence, tested with any function, the assembled gradient is
its negative adjoint, and a constant pressure exerts no force. -/
theorem operators_adjoint (m : Mesh E nb) :
    (∀ (u : VIdx E nb → ℝ) (ψ : PIdx E nb → ℝ), ψ ⬝ᵥ DIV m *ᵥ u = weakDiv m u ψ ∧
      u ⬝ᵥ BF m *ᵥ ψ = -weakDiv m u ψ) ∧
    ∀ c, IsOne m c → BF m *ᵥ c = 0 := by
  refine ⟨fun u ψ => ⟨div_form m u ψ, grad_form m u ψ⟩, ?_⟩
  intro c hc
  apply dot_ext
  intro v
  rw [grad_form, dotProduct_zero, weakDiv, integral, faceIntegral]
  have h1 : ∀ e, ((m.elem e).map fun q => q.w * ∑ k, velAt v k e q.phi * derivAt c e q.grad k).sum = 0 := by
    intro e
    apply List.sum_eq_zero
    intro x hx
    obtain ⟨q, hq, rfl⟩ := List.mem_map.1 hx
    rw [Finset.sum_eq_zero, mul_zero]
    intro k _
    rw [(hc.1 e q hq).2 k, mul_zero]
  rw [Finset.sum_eq_zero (fun e _ => h1 e), List.sum_eq_zero]
  · simp
  · intro x hx
    obtain ⟨f, hf, rfl⟩ := List.mem_map.1 hx
    apply List.sum_eq_zero
    intro y hy
    obtain ⟨q, hq, rfl⟩ := List.mem_map.1 hy
    rw [(hc.2 f hf q hq).1, (hc.2 f hf q hq).2]
    ring

theorem weakDiv_add (m : Mesh E nb) (u v : VIdx E nb → ℝ) (ψ : PIdx E nb → ℝ) :
    weakDiv m (u + v) ψ = weakDiv m u ψ + weakDiv m v ψ := by
  simp only [← div_form, mulVec_add, dotProduct_add]

/-! ### Compressible flow -/

theorem cstep_eqs (m : Mesh E nb) (inv : Fin E → Matrix (Fin nb) (Fin nb) ℝ) (h : Inverse m inv) (dt : ℝ)
    (u v : VIdx E nb → ℝ) (ρ σ : PIdx E nb → ℝ)
    (hs : CStep m inv dt (Sum.elim u ρ) (Sum.elim v σ)) :
    MV m *ᵥ v - MV m *ᵥ u = (dt / 2) • BF m *ᵥ (σ + ρ) ∧
      MP m *ᵥ σ - MP m *ᵥ ρ = (dt / 2) • DIV m *ᵥ (v + u) := by
  rw [CStep, cP, cQ, fromBlocks_mulVec, fromBlocks_mulVec] at hs
  simp only [Sum.elim_comp_inl, Sum.elim_comp_inr, one_mulVec] at hs
  have h1 : v + ((-0.5 * dt) • (MInv inv * BF m)) *ᵥ σ = u + ((0.5 * dt) • (MInv inv * BF m)) *ᵥ ρ := by
    funext a; exact congrFun hs (Sum.inl a)
  have h2 : ((-0.5 * dt) • (MInvSm inv * DIV m)) *ᵥ v + σ = ((0.5 * dt) • (MInvSm inv * DIV m)) *ᵥ u + ρ := by
    funext a; exact congrFun hs (Sum.inr a)
  have h1' := congrArg (MV m *ᵥ ·) h1
  have h2' := congrArg (MP m *ᵥ ·) h2
  simp only [mulVec_add, smul_mulVec, mulVec_smul, mulVec_mulVec, ← Matrix.mul_assoc, MV_MInv m inv h,
    MP_MInvSm m inv h, Matrix.one_mul] at h1' h2'
  constructor
  · funext a
    have := congrFun h1' a
    simp only [Pi.add_apply, Pi.smul_apply, Pi.sub_apply, smul_eq_mul, mulVec_add] at this ⊢
    linarith
  · funext a
    have := congrFun h2' a
    simp only [Pi.add_apply, Pi.smul_apply, Pi.sub_apply, smul_eq_mul, mulVec_add] at this ⊢
    linarith

/-- A time step of the compressible scheme conserves the energy, whatever the mesh and the time step. -/
theorem compressible_energy (m : Mesh E nb) (inv : Fin E → Matrix (Fin nb) (Fin nb) ℝ) (h : Inverse m inv)
    (dt : ℝ) (u v : VIdx E nb → ℝ) (ρ σ : PIdx E nb → ℝ)
    (hs : CStep m inv dt (Sum.elim u ρ) (Sum.elim v σ)) : energy m v σ = energy m u ρ := by
  obtain ⟨h1, h2⟩ := cstep_eqs m inv h dt u v ρ σ hs
  have e1 := congrArg ((v + u) ⬝ᵥ ·) h1
  have e2 := congrArg ((σ + ρ) ⬝ᵥ ·) h2
  simp only [dotProduct_sub, add_dotProduct, dotProduct_smul, smul_eq_mul] at e1 e2
  have g1 : v ⬝ᵥ BF m *ᵥ (σ + ρ) + u ⬝ᵥ BF m *ᵥ (σ + ρ) = -weakDiv m (v + u) (σ + ρ) := by
    rw [← grad_form, add_dotProduct]
  have g2 : σ ⬝ᵥ DIV m *ᵥ (v + u) + ρ ⬝ᵥ DIV m *ᵥ (v + u) = weakDiv m (v + u) (σ + ρ) := by
    rw [← div_form, add_dotProduct]
  have s1 := MV_symm m u v
  have s2 := MP_symm m ρ σ
  rw [energy_form, energy_form]
  linear_combination e1 / 2 + e2 / 2 + (dt / 4) * g1 + (dt / 4) * g2 - s1 / 2 - s2 / 2

/-- A time step of the compressible scheme conserves the mass, if constants are among the functions. -/
theorem compressible_mass (m : Mesh E nb) (inv : Fin E → Matrix (Fin nb) (Fin nb) ℝ) (h : Inverse m inv)
    (dt : ℝ) (c : PIdx E nb → ℝ) (hc : IsOne m c) (u v : VIdx E nb → ℝ) (ρ σ : PIdx E nb → ℝ)
    (hs : CStep m inv dt (Sum.elim u ρ) (Sum.elim v σ)) : totalMass m σ = totalMass m ρ := by
  have hm : ∀ τ : PIdx E nb → ℝ, totalMass m τ = c ⬝ᵥ MP m *ᵥ τ := by
    intro τ
    rw [MP_form, totalMass, integral, integral]
    apply Finset.sum_congr rfl
    intro e _
    congr 1
    apply List.map_congr_left
    intro q hq
    rw [(hc.1 e q hq).1, one_mul]
  obtain ⟨_, h2⟩ := cstep_eqs m inv h dt u v ρ σ hs
  have e2 := congrArg (c ⬝ᵥ ·) h2
  have hz : weakDiv m (v + u) c = 0 := by
    have := grad_form m (v + u) c
    rw [(operators_adjoint m).2 c hc, dotProduct_zero] at this
    linarith
  simp only [dotProduct_sub, dotProduct_smul, smul_eq_mul] at e2
  rw [div_form, hz] at e2
  rw [hm, hm]
  linarith

/-- Every state has exactly one successor: the system to be solved is never singular. -/
theorem compressible_step_unique (m : Mesh E nb) (inv : Fin E → Matrix (Fin nb) (Fin nb) ℝ)
    (h : Inverse m inv) (hr : Resolves m) (dt : ℝ) (x : VIdx E nb ⊕ PIdx E nb → ℝ) :
    ∃! y, CStep m inv dt x y := by
  have hinj : Function.Injective (cP m inv dt).mulVecLin := by
    rw [← LinearMap.ker_eq_bot, LinearMap.ker_eq_bot']
    intro y hy
    rw [mulVecLin_apply] at hy
    have hs : CStep m inv dt (Sum.elim 0 0) (Sum.elim (y ∘ Sum.inl) (y ∘ Sum.inr)) := by
      rw [CStep, Sum.elim_comp_inl_inr, hy]
      have : (Sum.elim 0 0 : VIdx E nb ⊕ PIdx E nb → ℝ) = 0 := by
        funext a; cases a <;> rfl
      rw [this, mulVec_zero]
    have he := compressible_energy m inv h dt _ _ _ _ hs
    have h0 : energy m (0 : VIdx E nb → ℝ) 0 = 0 := by rw [energy_form]; simp
    rw [h0] at he
    obtain ⟨h1, h2⟩ := energy_zero m hr _ _ he
    funext a
    cases a with
    | inl a => exact congrFun h1 a
    | inr a => exact congrFun h2 a
  have hsurj : Function.Surjective (cP m inv dt).mulVecLin := LinearMap.injective_iff_surjective.1 hinj
  obtain ⟨y, hy⟩ := hsurj (cQ m inv dt *ᵥ x)
  refine ⟨y, hy, ?_⟩
  intro z hz
  apply hinj
  rw [hy]
  exact hz

/-- Over any number of steps energy and mass stay what they were at the start. -/
theorem compressible_run (m : Mesh E nb) (inv : Fin E → Matrix (Fin nb) (Fin nb) ℝ) (h : Inverse m inv)
    (dt : ℝ) (u : Nat → VIdx E nb → ℝ) (ρ : Nat → PIdx E nb → ℝ)
    (hs : ∀ n, CStep m inv dt (Sum.elim (u n) (ρ n)) (Sum.elim (u (n + 1)) (ρ (n + 1)))) (n : Nat) :
    energy m (u n) (ρ n) = energy m (u 0) (ρ 0) ∧
      ∀ c, IsOne m c → totalMass m (ρ n) = totalMass m (ρ 0) := by
  induction n with
  | zero => exact ⟨rfl, fun _ _ => rfl⟩
  | succ n ih =>
    refine ⟨(compressible_energy m inv h dt _ _ _ _ (hs n)).trans ih.1, ?_⟩
    intro c hc
    exact (compressible_mass m inv h dt c hc _ _ _ _ (hs n)).trans (ih.2 c hc)

/-! ### Incompressible flow -/

theorem istep_eqs (m : Mesh E nb) (inv : Fin E → Matrix (Fin nb) (Fin nb) ℝ) (dt : ℝ)
    (u v : VIdx E nb → ℝ) (l : PIdx E nb → ℝ) (hs : IStep m inv dt u v l) :
    v - u = MInv inv *ᵥ ((dt / 2) • C m *ᵥ (v + u) + dt • BF m *ᵥ l) ∧
      DIV m *ᵥ (MInv inv *ᵥ ((1 / 2 : ℝ) • C m *ᵥ (v + u) + BF m *ᵥ l)) = 0 := by
  rw [IStep, iP, iQ, fromBlocks_mulVec, fromRows_mulVec] at hs
  simp only [Sum.elim_comp_inl, Sum.elim_comp_inr] at hs
  have h1 : (1 + (-0.5 * dt) • (MInv inv * C m)) *ᵥ v + ((-dt) • (MInv inv * BF m)) *ᵥ l =
      (1 + (0.5 * dt) • (MInv inv * C m)) *ᵥ u := by
    funext a; exact congrFun hs (Sum.inl a)
  have h2 : ((0.5 : ℝ) • (DIV m * (MInv inv * C m))) *ᵥ v + (DIV m * (MInv inv * BF m)) *ᵥ l =
      ((-0.5 : ℝ) • (DIV m * (MInv inv * C m))) *ᵥ u := by
    funext a; exact congrFun hs (Sum.inr a)
  simp only [add_mulVec, one_mulVec, smul_mulVec, ← mulVec_mulVec] at h1 h2
  constructor
  · funext a
    have := congrFun h1 a
    simp only [mulVec_add, mulVec_smul, smul_add, Pi.add_apply, Pi.smul_apply, Pi.sub_apply,
      smul_eq_mul] at this ⊢
    linarith
  · funext a
    have := congrFun h2 a
    simp only [mulVec_add, mulVec_smul, smul_add, Pi.add_apply, Pi.smul_apply, Pi.zero_apply,
      smul_eq_mul] at this ⊢
    linarith

/-- A time step of the incompressible scheme keeps the weak divergence, tested with any function. If it is
zero at the start the step conserves the kinetic energy. -/
theorem incompressible_step (m : Mesh E nb) (inv : Fin E → Matrix (Fin nb) (Fin nb) ℝ) (h : Inverse m inv)
    (dt : ℝ) (u v : VIdx E nb → ℝ) (l : PIdx E nb → ℝ) (hs : IStep m inv dt u v l) :
    (∀ ψ, weakDiv m v ψ = weakDiv m u ψ) ∧
    kinetic m v - kinetic m u = -dt * weakDiv m u l ∧
    ((∀ ψ, weakDiv m u ψ = 0) → kinetic m v = kinetic m u) := by
  obtain ⟨h1, h2⟩ := istep_eqs m inv dt u v l hs
  have hd : DIV m *ᵥ v = DIV m *ᵥ u := by
    have e := congrArg (DIV m *ᵥ ·) h1
    have : ((dt / 2) • C m *ᵥ (v + u) + dt • BF m *ᵥ l) =
        dt • ((1 / 2 : ℝ) • C m *ᵥ (v + u) + BF m *ᵥ l) := by
      rw [smul_add, smul_smul]; congr 2; ring
    simp only [this, mulVec_smul, h2, smul_zero, mulVec_sub] at e
    exact sub_eq_zero.1 e
  have hw : ∀ ψ, weakDiv m v ψ = weakDiv m u ψ := fun ψ => by rw [← div_form, ← div_form, hd]
  have hk : kinetic m v - kinetic m u = -dt * weakDiv m u l := by
    have e := congrArg (fun x => (v + u) ⬝ᵥ MV m *ᵥ x) h1
    simp only [mulVec_mulVec, MV_MInv m inv h, one_mulVec, mulVec_sub, dotProduct_sub, dotProduct_add,
      dotProduct_smul, smul_eq_mul, C_skew, grad_form, weakDiv_add, hw] at e
    rw [add_dotProduct, add_dotProduct] at e
    have s1 := MV_symm m u v
    rw [kinetic_form, kinetic_form]
    linear_combination e / 2 - s1 / 2
  refine ⟨hw, hk, ?_⟩
  intro h0
  rw [h0 l, mul_zero] at hk
  linarith

/-- Over any number of steps a divergence free velocity stays divergence free and keeps its energy. -/
theorem incompressible_run (m : Mesh E nb) (inv : Fin E → Matrix (Fin nb) (Fin nb) ℝ) (h : Inverse m inv)
    (dt : ℝ) (u : Nat → VIdx E nb → ℝ) (l : Nat → PIdx E nb → ℝ)
    (hs : ∀ n, IStep m inv dt (u n) (u (n + 1)) (l (n + 1))) (h0 : ∀ ψ, weakDiv m (u 0) ψ = 0) (n : Nat) :
    (∀ ψ, weakDiv m (u n) ψ = 0) ∧ kinetic m (u n) = kinetic m (u 0) := by
  induction n with
  | zero => exact ⟨h0, rfl⟩
  | succ n ih =>
    obtain ⟨h1, _, h3⟩ := incompressible_step m inv h dt _ _ _ (hs n)
    exact ⟨fun ψ => (h1 ψ).trans (ih.1 ψ), (h3 ih.1).trans ih.2⟩

/-! ### The initial correction -/

/-- An element with a constant and a linear function of `x`, integrated with two points, and no internal
face. -/
noncomputable def box : Mesh 1 2 where
  elem _ := [⟨1, ![1, -1/2], fun i => if i = 1 then ![1, 0, 0] else 0⟩,
    ⟨1, ![1, 1/2], fun i => if i = 1 then ![1, 0, 0] else 0⟩]
  faces := []

/-- Flow of unit speed in direction `x`. -/
noncomputable def uniform (s : ℝ) : VIdx 1 2 → ℝ := fun x => if x.1 = 0 ∧ x.2.2 = 0 then s else 0

theorem box_div (s : ℝ) : DIV box *ᵥ uniform s = fun x => if x.2 = 1 then 2 * s else 0 := by
  apply dot_ext
  intro v
  rw [div_form]
  simp [weakDiv, integral, faceIntegral, box, velAt, fieldAt, derivAt, uniform, Fin.sum_univ_three,
    dotProduct, Fintype.sum_prod_type]
  ring

/-- There is an exact solver for every mesh, as the next theorem needs it. -/
theorem exact_solver_exists (m : Mesh E nb) : ∃ solve : (PIdx E nb → ℝ) → VIdx E nb → ℝ,
    ∀ w, DIV m *ᵥ solve (DIV m *ᵥ w) = DIV m *ᵥ w := by
  classical
  refine ⟨fun b => if h : ∃ w, DIV m *ᵥ w = b then h.choose else 0, fun w => ?_⟩
  have h : ∃ w', DIV m *ᵥ w' = DIV m *ᵥ w := ⟨w, rfl⟩
  simp only [dif_pos h]
  exact h.choose_spec

/-- With an exact solver the correction makes the divergence zero if it finds an entry of the divergence
below `-1e-13`; otherwise it changes nothing, so that afterwards the divergence is only known to be
bounded from below. A uniform flow in a closed box shows the difference: in direction `-x` it is
corrected, in direction `x` it is left with a divergence that is not zero. -/
theorem correction_partial :
    (∀ (m : Mesh E nb) (solve : (PIdx E nb → ℝ) → VIdx E nb → ℝ) (u : VIdx E nb → ℝ),
      (∀ w, DIV m *ᵥ solve (DIV m *ᵥ w) = DIV m *ᵥ w) →
      ((∃ r, (DIV m *ᵥ u) r < -1e-13) → DIV m *ᵥ correct m solve u = 0) ∧
      ((∀ r, -1e-13 ≤ (DIV m *ᵥ u) r) → correct m solve u = u) ∧
      ∀ r, -1e-13 ≤ (DIV m *ᵥ correct m solve u) r) ∧
    ∀ solve : (PIdx 1 2 → ℝ) → VIdx 1 2 → ℝ, (∀ w, DIV box *ᵥ solve (DIV box *ᵥ w) = DIV box *ᵥ w) →
      DIV box *ᵥ correct box solve (uniform (-1)) = 0 ∧
      correct box solve (uniform 1) = uniform 1 ∧ (DIV box *ᵥ uniform 1) (0, 1) = 2 := by
  have hgen : ∀ {E nb : Nat} (m : Mesh E nb) (solve : (PIdx E nb → ℝ) → VIdx E nb → ℝ) (u : VIdx E nb → ℝ),
      (∀ w, DIV m *ᵥ solve (DIV m *ᵥ w) = DIV m *ᵥ w) →
      ((∃ r, (DIV m *ᵥ u) r < -1e-13) → DIV m *ᵥ correct m solve u = 0) ∧
      ((∀ r, -1e-13 ≤ (DIV m *ᵥ u) r) → correct m solve u = u) := by
    intro E nb m solve u hsol
    constructor
    · rintro ⟨r, hr⟩
      have : ∃ r, (-(DIV m *ᵥ u)) r > 1e-13 := ⟨r, by rw [Pi.neg_apply]; linarith⟩
      unfold correct
      simp only
      rw [if_pos this, mulVec_add, ← mulVec_neg, hsol, mulVec_neg]
      simp
    · intro hr
      have : ¬ ∃ r, (-(DIV m *ᵥ u)) r > 1e-13 := by
        rintro ⟨r, h⟩
        have := hr r
        rw [Pi.neg_apply] at h
        linarith
      unfold correct
      simp only
      rw [if_neg this]
  constructor
  · intro m solve u hsol
    obtain ⟨h1, h2⟩ := hgen m solve u hsol
    refine ⟨h1, h2, ?_⟩
    intro r
    by_cases hc : ∃ r, (DIV m *ᵥ u) r < -1e-13
    · rw [h1 hc]; norm_num
    · have hc' : ∀ r, -1e-13 ≤ (DIV m *ᵥ u) r := fun r => not_lt.1 fun h => hc ⟨r, h⟩
      rw [h2 hc']; exact hc' r
  · intro solve hsol
    refine ⟨(hgen box solve _ hsol).1 ⟨(0, 1), ?_⟩, (hgen box solve _ hsol).2 ?_, ?_⟩
    · rw [box_div]; norm_num
    · intro r
      rw [box_div]
      simp only
      split <;> norm_num
    · rw [box_div]; norm_num

/-! ### A case that meets the hypotheses -/

theorem box_mass (e : Fin 1) : Matrix.of (mass box e) = !![2, 0; 0, 1/2] := by
  ext i j
  fin_cases i <;> fin_cases j <;> norm_num [mass, box]

/-- The box satisfies all hypotheses: its mass matrix is inverted, its functions are resolved and contain the
constant. So each state has exactly one successor, with the same energy and mass. -/
theorem box_ok : Inverse box (fun _ => !![1/2, 0; 0, 2]) ∧ Resolves box ∧
    IsOne box (fun x => if x.2 = 0 then 1 else 0) := by
  refine ⟨?_, ⟨?_, ?_⟩, ?_, ?_⟩
  · intro e
    rw [box_mass]
    ext i j
    fin_cases i <;> fin_cases j <;> norm_num [Matrix.mul_apply, Fin.sum_univ_two]
  · intro e q hq
    simp only [box, List.mem_cons, List.not_mem_nil, or_false] at hq
    rcases hq with rfl | rfl <;> norm_num
  · intro e c hc
    have h1 := hc _ (by simp only [box]; exact List.mem_cons_self)
    have h2 := hc _ (by simp only [box]; exact List.mem_cons_of_mem _ List.mem_cons_self)
    simp only [Fin.sum_univ_two, cons_val_zero, cons_val_one] at h1 h2
    funext j
    fin_cases j
    · simp only [Pi.zero_apply, Fin.zero_eta]; linarith
    · simp only [Pi.zero_apply, Fin.mk_one]; linarith
  · intro e q hq
    simp only [box, List.mem_cons, List.not_mem_nil, or_false] at hq
    rcases hq with rfl | rfl <;> simp [fieldAt, derivAt]
  · intro f hf
    simp [box] at hf

/-- A shear flow in the box, in direction `x` and `y`. -/
noncomputable def shear (a b : ℝ) : VIdx 1 2 → ℝ :=
  fun x => if x.2.2 = 1 then ![a, b, 0] x.1 else 0

/-- With time step 2 the rotation turns the shear flow from direction `x` to `-y`. -/
theorem shear_turns : IStep box (fun _ => !![1/2, 0; 0, 2]) 2 (shear 1 0) (shear 0 (-1)) 0 ∧
    (∀ ψ, weakDiv box (shear 1 0) ψ = 0) ∧ kinetic box (shear 1 0) = 1/4 := by
  have hd : ∀ a b ψ, weakDiv box (shear a b) ψ = 0 := by
    intro a b ψ
    simp [weakDiv, integral, faceIntegral, box, velAt, fieldAt, derivAt, shear, Fin.sum_univ_three]
    ring
  have hd' : ∀ a b, DIV box *ᵥ shear a b = 0 := by
    intro a b
    apply dot_ext
    intro ψ
    rw [div_form, hd, dotProduct_zero]
  have hc : ∀ a b, (MInv (fun _ => !![1/2, 0; 0, 2]) * C box) *ᵥ shear a b = shear b (-a) := by
    intro a b
    rw [← mulVec_mulVec]
    have hC : C box *ᵥ shear a b = shear (b / 2) (-a / 2) := by
      funext ⟨k, e, j⟩
      fin_cases k <;> fin_cases e <;> fin_cases j <;>
        norm_num [C, mulVec, dotProduct, Fintype.sum_prod_type, Fin.sum_univ_three, Fin.sum_univ_two,
          single_apply, mass, box, shear, Matrix.add_apply, Matrix.sum_apply] <;> ring
    rw [hC]
    funext ⟨k, e, j⟩
    simp only [mulVec, dotProduct, Fintype.sum_prod_type, MInv_apply]
    fin_cases k <;> fin_cases e <;> fin_cases j <;>
      norm_num [Fin.sum_univ_three, Fin.sum_univ_two, shear] <;> ring
  refine ⟨?_, hd 1 0, ?_⟩
  · rw [IStep, iP, iQ, fromBlocks_mulVec, fromRows_mulVec]
    simp only [Sum.elim_comp_inl, Sum.elim_comp_inr, mulVec_zero, add_zero, add_mulVec, one_mulVec,
      smul_mulVec, ← mulVec_mulVec]
    simp only [mulVec_mulVec, hc]
    simp only [← mulVec_mulVec, hc, hd', smul_zero]
    congr 1
    funext ⟨k, e, j⟩
    fin_cases k <;> fin_cases e <;> fin_cases j <;> norm_num [shear]
  · simp only [kinetic, integral, velAt, fieldAt, box, shear]
    norm_num [Fin.sum_univ_three, Fin.sum_univ_two]
    rfl

/-! ### The time loop -/

/-- `solve` takes one step more than the configuration asks for and ends one time step too late. -/
theorem one_step_too_many {α : Type} (step : α → α) (T : ℚ) (hT : 0 < T) (n p : Nat) (hn : 0 < n) (x : α) :
    timeLoop step (timeStep T n) (endTime T p) 0 x =
      some (step^[p * n + 1] x, endTime T p + timeStep T n) := by
  have hnq : (0 : ℚ) < n := by exact_mod_cast hn
  have hdt : 0 < timeStep T n := div_pos hT hnq
  have hend : endTime T p = (p * n : ℕ) * timeStep T n := by
    rw [endTime, timeStep]; push_cast; field_simp
  rw [hend]
  generalize timeStep T n = dt at hdt
  generalize p * n = N
  have key : ∀ d k : Nat, k + d = N + 1 → ∀ x : α,
      timeLoop step dt (N * dt) (k * dt) x = some (step^[d] x, N * dt + dt) := by
    intro d
    induction d with
    | zero =>
      intro k hk x
      rw [timeLoop, if_neg]
      · have : (k : ℚ) = N + 1 := by exact_mod_cast hk
        rw [this, Function.iterate_zero, id, add_mul, one_mul]
      · have : (k : ℚ) = N + 1 := by exact_mod_cast hk
        rw [this, not_le]
        nlinarith
    | succ d ih =>
      intro k hk x
      rw [timeLoop, if_pos]
      · have := ih (k + 1) (by omega) (step x)
        push_cast at this
        rw [add_mul, one_mul] at this
        rw [this, Function.iterate_succ_apply]
      · have : (k : ℚ) ≤ N := by exact_mod_cast (by omega : k ≤ N)
        exact mul_le_mul_of_nonneg_right this hdt.le
  have := key (N + 1) 0 (by omega) x
  rw [Nat.cast_zero, zero_mul] at this
  exact this

end Verif.HEuler
