import Verif.WaterWave.Model
import Verif.WaterWave.Spec
import Mathlib.Analysis.SpecialFunctions.Trigonometric.Deriv
import Mathlib.Tactic.LinearCombination
import Mathlib.Tactic.FieldSimp

/-!
# Properties of the water waves
-/

namespace Verif.WaterWave

open Spec

variable {n N : ℕ} {I : Type} [Fintype I]

/-! ## Rows -/

/-- The part of a vector for an unknown. -/
def part (L : Rows n N) (u : Fin 2) (v : Fin N → ℝ) : Fin n → ℝ := fun k => v (L (k, u))

theorem sum_rows (L : Rows n N) (a : Fin N → ℝ) :
    ∑ r, a r = ∑ k, a (L (k, 0)) + ∑ k, a (L (k, 1)) := by
  rw [← Equiv.sum_comp L, Fintype.sum_prod_type]
  simp only [Fin.sum_univ_two, Finset.sum_add_distrib]

theorem part_mass (s : System n I) (L : Rows n N) (u : Fin 2) (v : Fin N → ℝ) :
    part L u ((s.surfaceMass L).mulVec v) = s.mass.mulVec (part L u v) := by
  funext k
  simp only [part, Matrix.mulVec, dotProduct, System.surfaceMass, Matrix.of_apply]
  rw [sum_rows L]
  fin_cases u <;> simp

theorem part_surface (s : System n I) (L : Rows n N) (v : Fin N → ℝ) :
    part L 1 ((s.surfaceStiffness L).mulVec v) = s.ss.mulVec (part L 1 v) ∧
    part L 0 ((s.surfaceStiffness L).mulVec v) = 0 := by
  constructor <;> funext k <;>
    simp only [part, Matrix.mulVec, dotProduct, System.surfaceStiffness, Matrix.of_apply]
  · rw [sum_rows L]
    simp
  · simp

theorem part_back (s : System n I) (L : Rows n N) (w : I → ℝ) :
    part L 1 ((s.backStiffness L).mulVec w) = s.sr.mulVec w ∧
    part L 0 ((s.backStiffness L).mulVec w) = 0 := by
  constructor <;> funext k <;>
    simp [part, Matrix.mulVec, dotProduct, System.backStiffness]

theorem mix (s : System n I) (L : Rows n N) (v : Fin N → ℝ) :
    (s.mixStiffness L).mulVec v = s.rs.mulVec (part L 1 v) := by
  funext i
  simp only [part, Matrix.mulVec, dotProduct, System.mixStiffness, Matrix.of_apply]
  rw [sum_rows L]
  simp

theorem swap_even {r r' : Fin N} (h : r.val % 2 = 0) (h' : r'.val = r.val + 1) (v : Fin N → ℝ) :
    (swap N).mulVec v r = v r' ∧ (swap N).mulVec v r' = v r := by
  simp only [Matrix.mulVec, dotProduct, swap, Matrix.of_apply]
  constructor
  · rw [Finset.sum_eq_single r']
    · simp [h, h']
    · intro b _ hb
      have : ¬ (r.val % 2 = 0 ∧ b.val = r.val + 1 ∨ b.val % 2 = 0 ∧ r.val = b.val + 1) := by
        have := fun h => hb (Fin.ext h)
        omega
      rw [if_neg this, zero_mul]
    · simp
  · rw [Finset.sum_eq_single r]
    · simp [h, h']
    · intro b _ hb
      have : ¬ (r'.val % 2 = 0 ∧ b.val = r'.val + 1 ∨ b.val % 2 = 0 ∧ r'.val = b.val + 1) := by
        have := fun h => hb (Fin.ext h)
        omega
      rw [if_neg this, zero_mul]
    · simp

/-- In the interleaved layout the matrix exchanges the unknowns. -/
theorem swap_interleaved (u : Fin 2) (v : Fin (n * 2) → ℝ) :
    part (interleaved n) u ((swap (n * 2)).mulVec v) = part (interleaved n) (1 - u) v := by
  funext k
  have h0 : (interleaved n (k, 0)).val = 2 * k.val := by simp [interleaved]
  have h1 : (interleaved n (k, 1)).val = 2 * k.val + 1 := by
    simp [interleaved]; omega
  have h := swap_even (r := interleaved n (k, 0)) (r' := interleaved n (k, 1)) (by omega)
    (by omega) v
  fin_cases u
  · exact h.1
  · exact h.2

/-- **C149, the scheme.**  If the unknowns of a function are next to each other, a
time step is a step of the Störmer-Verlet scheme. -/
theorem step_verlet (s : System n I) {g dt : ℝ} {x y : State (n * 2) I}
    (h : Step s (interleaved n) g dt x y) :
    Verlet s.mass s.ss s.sr s.rs s.rr g dt (part (interleaved n) 0 x.eta)
      (part (interleaved n) 1 x.phiS) (part (interleaved n) 0 y.eta)
      (part (interleaved n) 1 y.phiS) y.phiOther := by
  obtain ⟨phiS, extra, h1, h2, h3, h4, h5⟩ := h
  have e1 : part (interleaved n) 1 phiS = part (interleaved n) 1 x.phiS -
      (g * dt / 2) • part (interleaved n) 0 x.eta := by
    have := congrFun (swap_interleaved (n := n) 1 x.eta)
    funext k
    have hk := this k
    simp only [part] at hk ⊢
    rw [h1, Pi.add_apply, Pi.smul_apply, hk]
    simp [part]
    ring
  have e5 : part (interleaved n) 1 y.phiS = part (interleaved n) 1 phiS -
      (g * dt / 2) • part (interleaved n) 0 y.eta := by
    have := congrFun (swap_interleaved (n := n) 1 y.eta)
    funext k
    have hk := this k
    simp only [part] at hk ⊢
    rw [h5, Pi.add_apply, Pi.smul_apply, hk]
    simp [part]
    ring
  refine ⟨?_, ?_, ?_⟩
  · unfold Harmonic
    rw [← e1, h2, mix]
    simp
  · have := congrArg (part (interleaved n) 0) h4
    have hp : part (interleaved n) 0 ((s.surfaceMass (interleaved n)).mulVec x.eta +
        dt • (swap (n * 2)).mulVec extra) =
        part (interleaved n) 0 ((s.surfaceMass (interleaved n)).mulVec x.eta) +
        dt • part (interleaved n) 0 ((swap (n * 2)).mulVec extra) := rfl
    rw [hp, part_mass, part_mass, swap_interleaved] at this
    rw [this]
    have e3 : part (interleaved n) (1 - 0) extra =
        flow s.ss s.sr (part (interleaved n) 1 phiS) y.phiOther := by
      rw [h3]
      change part (interleaved n) 1 ((s.surfaceStiffness (interleaved n)).mulVec phiS) +
        part (interleaved n) 1 ((s.backStiffness (interleaved n)).mulVec y.phiOther) = _
      rw [(part_surface s _ _).1, (part_back s _ _).1]
      rfl
    rw [e3, e1]
  · rw [e5, e1]

/-- Symmetric matrices. -/
def System.Symmetric (s : System n I) : Prop :=
  s.mass.transpose = s.mass ∧ s.ss.transpose = s.ss ∧ s.sr.transpose = s.rs ∧
    s.rr.transpose = s.rr

/-- The flow is a symmetric operator, whatever solutions inside the domain are taken. -/
theorem flow_symmetric {s : System n I} (hs : s.Symmetric) {φ φ' : Fin n → ℝ} {ψ ψ' : I → ℝ}
    (h : Harmonic s.rs s.rr φ ψ) (h' : Harmonic s.rs s.rr φ' ψ') :
    φ' ⬝ᵥ flow s.ss s.sr φ ψ = φ ⬝ᵥ flow s.ss s.sr φ' ψ' := by
  obtain ⟨-, h2, h3, h4⟩ := hs
  unfold flow
  rw [dotProduct_add, dotProduct_add]
  have a1 : φ' ⬝ᵥ s.ss.mulVec φ = φ ⬝ᵥ s.ss.mulVec φ' := by
    rw [Matrix.dotProduct_mulVec, ← Matrix.mulVec_transpose, h2, dotProduct_comm]
  have a2 : ∀ (φ : Fin n → ℝ) (ψ : I → ℝ), φ ⬝ᵥ s.sr.mulVec ψ = ψ ⬝ᵥ s.rs.mulVec φ := by
    intro φ ψ
    rw [Matrix.dotProduct_mulVec, ← Matrix.mulVec_transpose, h3, dotProduct_comm]
  have a3 : ψ ⬝ᵥ s.rr.mulVec ψ' = ψ' ⬝ᵥ s.rr.mulVec ψ := by
    rw [Matrix.dotProduct_mulVec, ← Matrix.mulVec_transpose, h4, dotProduct_comm]
  have b1 : ψ' ⬝ᵥ s.rr.mulVec ψ + ψ' ⬝ᵥ s.rs.mulVec φ = 0 := by
    rw [← dotProduct_add, h, dotProduct_zero]
  have b2 : ψ ⬝ᵥ s.rr.mulVec ψ' + ψ ⬝ᵥ s.rs.mulVec φ' = 0 := by
    rw [← dotProduct_add, h', dotProduct_zero]
  rw [a1, a2, a2]
  linarith

/-- Energy of the scheme: potential energy of the elevation, kinetic energy of the
potential, less a term of second order in the time step; `ψ` and `χ` are the
extensions of the potential and of the elevation into the domain. -/
noncomputable def modifiedEnergy (s : System n I) (g dt : ℝ) (η φ : Fin n → ℝ) (ψ χ : I → ℝ) : ℝ :=
  (g * (η ⬝ᵥ s.mass.mulVec η) + φ ⬝ᵥ flow s.ss s.sr φ ψ -
    (g * dt / 2) ^ 2 * (η ⬝ᵥ flow s.ss s.sr η χ)) / 2

theorem verlet_energy {s : System n I} (hs : s.Symmetric) {g dt : ℝ} {η φ η' φ' : Fin n → ℝ}
    {ψ ψ0 χ0 ψ1 χ1 : I → ℝ} (h : Verlet s.mass s.ss s.sr s.rs s.rr g dt η φ η' φ' ψ)
    (e1 : Harmonic s.rs s.rr φ ψ0) (e2 : Harmonic s.rs s.rr η χ0)
    (e3 : Harmonic s.rs s.rr φ' ψ1) (e4 : Harmonic s.rs s.rr η' χ1) :
    modifiedEnergy s g dt η' φ' ψ1 χ1 = modifiedEnergy s g dt η φ ψ0 χ0 := by
  obtain ⟨h1, h2, h3⟩ := h
  set c := g * dt / 2 with hc
  set p := φ - c • η with hp
  have hφ : φ = p + c • η := by rw [hp]; abel
  have hφ' : φ' = p - c • η' := h3
  have key : ∀ (θ : Fin n → ℝ) (χ : I → ℝ) (w : Fin n → ℝ) (σ : I → ℝ) (a : ℝ),
      Harmonic s.rs s.rr θ χ → Harmonic s.rs s.rr w σ → w = p + a • θ →
      w ⬝ᵥ flow s.ss s.sr w σ = p ⬝ᵥ flow s.ss s.sr p ψ + 2 * a * (θ ⬝ᵥ flow s.ss s.sr p ψ) +
        a ^ 2 * (θ ⬝ᵥ flow s.ss s.sr θ χ) := by
    intro θ χ w σ a hθ hw e
    have i1 : w ⬝ᵥ flow s.ss s.sr w σ =
        p ⬝ᵥ flow s.ss s.sr w σ + a * (θ ⬝ᵥ flow s.ss s.sr w σ) := by
      conv_lhs => rw [show w ⬝ᵥ flow s.ss s.sr w σ = (p + a • θ) ⬝ᵥ flow s.ss s.sr w σ by
        rw [← e]]
      rw [add_dotProduct, smul_dotProduct, smul_eq_mul]
    have i2 : p ⬝ᵥ flow s.ss s.sr w σ =
        p ⬝ᵥ flow s.ss s.sr p ψ + a * (θ ⬝ᵥ flow s.ss s.sr p ψ) := by
      rw [flow_symmetric hs hw h1, e, add_dotProduct, smul_dotProduct, smul_eq_mul]
    have i3 : θ ⬝ᵥ flow s.ss s.sr w σ =
        p ⬝ᵥ flow s.ss s.sr θ χ + a * (θ ⬝ᵥ flow s.ss s.sr θ χ) := by
      rw [flow_symmetric hs hw hθ, e, add_dotProduct, smul_dotProduct, smul_eq_mul]
    have i4 : p ⬝ᵥ flow s.ss s.sr θ χ = θ ⬝ᵥ flow s.ss s.sr p ψ := flow_symmetric hs hθ h1
    rw [i1, i2, i3, i4]
    ring
  have k1 := key η χ0 φ ψ0 c e2 e1 hφ
  have k2 := key η' χ1 φ' ψ1 (-c) e4 e3 (by rw [hφ', neg_smul, sub_eq_add_neg])
  have hm : η' ⬝ᵥ s.mass.mulVec η = η ⬝ᵥ s.mass.mulVec η' := by
    rw [Matrix.dotProduct_mulVec, ← Matrix.mulVec_transpose, hs.1, dotProduct_comm]
  have m1 : η' ⬝ᵥ s.mass.mulVec η' = η' ⬝ᵥ s.mass.mulVec η + dt * (η' ⬝ᵥ flow s.ss s.sr p ψ) := by
    rw [h2, dotProduct_add, dotProduct_smul, smul_eq_mul]
  have m2 : η ⬝ᵥ s.mass.mulVec η' = η ⬝ᵥ s.mass.mulVec η + dt * (η ⬝ᵥ flow s.ss s.sr p ψ) := by
    rw [h2, dotProduct_add, dotProduct_smul, smul_eq_mul]
  unfold modifiedEnergy
  rw [k1, k2]
  have hc' : 2 * c = g * dt := by rw [hc]; ring
  linear_combination (g / 2) * m1 + (g / 2) * m2 + (g / 2) * hm -
    ((η ⬝ᵥ flow s.ss s.sr p ψ + η' ⬝ᵥ flow s.ss s.sr p ψ) / 2) * hc'

/-- **C149, energy.**  With the interleaved layout every run keeps the energy of the
scheme. -/
theorem run_energy {s : System n I} (hs : s.Symmetric)
    (hx : ∀ φ, ∃ ψ, Harmonic s.rs s.rr φ ψ) {g dt : ℝ} {x y : State (n * 2) I}
    (h : Run s (interleaved n) g dt x y) {ψ0 χ0 ψ1 χ1 : I → ℝ}
    (e1 : Harmonic s.rs s.rr (part (interleaved n) 1 x.phiS) ψ0)
    (e2 : Harmonic s.rs s.rr (part (interleaved n) 0 x.eta) χ0)
    (e3 : Harmonic s.rs s.rr (part (interleaved n) 1 y.phiS) ψ1)
    (e4 : Harmonic s.rs s.rr (part (interleaved n) 0 y.eta) χ1) :
    modifiedEnergy s g dt (part (interleaved n) 0 y.eta) (part (interleaved n) 1 y.phiS) ψ1 χ1 =
    modifiedEnergy s g dt (part (interleaved n) 0 x.eta) (part (interleaved n) 1 x.phiS) ψ0 χ0 := by
  induction h generalizing ψ1 χ1 with
  | refl =>
    unfold modifiedEnergy
    rw [flow_symmetric hs e3 e1, flow_symmetric hs e4 e2]
  | step _ hs' ih =>
    obtain ⟨ψ2, h2⟩ := hx (part (interleaved n) 1 (State.phiS _))
    obtain ⟨χ2, h3⟩ := hx (part (interleaved n) 0 (State.eta _))
    rw [verlet_energy hs (step_verlet s hs') h2 h3 e3 e4]
    exact ih h2 h3

/-- **C149, reversibility.**  A step of the scheme is undone by a step back in time. -/
theorem verlet_reversible {s : System n I} {g dt : ℝ} {η φ η' φ' : Fin n → ℝ} {ψ : I → ℝ}
    (h : Verlet s.mass s.ss s.sr s.rs s.rr g dt η φ η' φ' ψ) :
    Verlet s.mass s.ss s.sr s.rs s.rr g (-dt) η' φ' η φ ψ := by
  obtain ⟨h1, h2, h3⟩ := h
  have e : φ' - (g * -dt / 2) • η' = φ - (g * dt / 2) • η := by
    rw [h3]
    funext k
    simp only [Pi.sub_apply, Pi.smul_apply, smul_eq_mul]
    ring
  refine ⟨?_, ?_, ?_⟩
  · rw [e]; exact h1
  · rw [e, h2]
    funext k
    simp only [Pi.add_apply, Pi.smul_apply, smul_eq_mul]
    ring
  · rw [e]
    funext k
    simp only [Pi.sub_apply, Pi.smul_apply, smul_eq_mul]
    ring

/-- **C149, the potential inside lags.**  After a step the written potential is not
the one of the written surface, unless the last half step does not change it. -/
theorem interior_lags {s : System n I} {g dt : ℝ} {η φ η' φ' : Fin n → ℝ} {ψ : I → ℝ}
    (h : Verlet s.mass s.ss s.sr s.rs s.rr g dt η φ η' φ' ψ) :
    s.rr.mulVec ψ + s.rs.mulVec φ' = -((g * dt / 2) • s.rs.mulVec η') := by
  obtain ⟨h1, h2, h3⟩ := h
  rw [h3, Matrix.mulVec_sub, ← add_sub_assoc]
  unfold Harmonic at h1
  rw [h1, Matrix.mulVec_smul, zero_sub]

/-! ## The layout of the program -/

/-- With an even number of functions at the surface, the matrix of the program
exchanges pairs of elevations and pairs of potentials. -/
theorem swap_blocked (hn : n % 2 = 0) (u : Fin 2) (v : Fin (2 * n) → ℝ)
    (h : part (blocked n) u v = 0) : part (blocked n) u ((swap (2 * n)).mulVec v) = 0 := by
  have hv : ∀ (k : Fin n), (blocked n (k, u)).val = k.val + n * u.val := by
    intro k; simp [blocked]
  have h0 : ∀ k, v (blocked n (k, u)) = 0 := congrFun h
  have hnu : n * u.val % 2 = 0 := by
    rw [Nat.mul_mod, hn]; simp
  funext k
  change (swap (2 * n)).mulVec v (blocked n (k, u)) = 0
  rcases Nat.mod_two_eq_zero_or_one k.val with hk | hk
  · have hk1 : k.val + 1 < n := by have := k.isLt; omega
    have := (swap_even (r := blocked n (k, u)) (r' := blocked n (⟨k.val + 1, hk1⟩, u))
      (by rw [hv]; omega) (by rw [hv, hv]; simp; omega) v).1
    rw [this]
    exact h0 _
  · have hk1 : k.val - 1 < n := by have := k.isLt; omega
    have := (swap_even (r := blocked n (⟨k.val - 1, hk1⟩, u)) (r' := blocked n (k, u))
      (by rw [hv]; simp; omega) (by rw [hv, hv]; simp; omega) v).2
    rw [this]
    exact h0 _

/-- **C149 fails.**  With the layout of the program and an even number of functions at
the surface the elevation never changes. -/
theorem elevation_frozen {s : System n I} (hm : Function.Injective s.mass.mulVec)
    (hn : n % 2 = 0) {g dt : ℝ} {x y : State (2 * n) I} (h : Run s (blocked n) g dt x y) :
    part (blocked n) 0 y.eta = part (blocked n) 0 x.eta := by
  induction h with
  | refl => rfl
  | step _ hs ih =>
    rw [← ih]
    obtain ⟨phiS, extra, -, -, h3, h4, -⟩ := hs
    have e0 : part (blocked n) 0 extra = 0 := by
      rw [h3]
      change part (blocked n) 0 ((s.surfaceStiffness (blocked n)).mulVec phiS) +
        part (blocked n) 0 ((s.backStiffness (blocked n)).mulVec _) = _
      rw [(part_surface s _ _).2, (part_back s _ _).2, add_zero]
    have := congrArg (part (blocked n) 0) h4
    rw [part_mass] at this
    apply hm
    rw [this]
    change part (blocked n) 0 ((s.surfaceMass (blocked n)).mulVec _) +
      dt • part (blocked n) 0 ((swap (2 * n)).mulVec extra) = _
    rw [part_mass, swap_blocked hn 0 extra e0, smul_zero, add_zero]

/-- Every state has a next one if the matrices are invertible. -/
theorem step_exists [DecidableEq I] {s : System n I} (hm : IsUnit s.mass.det)
    (hr : IsUnit s.rr.det) (L : Rows n N) (g dt : ℝ) (x : State N I) :
    ∃ y, Step s L g dt x y := by
  let phiS := x.phiS + (-g * dt / 2) • (swap N).mulVec x.eta
  let other := s.rr⁻¹.mulVec ((-1 : ℝ) • (s.mixStiffness L).mulVec phiS)
  let extra := (s.surfaceStiffness L).mulVec phiS + (s.backStiffness L).mulVec other
  let rhs := (s.surfaceMass L).mulVec x.eta + dt • (swap N).mulVec extra
  let eta : Fin N → ℝ := fun r => s.mass⁻¹.mulVec (part L (L.symm r).2 rhs) (L.symm r).1
  refine ⟨⟨eta, phiS + (-g * dt / 2) • (swap N).mulVec eta, other⟩, phiS, extra, rfl, ?_, rfl,
    ?_, rfl⟩
  · rw [Matrix.mulVec_mulVec, Matrix.mul_nonsing_inv _ hr, Matrix.one_mulVec]
  · have hp : ∀ u, part L u ((s.surfaceMass L).mulVec eta) = part L u rhs := by
      intro u
      rw [part_mass]
      have : part L u eta = s.mass⁻¹.mulVec (part L u rhs) := by
        funext k
        simp [part, eta]
      rw [this, Matrix.mulVec_mulVec, Matrix.mul_nonsing_inv _ hm, Matrix.one_mulVec]
    funext r
    have := congrFun (hp (L.symm r).2) (L.symm r).1
    simp only [part, Prod.mk.eta, Equiv.apply_symm_apply] at this
    exact this

/-- Two functions at the surface and one below. -/
noncomputable def small : System 2 Unit where
  mass := 1
  ss := 1
  sr := Matrix.of fun _ _ => -1 / 2
  rs := Matrix.of fun _ _ => -1 / 2
  rr := 1

theorem small_symmetric : small.Symmetric :=
  ⟨Matrix.transpose_one, Matrix.transpose_one, rfl, Matrix.transpose_one⟩

theorem small_extends (φ : Fin 2 → ℝ) : ∃ ψ, Harmonic small.rs small.rr φ ψ :=
  ⟨-small.rs.mulVec φ, by unfold Harmonic; simp [small]⟩

/-- The elevation should change: the same system in the two layouts. -/
theorem small_moves :
    (∃ x y, Step small (interleaved 2) 1 1 x y ∧
      part (interleaved 2) 0 y.eta ≠ part (interleaved 2) 0 x.eta) ∧
    ∀ x y, Run small (blocked 2) 1 1 x y →
      part (blocked 2) 0 y.eta = part (blocked 2) 0 x.eta := by
  refine ⟨?_, fun x y h => elevation_frozen (by
    intro a b hab
    simpa [small] using hab) rfl h⟩
  obtain ⟨y, hy⟩ := step_exists (s := small) (by simp [small]) (by simp [small])
    (interleaved 2) 1 1 ⟨fun _ => 0, fun r => if r = interleaved 2 (0, 1) then 1 else 0, fun _ => 0⟩
  refine ⟨_, y, hy, fun he => ?_⟩
  obtain ⟨h1, h2, -⟩ := step_verlet small hy
  rw [he] at h2
  have e0 : part (interleaved 2) 0 (fun _ : Fin (2 * 2) => (0 : ℝ)) = 0 := rfl
  simp only [e0, smul_zero, sub_zero] at h1 h2
  have a1 := congrFun h1 ()
  have a2 := congrFun h2 0
  simp [small, part, Matrix.mulVec, dotProduct, Harmonic, flow, Matrix.one_apply] at a1 a2
  linarith

/-! ## The exact solution -/

/-- **C150.**  The exact solution: the Laplace equation in the water, no flow through
the bottom, and at the surface (`g = 1`) `φ_t = -η`, `η_t = φ_z`; period one. -/
theorem exact_solves :
    ∃ φx φxx φz φzz : ℝ → ℝ → ℝ → ℝ,
      (∀ t x z, HasDerivAt (fun x => exactPhi t x z) (φx t x z) x) ∧
      (∀ t x z, HasDerivAt (fun x => φx t x z) (φxx t x z) x) ∧
      (∀ t x z, HasDerivAt (fun z => exactPhi t x z) (φz t x z) z) ∧
      (∀ t x z, HasDerivAt (fun z => φz t x z) (φzz t x z) z) ∧
      (∀ t x z, φxx t x z + φzz t x z = 0) ∧ (∀ t x, φz t x (-1) = 0) ∧
      (∀ t x z, HasDerivAt (fun t => exactPhi t x z) (-exactEta t x z) t) ∧
      (∀ t x, HasDerivAt (fun t => exactEta t x 0) (φz t x 0) t) ∧
      ∀ t x z, exactPhi t (x + 1) z = exactPhi t x z ∧ exactEta t (x + 1) z = exactEta t x z := by
  set k := 2 * Real.pi with hk
  set ω := Real.sqrt (k * Real.tanh k) with hω
  have hφ : ∀ t x z, exactPhi t x z =
      Real.cosh (k * (z + 1)) * Real.cos (ω * t - k * x) / Real.cosh k * (1 / 1000) :=
    fun _ _ _ => rfl
  have hη : ∀ t x z, exactEta t x z =
      Real.cosh (k * (z + 1)) * Real.sin (ω * t - k * x) * ω / Real.cosh k * (1 / 1000) :=
    fun _ _ _ => rfl
  have hk0 : 0 < k := by rw [hk]; positivity
  have hc0 : 0 < Real.cosh k := Real.cosh_pos k
  have hω2 : ω * ω = k * (Real.sinh k / Real.cosh k) := by
    rw [hω, Real.mul_self_sqrt, Real.tanh_eq_sinh_div_cosh]
    rw [Real.tanh_eq_sinh_div_cosh]
    exact mul_nonneg hk0.le (div_nonneg (Real.sinh_nonneg_iff.mpr hk0.le) hc0.le)
  have ph : ∀ t x : ℝ, HasDerivAt (fun x => ω * t - k * x) (-k) x := fun t x =>
    (((hasDerivAt_id' x).const_mul k).const_sub (ω * t)).congr_deriv (by ring)
  have pt : ∀ t x : ℝ, HasDerivAt (fun t => ω * t - k * x) ω t := fun t x =>
    (((hasDerivAt_id' t).const_mul ω).sub_const (k * x)).congr_deriv (by ring)
  have pz : ∀ z : ℝ, HasDerivAt (fun z => k * (z + 1)) k z := fun z =>
    (((hasDerivAt_id' z).add_const 1).const_mul k).congr_deriv (by ring)
  refine ⟨fun t x z => k * Real.cosh (k * (z + 1)) * Real.sin (ω * t - k * x) / Real.cosh k *
      (1 / 1000),
    fun t x z => -(k ^ 2) * exactPhi t x z,
    fun t x z => k * Real.sinh (k * (z + 1)) * Real.cos (ω * t - k * x) / Real.cosh k * (1 / 1000),
    fun t x z => k ^ 2 * exactPhi t x z, fun t x z => ?_, fun t x z => ?_, fun t x z => ?_,
    fun t x z => ?_, fun t x z => by ring, fun t x => by simp, fun t x z => ?_, fun t x => ?_,
    fun t x z => ?_⟩
  · have h := (((((ph t x).cos).const_mul (Real.cosh (k * (z + 1)))).div_const
      (Real.cosh k)).mul_const (1 / 1000))
    exact h.congr_deriv (by ring)
  · have h := (((((ph t x).sin).const_mul (k * Real.cosh (k * (z + 1)))).div_const
      (Real.cosh k)).mul_const (1 / 1000))
    exact h.congr_deriv (by simp only [hφ]; ring)
  · have h := (((((pz z).cosh).mul_const (Real.cos (ω * t - k * x))).div_const
      (Real.cosh k)).mul_const (1 / 1000))
    exact h.congr_deriv (by ring)
  · have h := ((((((pz z).sinh).const_mul k).mul_const (Real.cos (ω * t - k * x))).div_const
      (Real.cosh k)).mul_const (1 / 1000))
    exact h.congr_deriv (by simp only [hφ]; ring)
  · have h := (((((pt t x).cos).const_mul (Real.cosh (k * (z + 1)))).div_const
      (Real.cosh k)).mul_const (1 / 1000))
    exact h.congr_deriv (by simp only [hη]; ring)
  · have h := ((((((pt t x).sin).const_mul (Real.cosh (k * (0 + 1)))).mul_const ω).div_const
      (Real.cosh k)).mul_const (1 / 1000))
    refine h.congr_deriv ?_
    have e : Real.cosh (k * (0 + 1)) * (Real.cos (ω * t - k * x) * ω) * ω =
        Real.cosh k * Real.cos (ω * t - k * x) * (k * (Real.sinh k / Real.cosh k)) := by
      rw [← hω2, zero_add, mul_one]; ring
    rw [e]
    simp only [zero_add, mul_one]
    field_simp
  · have e : ω * t - k * (x + 1) = ω * t - k * x - 2 * Real.pi := by rw [hk]; ring
    rw [hφ, hφ, hη, hη, e, Real.cos_sub_two_pi, Real.sin_sub_two_pi]
    exact ⟨rfl, rfl⟩

end Verif.WaterWave
