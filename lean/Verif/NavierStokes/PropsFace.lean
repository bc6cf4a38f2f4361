import Verif.NavierStokes.Props

/-!
# Properties of the face terms of the Navier-Stokes application
-/

namespace Verif.NavierStokes

open Verif.Euler (State)
open Verif.Euler.Spec Spec

variable {d nb : ℕ} {g mu ka : ℝ}

/-- **C138, nothing is lost.**  For test functions that are constant near the face
with the same value on both sides, the terms of both elements cancel: mass, momentum
and energy that leave one element enter the other, whatever the states and the
stabilisation. -/
theorem face_conserves (l r : Coefs d) (n : Fin d → ℝ) (stab : Mat d) (tl tr : Tests d nb)
    (t : (Var d → Fin nb → ℝ) × (Var d → Fin nb → ℝ))
    (h : faceTerms g l r n stab tl tr = some t) (cl cr : Fin nb → ℝ)
    (hv : ∑ b, cl b * tl.phi b = ∑ b, cr b * tr.phi b)
    (hl : ∀ k, ∑ b, cl b * tl.grad b k = 0) (hr : ∀ k, ∑ b, cr b * tr.grad b k = 0) (v : Var d) :
    ∑ b, cl b * t.1 v b + ∑ b, cr b * t.2 v b = 0 := by
  unfold faceTerms inviscidFace at h
  cases hf : Euler.roeUnit g l.state r.state n with
  | none => rw [hf] at h; cases h
  | some f =>
    rw [hf] at h
    cases h
    have grad : ∀ (F : Fin d → ℝ) (c : Fin nb → ℝ) (T : Tests d nb),
        (∀ k, ∑ b, c b * T.grad b k = 0) → ∑ b, c b * ∑ k, F k * T.grad b k = 0 := by
      intro F c T h0
      have : ∑ b, c b * ∑ k, F k * T.grad b k = ∑ k, F k * ∑ b, c b * T.grad b k := by
        simp only [Finset.mul_sum]
        rw [Finset.sum_comm]
        exact Finset.sum_congr rfl fun k _ => Finset.sum_congr rfl fun b _ => by ring
      rw [this]
      simp [h0]
    simp only [viscousFace, auxilliaryFace, mul_add, Finset.sum_add_distrib]
    rw [grad _ cl tl hl, grad _ cr tr hr]
    have e1 : ∀ (a : ℝ) (c p : Fin nb → ℝ), ∑ b, c b * (a * p b) = a * ∑ b, c b * p b := by
      intro a c p
      rw [Finset.mul_sum]
      exact Finset.sum_congr rfl fun b _ => by ring
    have e2 : ∀ (a : ℝ) (c p : Fin nb → ℝ), ∑ b, c b * (p b * a) = a * ∑ b, c b * p b := by
      intro a c p
      rw [Finset.mul_sum]
      exact Finset.sum_congr rfl fun b _ => by ring
    have e3 : ∀ (a : ℝ) (c p : Fin nb → ℝ), ∑ b, c b * (-p b * a) = -(a * ∑ b, c b * p b) := by
      intro a c p
      rw [Finset.mul_sum, ← Finset.sum_neg_distrib]
      exact Finset.sum_congr rfl fun b _ => by ring
    rw [e1, e1, e2, e3, hv]
    ring

/-- Test functions for `face_conserves`: a constant and a linear one on both sides. -/
example : ∃ (tl tr : Tests 1 2) (cl cr : Fin 2 → ℝ), tl.grad 1 0 ≠ 0 ∧ tl.phi 1 ≠ tr.phi 1 ∧
    ∑ b, cl b * tl.phi b = ∑ b, cr b * tr.phi b ∧ ∑ b, cl b * tl.phi b = 1 ∧
    (∀ k, ∑ b, cl b * tl.grad b k = 0) ∧ ∀ k, ∑ b, cr b * tr.grad b k = 0 :=
  ⟨⟨![1, 1], ![![0], ![1]]⟩, ⟨![1, -1], ![![0], ![1]]⟩, ![1, 0], ![1, 0], by norm_num, by norm_num,
    by simp [Fin.sum_univ_two], by simp [Fin.sum_univ_two], by simp [Fin.sum_univ_two],
    by simp [Fin.sum_univ_two]⟩

/-- **C138, the terms exist** for physical states. -/
theorem face_defined (hg : 1 < g) {ql qr : State d} {jl jr : Mat d} {l r : Coefs d}
    (pl : Physical g ql) (pr : Physical g qr) (hl : air g mu ka ql jl = some l)
    (hr : air g mu ka qr jr = some r) (n : Fin d → ℝ) (stab : Mat d) (tl tr : Tests d nb) :
    (faceTerms g l r n stab tl tr).isSome := by
  have fl := air_fits (by linarith) pl hl
  have fr := air_fits (by linarith) pr hr
  unfold faceTerms inviscidFace
  rw [fl.state, fr.state, Euler.roeUnit_eq hg pl pr]
  rfl

/-- The whole flux of a viscous gas in the direction `n`: what is carried along less
what friction and conduction carry. -/
noncomputable def wholeFlux (g mu ka : ℝ) (q : State d) (j : Mat d) (n : Fin d → ℝ)
    (v : Var d) : ℝ :=
  get (flux g q n) v -
    ∑ k, contraction (computeEllipticTensor mu ka (computePartialState q)) j v k * n k

/-- **C138, inside of elements** the two terms together are the flux of the viscous
gas along the gradient of the test function. -/
theorem element_terms (hg : 1 < g) {q : State d} {j : Mat d} {c : Coefs d}
    (p : Physical g q) (hc : air g mu ka q j = some c) (t : Tests d nb) (v : Var d) (b : Fin nb) :
    inviscidElement c t v b + viscousElement c t v b = wholeFlux g mu ka q j (t.grad b) v := by
  have f := air_fits (by linarith) p hc
  unfold inviscidElement viscousElement wholeFlux
  rw [f.flux, f.tensor, f.jac, contraction_fast]
  ring

/-- **C138, consistency.**  Where neither the state nor its derivatives jump, the
terms are those of the flux of the gas, with opposite signs on both sides. -/
theorem face_consistent (hg : 1 < g) {q : State d} {j : Mat d} {l r : Coefs d}
    (p : Physical g q) (hl : air g mu ka q j = some l) (hr : air g mu ka q j = some r)
    (n : Fin d → ℝ) (tl tr : Tests d nb) :
    faceTerms g l r n (fun _ _ => 0) tl tr = some
      (fun v b => -wholeFlux g mu ka q j n v * tl.phi b,
        fun v b => wholeFlux g mu ka q j n v * tr.phi b) := by
  have fl := air_fits (by linarith) p hl
  have fr := air_fits (by linarith) p hr
  have hz : (fun (v : Var d) (k : Fin d) => 1 / 2 * (get q v - get q v) * n k) =
      fun _ _ => 0 := by
    funext v k; ring
  have hc : ∀ v k, contraction (computeEllipticTensor mu ka (computePartialState q))
      (fun _ _ => 0) v k = 0 := by
    intro v k
    unfold contraction sumVars
    simp
  unfold faceTerms inviscidFace viscousFace auxilliaryFace fluxAuxilliary wholeFlux
  rw [fl.state, fr.state, fl.jac, fr.jac, fl.tensor, fr.tensor, Euler.roeUnit_eq hg p p,
    Euler.twice_same g hg q n p]
  simp only [Option.map_some, contraction_fast, hz, hc, get_scale]
  congr 1
  refine Prod.ext ?_ ?_ <;> funext v b <;> dsimp only
  all_goals
    have e : ∀ F : Fin d → ℝ, ∑ k, (1 / 2 * (F k + F k) - eta * 0) * n k = ∑ k, F k * n k := by
      intro F
      exact Finset.sum_congr rfl fun k _ => by ring
    rw [e]
    simp only [zero_mul, Finset.sum_const_zero]
    ring

/-- **C138, no stabilisation without a jump**: whatever the mass matrix, if it can be
solved with. -/
theorem stability_zero (mass : Matrix (Fin nb) (Fin nb) ℝ) (hm : mass.det ≠ 0)
    (pts : List (FacePoint d nb))
    (h : ∀ p ∈ pts, p.left.state = p.right.state ∧
      ∃ ql qr : State d, p.left.tensor = computeEllipticTensor mu ka (computePartialState ql) ∧
        p.right.tensor = computeEllipticTensor mu ka (computePartialState qr))
    (tl tr : Tests d nb) (v : Var d) (k : Fin d) :
    stabilityParameters mass pts tl tr v k = some 0 := by
  have hz : ∀ (q : State d) (n : Fin d → ℝ), timesNormal (q.sub q) n = fun _ _ => 0 := by
    intro q n
    funext v k
    rw [timesNormal, get_sub]
    ring
  have hc : ∀ (q : State d) v k, contractionFast (computeEllipticTensor mu ka
      (computePartialState q)) (fun _ _ => 0) v k = 0 := by
    intro q v k
    rw [contraction_fast]
    unfold contraction sumVars
    simp
  have sl : stabilityRhs pts (·.left) (·.testsLeft) v k = fun _ => 0 := by
    funext b
    unfold stabilityRhs
    refine List.sum_eq_zero fun x hx => ?_
    obtain ⟨p, hp, rfl⟩ := List.mem_map.mp hx
    obtain ⟨h1, ql, qr, h2, h3⟩ := h p hp
    rw [h1, hz, h2, hc]
    ring
  have sr : stabilityRhs pts (·.right) (·.testsRight) v k = fun _ => 0 := by
    funext b
    unfold stabilityRhs
    refine List.sum_eq_zero fun x hx => ?_
    obtain ⟨p, hp, rfl⟩ := List.mem_map.mp hx
    obtain ⟨h1, ql, qr, h2, h3⟩ := h p hp
    rw [h1, hz, h3, hc]
    ring
  unfold stabilityParameters solveMass
  rw [sl, sr, if_neg hm]
  have : mass⁻¹.mulVec (fun _ => 0) = 0 := Matrix.mulVec_zero _
  simp [this]

/-- **C138, the stabilisation of a mesh with different elements.**  The parameters
are found with the mass matrix of the first element of the mesh.  In elements `c`
times as large, whose mass matrix is `c` times this one, they are `c` times what
their own mass matrix gives. -/
theorem stability_scaled (mass : Matrix (Fin nb) (Fin nb) ℝ) (hm : mass.det ≠ 0) (c : ℝ)
    (hc : c ≠ 0) (pts : List (FacePoint d nb)) (tl tr : Tests d nb) (v : Var d) (k : Fin d) :
    ∃ s, stabilityParameters (c • mass) pts tl tr v k = some s ∧
      stabilityParameters mass pts tl tr v k = some (c * s) := by
  have hcm : (c • mass).det ≠ 0 := by
    rw [Matrix.det_smul]
    exact mul_ne_zero (pow_ne_zero _ hc) hm
  have hi : (c • mass)⁻¹ = c⁻¹ • mass⁻¹ := by
    apply Matrix.inv_eq_right_inv
    rw [Matrix.smul_mul, Matrix.mul_smul, Matrix.mul_nonsing_inv _ (isUnit_iff_ne_zero.mpr hm),
      smul_smul, mul_inv_cancel₀ hc, one_smul]
  unfold stabilityParameters solveMass
  simp only [if_neg hm, if_neg hcm, hi]
  refine ⟨_, rfl, ?_⟩
  show some _ = some _
  congr 1
  have e : ∀ (x p : Fin nb → ℝ), ∑ b, ((c⁻¹ • mass⁻¹).mulVec x) b * p b =
      c⁻¹ * ∑ b, (mass⁻¹.mulVec x) b * p b := by
    intro x p
    rw [Finset.mul_sum]
    refine Finset.sum_congr rfl fun b _ => ?_
    rw [Matrix.smul_mulVec, Pi.smul_apply, smul_eq_mul]
    ring
  rw [e, e]
  field_simp

/-- **C138, which side is left does not matter** for the terms without viscosity. -/
theorem inviscid_exchange (hg : 1 < g) {ql qr : State d} {jl jr : Mat d} {l r : Coefs d}
    (pl : Physical g ql) (pr : Physical g qr) (hl : air g mu ka ql jl = some l)
    (hr : air g mu ka qr jr = some r) (n : Fin d → ℝ) (tl tr : Tests d nb) :
    inviscidFace g r l (fun i => -n i) tr tl = (inviscidFace g l r n tl tr).map Prod.swap := by
  have fl := air_fits (by linarith) pl hl
  have fr := air_fits (by linarith) pr hr
  unfold inviscidFace
  rw [fl.state, fr.state, Euler.roeUnit_eq hg pl pr, Euler.roeUnit_eq hg pr pl,
    Euler.twice_turn g hg ql qr n pl pr]
  simp only [Option.map_some, get_scale]
  congr 1
  refine Prod.ext ?_ ?_ <;> funext v b <;> simp only [Prod.swap] <;> ring

/-- The same for the auxiliary terms. -/
theorem auxilliary_exchange (l r : Coefs d) (n : Fin d → ℝ) (stab : Mat d) (tl tr : Tests d nb) :
    auxilliaryFace r l (fun i => -n i) stab tr tl =
      (auxilliaryFace l r n stab tl tr).swap := by
  unfold auxilliaryFace fluxAuxilliary
  refine Prod.ext ?_ ?_ <;> funext v b <;> simp only [Prod.swap]
  all_goals
    have e : ∀ F G S : Fin d → ℝ, ∑ k, (1 / 2 * (F k + G k) - eta * S k) * -n k =
        -∑ k, (1 / 2 * (G k + F k) - eta * S k) * n k := by
      intro F G S
      rw [← Finset.sum_neg_distrib]
      exact Finset.sum_congr rfl fun k _ => by ring
    rw [e]
    ring

/-- **C138, negation.**  For the viscous terms it does matter which side is left: the
tensor of the left side is used on both.  For this pair of physical states and every
gas with friction the terms of one of the sides differ. -/
theorem viscous_not_exchanged (hg : 1 < g) (hmu : mu ≠ 0) :
    ∃ (ql qr : State 1) (l r : Coefs 1) (tl tr : Tests 1 1), Physical g ql ∧ Physical g qr ∧
      air g mu ka ql (fun _ _ => 0) = some l ∧ air g mu ka qr (fun _ _ => 0) = some r ∧
      viscousFace r l (fun i => -![1] i) tr tl ≠ (viscousFace l r ![1] tl tr).swap := by
  have pl : Physical g (⟨1, ![0], 1⟩ : State 1) := by
    refine ⟨by norm_num, ?_⟩
    simp [press, dot]
    linarith
  have pr : Physical g (⟨2, ![2], 4⟩ : State 1) := by
    refine ⟨by norm_num, ?_⟩
    norm_num [press, dot]
    linarith
  obtain ⟨l, el, fl⟩ := air_some g mu ka (⟨1, ![0], 1⟩ : State 1) (fun _ _ => 0) (by linarith) pl
  obtain ⟨r, er, fr⟩ := air_some g mu ka (⟨2, ![2], 4⟩ : State 1) (fun _ _ => 0) (by linarith) pr
  refine ⟨_, _, l, r, ⟨fun _ => 1, fun _ _ => 1⟩, ⟨fun _ => 1, fun _ _ => 1⟩, pl, pr, el, er,
    fun h => ?_⟩
  have h1 := congrFun (congrFun (congrArg Prod.fst h) (.mom 0)) 0
  unfold viscousFace at h1
  rw [fl.state, fr.state, fl.tensor, fr.tensor] at h1
  simp only [contraction_fast, Prod.swap, Fin.sum_univ_one] at h1
  have m : ∀ (v : State 1) (x : Mat 1), contraction (computeEllipticTensor mu ka v) x (.mom 0) 0 =
      stress mu (gv v x) 0 0 := by
    intro v x
    have := congrArg (fun s => get s (.mom 0)) (contraction_eq mu ka v x 0)
    rwa [get_ofVars] at this
  rw [m, m] at h1
  simp [stress, gv, get, computePartialState] at h1
  rcases h1 with h1 | h1
  · norm_num at h1
  · exact hmu h1

/-- **C138, the viscous term at the boundary does nothing.**  It applies the tensor
to the state itself in place of the jump of the state; a multiple of the state
changes neither velocity nor temperature, so the term is zero for all physical
states. -/
theorem viscous_boundary_zero (hg : 1 < g) {qb ql : State d} {jb jl : Mat d} {b l : Coefs d}
    (pb : Physical g qb) (pl : Physical g ql) (hb : air g mu ka qb jb = some b)
    (hl : air g mu ka ql jl = some l) (n : Fin d → ℝ) (tl : Tests d nb) (v : Var d)
    (i : Fin nb) : viscousBoundary b l n tl v i = 0 := by
  have fb := air_fits (by linarith) pb hb
  have fl := air_fits (by linarith) pl hl
  have key : ∀ (q : State d), q.rho ≠ 0 → ∀ k, contraction (computeEllipticTensor mu ka
      (computePartialState q)) (timesNormal q n) v k = 0 := by
    intro q hq k
    have hv : gv (computePartialState q) (timesNormal q n) = fun _ _ => 0 := by
      funext i m
      simp only [gv, timesNormal, get, computePartialState]
      field_simp
      ring
    have he : ge (computePartialState q) (timesNormal q n) = fun _ => 0 := by
      funext m
      simp only [ge, hv, mul_zero, Finset.sum_const_zero]
      simp only [timesNormal, get, computePartialState]
      field_simp
      ring
    have e := contraction_eq mu ka (computePartialState q) (timesNormal q n) k
    rw [hv, he, rigid_no_flux mu ka _ _ (fun i j => by simp) k] at e
    have := congrArg (fun s => get s v) e
    rw [get_ofVars] at this
    rw [this]
    cases v <;> rfl
  unfold viscousBoundary
  rw [fb.state, fl.state, fb.tensor, fl.tensor]
  simp only [contraction_fast, key _ (ne_of_gt pb.1), key _ (ne_of_gt pl.1)]
  simp

/-- What the inner faces do with the same jump is not zero. -/
theorem viscous_inner_not_zero (hg : 1 < g) (hmu : mu ≠ 0) :
    ∃ (ql qr : State 1) (l r : Coefs 1) (t : Tests 1 1), Physical g ql ∧ Physical g qr ∧
      air g mu ka ql (fun _ _ => 0) = some l ∧ air g mu ka qr (fun _ _ => 0) = some r ∧
      (viscousFace l r ![1] t t).1 (.mom 0) 0 ≠ 0 := by
  have pl : Physical g (⟨1, ![0], 1⟩ : State 1) := by
    refine ⟨by norm_num, ?_⟩
    simp [press, dot]
    linarith
  have pr : Physical g (⟨2, ![2], 4⟩ : State 1) := by
    refine ⟨by norm_num, ?_⟩
    norm_num [press, dot]
    linarith
  obtain ⟨l, el, fl⟩ := air_some g mu ka (⟨1, ![0], 1⟩ : State 1) (fun _ _ => 0) (by linarith) pl
  obtain ⟨r, er, fr⟩ := air_some g mu ka (⟨2, ![2], 4⟩ : State 1) (fun _ _ => 0) (by linarith) pr
  refine ⟨_, _, l, r, ⟨fun _ => 1, fun _ _ => 1⟩, pl, pr, el, er, fun h1 => ?_⟩
  unfold viscousFace at h1
  rw [fl.state, fr.state, fl.tensor] at h1
  simp only [contraction_fast, Fin.sum_univ_one] at h1
  have m : ∀ (v : State 1) (x : Mat 1), contraction (computeEllipticTensor mu ka v) x (.mom 0) 0 =
      stress mu (gv v x) 0 0 := by
    intro v x
    have := congrArg (fun s => get s (.mom 0)) (contraction_eq mu ka v x 0)
    rwa [get_ofVars] at this
  rw [m] at h1
  simp [stress, gv, get, computePartialState] at h1
  rcases h1 with h1 | h1
  · exact hmu h1
  · norm_num at h1

/-- **C138, the flux through the boundary** is the flux of the gas if the state at
the boundary is that inside, for all kinds of boundary. -/
theorem boundary_consistent (hg : 1 < g) {q : State d} {jb jl : Mat d} {b l : Coefs d}
    (p : Physical g q) (hb : air g mu ka q jb = some b) (hl : air g mu ka q jl = some l)
    (type : BoundaryType) (n : Fin d → ℝ) : boundaryFlux g type b l n = some (flux g q n) := by
  have fb := air_fits (by linarith) p hb
  have fl := air_fits (by linarith) p hl
  unfold boundaryFlux
  split
  · rw [fb.state, fl.state, Euler.roeUnit_eq hg p p, Euler.twice_same g hg q n p]
    congr 1
    apply state_ext
    intro v
    rw [get_scale, get_scale]
    ring
  · congr 1
    apply state_ext
    intro v
    rw [get_ofVars, fb.flux]

/-- **C138, walls.**  Through an adiabatic wall at rest neither mass nor energy
passes, neither carried along nor by friction and conduction. -/
theorem wall_keeps (hg : 1 < g) {qb : State d} {jb : Mat d} {b l : Coefs d}
    (p : Physical g qb) (hb : air g mu ka qb jb = some b) (hw : qb.mom = fun _ => 0)
    (n : Fin d → ℝ) (stab : Mat d) (tl : Tests d nb) (i : Fin nb) :
    (∃ f, boundaryFlux g .adiabaticWall b l n = some f ∧ f.rho = 0 ∧ f.en = 0) ∧
      auxilliaryBoundary .adiabaticWall b l n stab tl .en i = 0 := by
  have fb := air_fits (by linarith) p hb
  constructor
  · refine ⟨_, if_neg (by decide), ?_, ?_⟩
    · show ∑ k, b.hyp .rho k * n k = 0
      rw [fb.flux]
      simp [get, flux, hw, dot]
    · show ∑ k, b.hyp .en k * n k = 0
      rw [fb.flux]
      simp [get, flux, hw, dot, vel]
  · simp [auxilliaryBoundary]

end Verif.NavierStokes
