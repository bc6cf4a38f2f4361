import Verif.OldNavierStokes.Spec
import Verif.Euler.Props

/-!
# Properties of the inviscid terms of the older compressible Navier-Stokes application
-/

namespace Verif.OldNavierStokes

open Verif.Euler Verif.Euler.Spec

variable {d : ℕ}

/-- C188. With the pressure of the state, the flux at the boundary is the physical flux. -/
theorem fluxFunction_physical (g : ℝ) (q : State d) (n : Fin d → ℝ) (hq : q.rho ≠ 0) :
    fluxFunction q (press g q) n = some (flux g q n) := by
  unfold fluxFunction
  dsimp only
  rw [if_neg hq]
  congr 1
  apply plus_ext
  · rfl
  · intro j
    simp only [flux, dot, vel]
    rw [Finset.mul_sum]
    congr 1
    refine Finset.sum_congr rfl fun i _ => ?_
    norm_num
    field_simp
  · simp only [flux, dot, vel]
    rw [Finset.mul_sum]
    refine Finset.sum_congr rfl fun i _ => ?_
    norm_num
    field_simp

/-- C188. Inside the elements the term is the physical flux in the direction of the gradient. -/
theorem elementTerm_physical (g : ℝ) (q : State d) (grad : Fin d → ℝ) (hq : q.rho ≠ 0) :
    elementTerm q (press g q) grad = some (flux g q grad) := by
  unfold elementTerm
  dsimp only
  rw [if_neg hq]
  congr 1
  apply plus_ext
  · rfl
  · intro j
    simp only [flux, dot, vel]
    rw [Finset.mul_sum]
    congr 1
    refine Finset.sum_congr rfl fun i _ => ?_
    rw [show (1.0 : ℝ) = 1 by norm_num]
    field_simp
  · simp only [flux, dot, vel]
    rw [Finset.mul_sum]
    refine Finset.sum_congr rfl fun i _ => ?_
    rw [show (1.0 : ℝ) = 1 by norm_num]
    field_simp

theorem assign_other (l : List (ℕ × ℝ)) : ∀ (v : ℕ → ℝ) (k : ℕ), (∀ e ∈ l, e.1 ≠ k) → assign l v k = v k := by
  induction l with
  | nil => intro v k _; rfl
  | cons e l ih =>
    intro v k h
    have := ih (Function.update v e.1 e.2) k (fun x hx => h x (by simp [hx]))
    rw [show assign (e :: l) v = assign l (Function.update v e.1 e.2) from rfl, this,
      Function.update_of_ne (Ne.symm (h e (by simp)))]

theorem assign_mem (l : List (ℕ × ℝ)) : ∀ (v : ℕ → ℝ) (k : ℕ) (x : ℝ), (k, x) ∈ l →
    (∀ e ∈ l, e.1 = k → e.2 = x) → assign l v k = x := by
  induction l with
  | nil => intro v k x h; simp at h
  | cons e l ih =>
    intro v k x h hu
    rw [show assign (e :: l) v = assign l (Function.update v e.1 e.2) from rfl]
    by_cases hm : ∃ e' ∈ l, e'.1 = k
    · obtain ⟨e', he', hk⟩ := hm
      apply ih _ k x
      · have := hu e' (by simp [he']) hk
        rw [← hk, ← this]; exact he'
      · intro e'' h'' ; exact hu e'' (by simp [h''])
    · have hno : ∀ e' ∈ l, e'.1 ≠ k := fun e' he' hk => hm ⟨e', he', hk⟩
      rw [assign_other l _ k hno]
      rcases List.mem_cons.mp h with h | h
      · rw [← h, Function.update_self]
      · exact absurd rfl (hno _ h)

theorem mem_loop (n nV iB iV : ℕ) : (iB, iV) ∈ loop n nV ↔ iB < n ∧ iV < nV := by
  simp [loop]

theorem assign_loop (n nV : ℕ) (f : ℕ → ℕ → ℝ) (iB iV : ℕ) (hB : iB < n) (hV : iV < nV) :
    assign ((loop n nV).map fun e => (single n e.1 e.2, f e.1 e.2)) 0 (single n iB iV) = f iB iV := by
  apply assign_mem
  · exact List.mem_map.mpr ⟨(iB, iV), (mem_loop n nV iB iV).mpr ⟨hB, hV⟩, rfl⟩
  · intro e he hk
    obtain ⟨⟨a, b⟩, hab, rfl⟩ := List.mem_map.mp he
    obtain ⟨ha, hb⟩ := (mem_loop n nV a b).mp hab
    simp only [single] at hk
    have hn : 0 < n := by omega
    have h1 : b = iV := by
      have := congrArg (· / n) hk
      simpa [Nat.mul_add_div, Nat.add_comm, Nat.add_mul_div_right, hn, Nat.div_eq_of_lt ha, Nat.div_eq_of_lt hB] using this
    subst h1
    have h2 : a = iB := by omega
    rw [h2]

theorem tested_assign (n : ℕ) (phi : ℕ → ℝ) (c : ℝ) (x : State d) :
    Tested n phi (scale c x)
      (assign ((loop n (d + 2)).map fun e => (single n e.1 e.2, c * entry x e.2 * phi e.1)) 0) := by
  have key := fun iB iV hB hV => assign_loop n (d + 2) (fun a b => c * entry x b * phi a) iB iV hB hV
  constructor
  · intro i hi
    have := key i 0 hi (by omega)
    rw [show single n i 0 = i by simp [single]] at this
    rw [this]; simp [entry, scale]
  · intro j i hi
    have := key i (j + 1) hi (by omega)
    change assign _ 0 (_ * n + i) = _ at this
    rw [this]; simp [entry, scale]
  · intro i hi
    have := key i (d + 1) hi (by omega)
    change assign _ 0 (_ * n + i) = _ at this
    rw [this]; simp [entry, scale]

/-- C188. The vector of a face term holds minus the flux times the test functions. -/
theorem faceTerm_tested (n : ℕ) (phi : ℕ → ℝ) (f : State d) :
    Tested n phi (scale (-1) f) (faceTerm n phi f) := by
  have h := tested_assign n phi 1 f
  simp only [one_mul] at h
  constructor
  · intro i hi; have := h.density i hi; simp only [faceTerm, scale] at this ⊢; rw [this]; ring
  · intro j i hi; have := h.momentum j i hi; simp only [faceTerm, scale] at this ⊢; rw [this]; ring
  · intro i hi; have := h.energy i hi; simp only [faceTerm, scale] at this ⊢; rw [this]; ring

/-- C188. The term of a boundary face is minus the physical flux of the state prescribed there. -/
theorem boundaryTerm_tested (n : ℕ) (phi : ℕ → ℝ) (g : ℝ) (q : State d) (normal : Fin d → ℝ) (hq : q.rho ≠ 0) :
    ∃ v, boundaryTerm n phi q (press g q) normal = some v ∧ Tested n phi (scale (-1) (flux g q normal)) v := by
  refine ⟨faceTerm n phi (flux g q normal), ?_, faceTerm_tested n phi _⟩
  rw [boundaryTerm, fluxFunction_physical g q normal hq]; rfl

/-- C188. Computed from the other side, with the opposite normal, the flux is the opposite. -/
theorem roe_opposite (g : ℝ) (hg : 1 < g) (ql qr : State d) (n : Fin d → ℝ) (hl : Physical g ql)
    (hr : Physical g qr) :
    ∃ f, roeUnit g ql qr n = some f ∧ roeUnit g qr ql (fun i => -n i) = some (scale (-1) f) := by
  refine ⟨_, roeUnit_eq hg hl hr, ?_⟩
  rw [roeUnit_eq hg hr hl, twice_turn g hg ql qr n hl hr]
  congr 1
  apply plus_ext
  · simp only [scale]; ring
  · intro i; simp only [scale]; ring
  · simp only [scale]; ring

/-- C189. When the two elements have the same number of basis functions, the two vectors of an internal face are
minus and plus one flux, times the test functions of their side: nothing is lost or gained at the face; and for
equal states the flux is the physical one. Missing for the full claim: elements with different numbers of basis
functions, see `faceTerms_mixed` and `faceTerms_fewer`. -/
theorem faceTerms_partial (n : ℕ) (phiL phiR : ℕ → ℝ) (g : ℝ) (hg : 1 < g) (ql qr : State d)
    (normal : Fin d → ℝ) (hl : Physical g ql) (hr : Physical g qr) :
    ∃ f l r, faceTerms n n phiL phiR g ql qr normal = some (l, r) ∧
      Tested n phiL (scale (-1) f) l ∧ Tested n phiR f r ∧
      (ql = qr → f = flux g ql normal) := by
  refine ⟨scale (1 / 2) (twiceRoe g ql qr normal),
    assign ((loop n (d + 2)).map fun e => (single n e.1 e.2,
      -entry (scale (1 / 2) (twiceRoe g ql qr normal)) e.2 * phiL e.1)) 0,
    assign ((loop n (d + 2)).map fun e => (single n e.1 e.2,
      entry (scale (1 / 2) (twiceRoe g ql qr normal)) e.2 * phiR e.1)) 0, ?_, ?_, ?_, ?_⟩
  · rw [faceTerms, roeUnit_eq hg hl hr]
    simp only [Option.bind_eq_bind, Option.bind_some, lt_irrefl, if_false]
  · have := tested_assign n phiL (-1) (scale (1 / 2) (twiceRoe g ql qr normal))
    simpa only [neg_mul, one_mul] using this
  · have := tested_assign n phiR 1 (scale (1 / 2) (twiceRoe g ql qr normal))
    have h1 : scale 1 (scale (1 / 2) (twiceRoe g ql qr normal)) = scale (1 / 2) (twiceRoe g ql qr normal) := by
      apply plus_ext
      · simp [scale]
      · intro i; simp [scale]
      · simp [scale]
    rw [h1] at this
    simpa only [one_mul] using this
  · rintro rfl
    rw [twice_same g hg ql normal hl]
    apply plus_ext
    · simp [scale]
    · intro i; simp [scale]
    · simp [scale]

/-- C189 (negation). One basis function on the left and two on the right: the place of the second test function for
the density holds the momentum flux times the first one. -/
theorem faceTerms_mixed (phiL phiR : ℕ → ℝ) (g : ℝ) (hg : 1 < g) (ql qr : State (d + 1))
    (normal : Fin (d + 1) → ℝ) (hl : Physical g ql) (hr : Physical g qr) :
    ∃ f l r, roeUnit g ql qr normal = some f ∧ faceTerms 1 2 phiL phiR g ql qr normal = some (l, r) ∧
      r 1 = f.mom 0 * phiR 0 := by
  refine ⟨scale (1 / 2) (twiceRoe g ql qr normal),
    assign ((loop 1 (d + 1 + 2)).map fun e => (single 1 e.1 e.2,
      -entry (scale (1 / 2) (twiceRoe g ql qr normal)) e.2 * phiL e.1)) 0,
    assign ((loop 1 (d + 1 + 2)).map fun e => (single 1 e.1 e.2,
      entry (scale (1 / 2) (twiceRoe g ql qr normal)) e.2 * phiR e.1)) 0, roeUnit_eq hg hl hr, ?_, ?_⟩
  · rw [faceTerms, roeUnit_eq hg hl hr]
    simp only [Option.bind_eq_bind, Option.bind_some]
    rw [if_neg (by omega)]
  · have := assign_loop 1 (d + 1 + 2)
      (fun a b => entry (scale (1 / 2) (twiceRoe g ql qr normal)) b * phiR a) 0 1 (by omega) (by omega)
    rw [show single 1 0 1 = 1 from rfl] at this
    rw [this]
    simp [entry]

/-- C189 (negation). With fewer basis functions on the right the loop runs past them. -/
theorem faceTerms_fewer (nL nR : ℕ) (h : nR < nL) (phiL phiR : ℕ → ℝ) (g : ℝ) (ql qr : State d)
    (normal : Fin d → ℝ) : faceTerms nL nR phiL phiR g ql qr normal = none := by
  rw [faceTerms]
  cases roeUnit g ql qr normal with
  | none => rfl
  | some f => simp [h]

/-- Non-vacuity: for a gas at `sample` on both sides the face term is minus the physical flux. -/
example : ∃ f l r, faceTerms 3 3 (fun _ => 1) (fun _ => 1) (7 / 5) sample sample ![1, 0] = some (l, r) ∧
    Tested 3 (fun _ => 1) (scale (-1) f) l ∧ Tested 3 (fun _ => 1) f r ∧
    (sample = sample → f = flux (7 / 5) sample ![1, 0]) :=
  faceTerms_partial 3 _ _ _ (by norm_num) _ _ _ sample_physical sample_physical

end Verif.OldNavierStokes
