import Verif.MaxTime.Lemmas
import Mathlib.Tactic.Linarith
import Mathlib.Tactic.FieldSimp

/-! # Time integration of the Maxwell application: the properties -/
namespace Verif.MaxTime

section
variable {V : Type*} [AddCommGroup V] [Module ℝ V]

/-- **C87.** A step of `CO2` is the leap-frog step for `M u'' + σ M u' + S u = f`, and nothing else satisfies the equations of that step. -/
theorem co2_leapFrog (P : Problem V) (M : V →ₗ[ℝ] V) (hl : ∀ y, P.massInv (M y) = y) (hr : ∀ y, M (P.massInv y) = y)
    (hs : 1 + P.sigma * P.tau / 2 ≠ 0) (x : State V) (u' v' : V) :
    LeapFrog M P.stiff P.tau P.sigma (P.es x.t • P.source + P.eb x.t • P.boundary)
      (P.es (x.t + P.tau) • P.source + P.eb (x.t + P.tau) • P.boundary) x.u x.v u' v' ↔ u' = (co2 P x).u ∧ v' = (co2 P x).v := by
  change LeapFrog M P.stiff P.tau P.sigma (load P x.t) (load P (x.t + P.tau)) x.u x.v u' v' ↔ _
  set S := P.stiff
  have h1 : scale1 P * (1 + P.sigma * P.tau / 2) = 1 := by rw [scale1, one_div, inv_mul_cancel₀ hs]
  have hv : (co2 P x).v = scale1 P • ((1 - P.sigma * P.tau / 2) • x.v + P.massInv ((P.tau / 2) • (load P x.t + load P (x.t + P.tau)) -
      P.tau • S (x.u + (P.tau / 2) • x.v))) := by
    simp only [co2, scale0, map_add, map_sub, map_smul, S]
    module
  have hu : (co2 P x).u = x.u + (P.tau / 2) • (x.v + (co2 P x).v) := by
    simp only [co2]; module
  have hMv : (1 + P.sigma * P.tau / 2) • M (co2 P x).v = (1 - P.sigma * P.tau / 2) • M x.v +
      ((P.tau / 2) • (load P x.t + load P (x.t + P.tau)) - P.tau • S (x.u + (P.tau / 2) • x.v)) := by
    rw [hv, map_smul, smul_smul, mul_comm, h1, one_smul, map_add, map_smul, hr]
  constructor
  · rintro ⟨hp, hq⟩
    have : v' = (co2 P x).v := by
      have h2 : (1 + P.sigma * P.tau / 2) • M v' = (1 + P.sigma * P.tau / 2) • M (co2 P x).v := by
        rw [hMv, ← hq]; simp only [map_add, map_sub, map_smul]; module
      have h3 := congrArg (fun y => P.massInv (scale1 P • y)) h2
      simp only [smul_smul, h1, one_smul, hl] at h3
      exact h3
    subst this
    exact ⟨by rw [hp, hu], rfl⟩
  · rintro ⟨rfl, rfl⟩
    refine ⟨hu, ?_⟩
    have : M ((co2 P x).v - x.v) + (P.sigma * P.tau / 2) • M (x.v + (co2 P x).v) + P.tau • S (x.u + (P.tau / 2) • x.v) =
        (1 + P.sigma * P.tau / 2) • M (co2 P x).v - ((1 - P.sigma * P.tau / 2) • M x.v) + P.tau • S (x.u + (P.tau / 2) • x.v) := by
      simp only [map_add, map_sub, smul_add]; module
    rw [this, hMv]; module

/-- **C87.** The time advances by the step. -/
theorem step_time (P : Problem V) (m : Method) (x : State V) : (step P m x).t = x.t + P.tau := by
  cases m
  · rfl
  · rfl

/-- The problem with the time running backwards. -/
def backwards (P : Problem V) : Problem V := { P with tau := -P.tau }

/-- **C87.** A step of `CO2` is undone by a step backwards in time, with sources and conductivity. -/
theorem co2_reversible (P : Problem V) (h1 : 1 + P.sigma * P.tau / 2 ≠ 0) (h2 : 1 - P.sigma * P.tau / 2 ≠ 0) (x : State V) :
    (co2 (backwards P) (co2 P x)).u = x.u ∧ (co2 (backwards P) (co2 P x)).v = x.v ∧ (co2 (backwards P) (co2 P x)).t = x.t := by
  have hs1 : scale1 (backwards P) = 1 / (1 - P.sigma * P.tau / 2) := by simp only [scale1, backwards]; congr 1; ring
  have hs0 : scale0 (backwards P) = 1 + P.sigma * P.tau / 2 := by simp only [scale0, backwards]; ring
  have ht : (co2 P x).t + (backwards P).tau = x.t := by simp [co2, backwards]
  have hload : ∀ t, load (backwards P) t = load P t := fun t => rfl
  have hmid : (co2 P x).u + ((backwards P).tau / 2) • (co2 P x).v = x.u + (P.tau / 2) • x.v := by
    simp only [co2, backwards]; module
  have hv : (co2 (backwards P) (co2 P x)).v = x.v := by
    have e1 : (co2 (backwards P) (co2 P x)).v = scale1 (backwards P) • (scale0 (backwards P) • (co2 P x).v +
        P.massInv ((-P.tau / 2) • (load P (co2 P x).t + load P x.t) + P.tau • P.stiff (x.u + (P.tau / 2) • x.v))) := by
      conv_lhs => rw [co2]
      simp only [hmid, ht, hload]
      simp only [backwards, map_add, map_smul]
      module
    have e2 : (1 + P.sigma * P.tau / 2) • (co2 P x).v = (1 - P.sigma * P.tau / 2) • x.v +
        P.massInv ((P.tau / 2) • (load P x.t + load P (x.t + P.tau)) - P.tau • P.stiff (x.u + (P.tau / 2) • x.v)) := by
      have h3 : (1 + P.sigma * P.tau / 2) * scale1 P = 1 := by rw [scale1, one_div, mul_inv_cancel₀ h1]
      have : (co2 P x).v = scale1 P • ((1 - P.sigma * P.tau / 2) • x.v +
        P.massInv ((P.tau / 2) • (load P x.t + load P (x.t + P.tau)) - P.tau • P.stiff (x.u + (P.tau / 2) • x.v))) := by
        simp only [co2, scale0, map_add, map_sub, map_smul]; module
      rw [this, smul_smul, h3, one_smul]
    rw [e1, hs0, e2, hs1]
    have e3 : (co2 P x).t = x.t + P.tau := rfl
    rw [e3, add_assoc, ← map_add]
    have e4 : (P.tau / 2) • (load P x.t + load P (x.t + P.tau)) - P.tau • P.stiff (x.u + (P.tau / 2) • x.v) +
        ((-P.tau / 2) • (load P (x.t + P.tau) + load P x.t) + P.tau • P.stiff (x.u + (P.tau / 2) • x.v)) = 0 := by module
    rw [e4, map_zero, add_zero, smul_smul, one_div, inv_mul_cancel₀ h2, one_smul]
  refine ⟨?_, hv, ht⟩
  have hu : (co2 (backwards P) (co2 P x)).u = ((co2 P x).u + ((backwards P).tau / 2) • (co2 P x).v) +
      ((backwards P).tau / 2) • (co2 (backwards P) (co2 P x)).v := rfl
  rw [hu, hmid, hv]
  simp only [backwards]; module

/-- **C88.** A step of `CO4` with an auxiliary vector that is zero is undone by a step backwards in time. -/
theorem co4_reversible (P : Problem V) (x : State V) (hw : x.w = 0) :
    (co4 (backwards P) (co4 P x)).u = x.u ∧ (co4 (backwards P) (co4 P x)).v = x.v ∧ (co4 (backwards P) (co4 P x)).t = x.t := by
  obtain ⟨h1, t1, w1⟩ := co4_eq P x hw
  obtain ⟨h2, t2, -⟩ := co4_eq (backwards P) (co4 P x) w1
  rw [h1] at h2
  have h3 := co4Moves_reverse (P.massInv ∘ₗ P.stiff) P.tau (x.u, x.v)
  have h4 : ((co4 (backwards P) (co4 P x)).u, (co4 (backwards P) (co4 P x)).v) = (x.u, x.v) := h2.trans h3
  refine ⟨congrArg Prod.fst h4, congrArg Prod.snd h4, ?_⟩
  rw [t2, t1]; simp [backwards]

/-- **C88.** A step of `CO4` agrees with the exact solution of `M u'' + S u = 0` up to terms with the fifth power of the step. -/
theorem co4_order (P : Problem V) : ∃ (r : Fin 7 → ℝ) (q : Fin 6 → ℝ), ∀ x : State V, x.w = 0 →
    let A := P.massInv ∘ₗ P.stiff
    (co4 P x).u = taylorPosition A P.tau x.u x.v + P.tau ^ 5 • (r 0 • A (A x.v) + (P.tau * r 1) • A (A (A x.u)) + (P.tau ^ 2 * r 2) • A (A (A x.v)) +
      (P.tau ^ 3 * r 3) • A (A (A (A x.u))) + (P.tau ^ 4 * r 4) • A (A (A (A x.v))) + (P.tau ^ 5 * r 5) • A (A (A (A (A x.u)))) +
      (P.tau ^ 6 * r 6) • A (A (A (A (A x.v))))) ∧
    (co4 P x).v = taylorVelocity A P.tau x.u x.v + P.tau ^ 5 • (q 0 • A (A (A x.u)) + (P.tau * q 1) • A (A (A x.v)) + (P.tau ^ 2 * q 2) • A (A (A (A x.u))) +
      (P.tau ^ 3 * q 3) • A (A (A (A x.v))) + (P.tau ^ 4 * q 4) • A (A (A (A (A x.u)))) + (P.tau ^ 5 * q 5) • A (A (A (A (A x.v))))) := by
  refine ⟨![((1799/196830) + (-1181/3936600) * √19), ((-58643/39366000) + (209/7873200) * √19), ((-1180001/4251528000) + (4517/212576400) * √19), ((33289/1062882000) + (-24383/10628820000) * √19), ((1194337/229582512000) + (-388397/573956280000) * √19), ((-211987/717445350000) + (51271/1434890700000) * √19), ((-1381957/30993639120000) + (142721/19371024450000) * √19)], ![((-313/40500) + (-1/4050) * √19), ((-58643/39366000) + (209/7873200) * √19), ((1309/6561000) + (-17/16402500) * √19), ((33289/1062882000) + (-24383/10628820000) * √19), ((-28031/13286025000) + (83/664301250) * √19), ((-211987/717445350000) + (51271/1434890700000) * √19)], fun x hw => ?_⟩
  intro A
  obtain ⟨h, -, -⟩ := co4_eq P x hw
  have hm := co4Moves_eq A P.tau x.u x.v
  have h' : ((co4 P x).u, (co4 P x).v) = co4Moves A P.tau (x.u, x.v) := h
  rw [hm] at h'
  have hu := congrArg Prod.fst h'
  have hv := congrArg Prod.snd h'
  dsimp only at hu hv
  constructor
  · rw [hu, taylorPosition]
    simp only [Matrix.cons_val, Fin.isValue]
    module
  · rw [hv, taylorVelocity]
    simp only [Matrix.cons_val, Fin.isValue]
    module

/-- **C88, what fails.** With an auxiliary vector that is zero at the start, `CO4` ignores the sources, the boundary values, their dependence on time and the
conductivity: two problems that differ only in those have the same result. -/
theorem co4_ignores_sources (P Q : Problem V) (hM : P.massInv = Q.massInv) (hS : P.stiff = Q.stiff) (ht : P.tau = Q.tau)
    (steps stride : Nat) (b b' : V) : solve P .co4 steps stride b b' 0 = solve Q .co4 steps stride b b' 0 := by
  have hstep : ∀ x : State V, x.w = 0 → co4 P x = co4 Q x ∧ (co4 P x).w = 0 := by
    intro x hw
    obtain ⟨h1, t1, w1⟩ := co4_eq P x hw
    obtain ⟨h2, t2, w2⟩ := co4_eq Q x hw
    rw [hM, hS, ht, ← h2] at h1
    have e1 := congrArg Prod.fst h1
    have e2 := congrArg Prod.snd h1
    exact ⟨State.ext e1 e2 (by rw [t1, t2, ht]) (by rw [w1, w2]), w1⟩
  have hloop : ∀ n i (x : State V) shots, x.w = 0 → loop P .co4 (numberOfSnapshots steps stride) stride n i x shots =
      loop Q .co4 (numberOfSnapshots steps stride) stride n i x shots := by
    intro n
    induction n with
    | zero => intro i x shots _; rfl
    | succ n ih =>
      intro i x shots hw
      obtain ⟨e, e'⟩ := hstep x hw
      have ih' := fun s => ih (i + 1) (co4 Q x) s (by rw [← e]; exact e')
      simp only [loop, step, e, ih']
  simp only [solve]
  have hst : start P b b' 0 = start Q b b' 0 := by simp [start, hM]
  rw [hloop _ _ _ _ (by rfl), hst]

/-- A force that is constant in time acts on a body at rest. -/
def push : Problem ℝ where
  massInv := LinearMap.id
  stiff := 0
  boundary := 0
  source := 1
  eb := fun _ => 0
  es := fun _ => 1
  tau := 1
  sigma := 0

/-- **C88, what fails.** The body of `push` moves with `CO2`, as it should: after one step it is at `1/2`. With `CO4` it never moves. -/
theorem co4_not_pushed : (co2 push ⟨0, 0, 0, 0⟩).u = 1 / 2 ∧ ∀ n : Nat, ((co4 push)^[n] ⟨0, 0, 0, 0⟩).u = 0 := by
  constructor
  · norm_num [co2, push, load, scale0, scale1]
  · intro n
    have : ∀ x : State ℝ, x.w = 0 → x.u = 0 → x.v = 0 → (co4 push x).w = 0 ∧ (co4 push x).u = 0 ∧ (co4 push x).v = 0 := by
      intro x hw hu hv
      obtain ⟨h, -, h2⟩ := co4_eq push x hw
      have : co4Moves (push.massInv ∘ₗ push.stiff) push.tau (x.u, x.v) = (0, 0) := by
        simp [co4Moves, push, kick, drift, hu, hv]
      rw [this] at h
      exact ⟨h2, congrArg Prod.fst h, congrArg Prod.snd h⟩
    have key : ((co4 push)^[n] ⟨0, 0, 0, 0⟩).w = 0 ∧ ((co4 push)^[n] ⟨0, 0, 0, 0⟩).u = 0 ∧ ((co4 push)^[n] ⟨0, 0, 0, 0⟩).v = 0 := by
      induction n with
      | zero => exact ⟨rfl, rfl, rfl⟩
      | succ n ih => rw [Function.iterate_succ_apply']; exact this _ ih.1 ih.2.1 ih.2.2
    exact key.2.1

/-- **C87.** `solve` keeps the snapshots of the steps `0, stride, 2 stride, …` up to the last step, numbered from zero and each with its time and field, and never writes
beyond the memory for `numberOfSnapshots` of them. It fails exactly if the stride is zero. -/
theorem solve_snapshots (P : Problem V) (m : Method) (steps stride : Nat) (b b' w : V) :
    solve P m steps stride b b' w = if stride = 0 then none else
      some ((List.range (steps / stride + 1)).map fun k =>
        ⟨k, (k * stride : ℝ) * P.tau, ((step P m)^[k * stride] (start P b b' w)).u⟩) := by
  unfold solve
  by_cases h0 : stride = 0
  · rw [if_pos h0, if_pos h0]
  rw [if_neg h0, if_neg h0]
  have hs : 0 < stride := Nat.pos_of_ne_zero h0
  have htime : ∀ k, ((step P m)^[k] (start P b b' w)).t = k * P.tau := by
    intro k
    induction k with
    | zero => simp [start]
    | succ k ih => rw [Function.iterate_succ_apply', step_time, ih]; push_cast; ring
  have hle : (steps + 0 - 1) / stride + 1 ≤ numberOfSnapshots steps stride := by
    have : (steps - 1) / stride ≤ steps / stride := Nat.div_le_div_right (by omega)
    unfold numberOfSnapshots; split <;> simp only [add_zero] <;> omega
  have key := loop_eq P m stride hs (numberOfSnapshots steps stride) (start P b b' w) steps 0 [] hle
    (by rw [show (0 + stride - 1) / stride = 0 from Nat.div_eq_of_lt (by omega)]; simp)
  simp only [Function.iterate_zero, id_eq, add_zero] at key
  rw [key]
  simp only [Option.bind_eq_bind, Option.bind_some]
  have hd := Nat.div_add_mod steps stride
  have hm := Nat.mod_lt steps hs
  have conv : ∀ n, (List.range n).map (fun k => (⟨k, ((step P m)^[k * stride] (start P b b' w)).t, ((step P m)^[k * stride] (start P b b' w)).u⟩ : Snapshot V)) =
      (List.range n).map (fun k => ⟨k, (k * stride : ℝ) * P.tau, ((step P m)^[k * stride] (start P b b' w)).u⟩) := by
    intro n; apply List.map_congr_left; intro k _; rw [htime]; push_cast; rfl
  by_cases hd0 : steps % stride = 0
  · have e1 : (steps + stride - 1) / stride = steps / stride := by
      have : steps + stride - 1 = (stride - 1) + stride * (steps / stride) := by omega
      rw [this, Nat.add_mul_div_left _ _ hs, Nat.div_eq_of_lt (by omega), zero_add]
    have e2 : steps / stride * stride = steps := by rw [mul_comm]; omega
    rw [if_pos hd0, snapshot, if_pos (by simp only [List.length_map, List.length_range, e1, numberOfSnapshots, if_pos hd0]; omega), e1, ← conv, List.range_succ,
      List.map_append]
    simp only [List.length_map, List.length_range, List.map_cons, List.map_nil, e2]
  · have e1 : (steps + stride - 1) / stride = steps / stride + 1 := by
      have : steps + stride - 1 = (steps % stride - 1) + stride * (steps / stride + 1) := by rw [mul_add]; omega
      rw [this, Nat.add_mul_div_left _ _ hs, Nat.div_eq_of_lt (by omega), zero_add]
    rw [if_neg hd0, e1, conv]

/-- **C87.** The steps of `configureTraditional` reach the end time, and not one step more than needed. -/
theorem configure_reaches (m : Method) (endTime : ℝ) (hT : 0 < endTime) (order elements : Nat) (he : 0 < elements) :
    let c := configureTraditional m endTime order elements
    0 < c.1 ∧ endTime ≤ c.2 * c.1 ∧ (c.2 - 1) * c.1 < endTime := by
  intro c
  have hc : 0 < c.1 := by
    have h1 : (0 : ℝ) < elements := by exact_mod_cast he
    have h2 : (0 : ℝ) < 2 * order + 1 := by positivity
    cases m <;> simp only [c, configureTraditional] <;> positivity
  have hn : c.2 = ⌈endTime / c.1⌉₊ := rfl
  refine ⟨hc, ?_, ?_⟩
  · have := Nat.le_ceil (endTime / c.1)
    rw [hn]
    calc endTime = endTime / c.1 * c.1 := by field_simp
      _ ≤ _ := mul_le_mul_of_nonneg_right this hc.le
  · have h1 : (⌈endTime / c.1⌉₊ : ℝ) < endTime / c.1 + 1 := Nat.ceil_lt_add_one (div_pos hT hc).le
    rw [hn]
    calc ((⌈endTime / c.1⌉₊ : ℝ) - 1) * c.1 < endTime / c.1 * c.1 := mul_lt_mul_of_pos_right (by linarith) hc
      _ = endTime := by field_simp
end

section
variable {V : Type*} [NormedAddCommGroup V] [InnerProductSpace ℝ V]
open scoped RealInnerProductSpace

/-- **C87.** The balance of the energy in a step of `CO2`: it changes by the work of the load and by the loss in the conductor. -/
theorem co2_balance (P : Problem V) (M : V →ₗ[ℝ] V) (hl : ∀ y, P.massInv (M y) = y) (hr : ∀ y, M (P.massInv y) = y)
    (hM : M.IsSymmetric) (hS : P.stiff.IsSymmetric) (hs : 1 + P.sigma * P.tau / 2 ≠ 0) (x : State V) :
    energy M P.stiff P.tau (co2 P x).u (co2 P x).v = energy M P.stiff P.tau x.u x.v
      - P.sigma * P.tau / 2 * ⟪M (x.v + (co2 P x).v), x.v + (co2 P x).v⟫
      + P.tau / 2 * ⟪P.es x.t • P.source + P.eb x.t • P.boundary + (P.es (x.t + P.tau) • P.source + P.eb (x.t + P.tau) • P.boundary),
        x.v + (co2 P x).v⟫ := by
  obtain ⟨hp, hq⟩ := (co2_leapFrog P M hl hr hs x _ _).2 ⟨rfl, rfl⟩
  set u' := (co2 P x).u
  set v' := (co2 P x).v
  have e := congrArg (fun y => ⟪y, x.v + v'⟫) hq
  simp only [inner_add_left, inner_smul_left, map_add, map_sub, map_smul, inner_add_right, inner_sub_left, RCLike.conj_to_real] at e
  have s1 : ⟪M v', x.v⟫ = ⟪M x.v, v'⟫ := by rw [hM v' x.v, real_inner_comm]
  have s2 : ⟪P.stiff v', x.v⟫ = ⟪P.stiff x.v, v'⟫ := by rw [hS v' x.v, real_inner_comm]
  have s3 : ⟪P.stiff x.v, x.u⟫ = ⟪P.stiff x.u, x.v⟫ := by rw [hS x.v x.u, real_inner_comm]
  have s4 : ⟪P.stiff v', x.u⟫ = ⟪P.stiff x.u, v'⟫ := by rw [hS v' x.u, real_inner_comm]
  unfold energy
  rw [hp]
  simp only [inner_add_left, inner_smul_left, map_add, map_smul, inner_add_right, inner_smul_right, RCLike.conj_to_real, s1, s2, s3, s4] at e ⊢
  linear_combination e

/-- **C87.** Without sources and conductivity, `CO2` keeps the energy for any number of steps of any size. -/
theorem co2_energy (P : Problem V) (M : V →ₗ[ℝ] V) (hl : ∀ y, P.massInv (M y) = y) (hr : ∀ y, M (P.massInv y) = y)
    (hM : M.IsSymmetric) (hS : P.stiff.IsSymmetric) (hsig : P.sigma = 0) (hb : P.boundary = 0) (hsrc : P.source = 0) (x : State V) (n : Nat) :
    energy M P.stiff P.tau ((co2 P)^[n] x).u ((co2 P)^[n] x).v = energy M P.stiff P.tau x.u x.v := by
  induction n with
  | zero => rfl
  | succ n ih =>
    rw [Function.iterate_succ_apply', co2_balance P M hl hr hM hS (by rw [hsig]; norm_num), ih]
    simp [hsig, hb, hsrc]

/-- **C87.** Without sources and in a conductor, the energy never grows. -/
theorem co2_energy_le (P : Problem V) (M : V →ₗ[ℝ] V) (hl : ∀ y, P.massInv (M y) = y) (hr : ∀ y, M (P.massInv y) = y)
    (hM : M.IsSymmetric) (hpos : ∀ y, 0 ≤ ⟪M y, y⟫) (hS : P.stiff.IsSymmetric) (hsig : 0 ≤ P.sigma) (htau : 0 ≤ P.tau)
    (hb : P.boundary = 0) (hsrc : P.source = 0) (x : State V) (n : Nat) :
    energy M P.stiff P.tau ((co2 P)^[n] x).u ((co2 P)^[n] x).v ≤ energy M P.stiff P.tau x.u x.v := by
  induction n with
  | zero => exact le_rfl
  | succ n ih =>
    have h1 : 0 ≤ P.sigma * P.tau / 2 := by positivity
    rw [Function.iterate_succ_apply', co2_balance P M hl hr hM hS (by positivity)]
    have h2 : ∀ t, P.es t • P.source + P.eb t • P.boundary = 0 := by intro t; simp [hb, hsrc]
    rw [h2, h2]
    have := mul_nonneg h1 (hpos (((co2 P)^[n] x).v + (co2 P ((co2 P)^[n] x)).v))
    simp only [add_zero, inner_zero_left, mul_zero]
    linarith

/-- **C87.** The stability bound. If the step is so small that `τ² S ≤ 4 (1 - δ) M` with `δ > 0`, the field stays bounded for ever, without sources: `δ (v, M v)` and `(u, S u)`
are at most the energy at the start. -/
theorem co2_stable (P : Problem V) (M : V →ₗ[ℝ] V) (hl : ∀ y, P.massInv (M y) = y) (hr : ∀ y, M (P.massInv y) = y)
    (hM : M.IsSymmetric) (hpos : ∀ y, 0 ≤ ⟪M y, y⟫) (hS : P.stiff.IsSymmetric) (hSpos : ∀ y, 0 ≤ ⟪P.stiff y, y⟫)
    (hsig : 0 ≤ P.sigma) (htau : 0 ≤ P.tau) (hb : P.boundary = 0) (hsrc : P.source = 0) (δ : ℝ) (hδ : 0 ≤ δ)
    (hcfl : ∀ y, P.tau ^ 2 * ⟪P.stiff y, y⟫ ≤ 4 * (1 - δ) * ⟪M y, y⟫) (x : State V) (n : Nat) :
    δ * ⟪M ((co2 P)^[n] x).v, ((co2 P)^[n] x).v⟫ ≤ energy M P.stiff P.tau x.u x.v ∧
    ⟪P.stiff ((co2 P)^[n] x).u, ((co2 P)^[n] x).u⟫ ≤ energy M P.stiff P.tau x.u x.v := by
  have h := co2_energy_le P M hl hr hM hpos hS hsig htau hb hsrc x n
  set y := (co2 P)^[n] x
  have h1 := hcfl y.v
  have h2 := hSpos y.u
  have h3 := mul_nonneg hδ (hpos y.v)
  unfold energy at h
  unfold energy
  constructor <;> nlinarith

/-- **C88.** Without sources, any two solutions of `CO4` keep their symplectic form for any number of steps of any size, so that there is no growth or loss for ever. -/
theorem co4_symplectic (P : Problem V) (M : V →ₗ[ℝ] V) (hr : ∀ y, M (P.massInv y) = y) (hM : M.IsSymmetric) (hS : P.stiff.IsSymmetric)
    (x y : State V) (hx : x.w = 0) (hy : y.w = 0) (n : Nat) :
    symplectic M ((co4 P)^[n] x).u ((co4 P)^[n] x).v ((co4 P)^[n] y).u ((co4 P)^[n] y).v = symplectic M x.u x.v y.u y.v := by
  have hA : ∀ z, M ((P.massInv ∘ₗ P.stiff) z) = P.stiff z := fun z => hr _
  have one : ∀ x y : State V, x.w = 0 → y.w = 0 → symplectic M (co4 P x).u (co4 P x).v (co4 P y).u (co4 P y).v = symplectic M x.u x.v y.u y.v := by
    intro x y hx hy
    obtain ⟨h1, -, -⟩ := co4_eq P x hx
    obtain ⟨h2, -, -⟩ := co4_eq P y hy
    have e : symplectic M (co4Moves (P.massInv ∘ₗ P.stiff) P.tau (x.u, x.v)).1 (co4Moves (P.massInv ∘ₗ P.stiff) P.tau (x.u, x.v)).2
        (co4Moves (P.massInv ∘ₗ P.stiff) P.tau (y.u, y.v)).1 (co4Moves (P.massInv ∘ₗ P.stiff) P.tau (y.u, y.v)).2 = symplectic M x.u x.v y.u y.v := by
      simp only [co4Moves, drift_symplectic M hM, kick_symplectic M _ P.stiff hM hS hA]
    rw [← h1, ← h2] at e
    exact e
  have hw : ∀ z : State V, z.w = 0 → ∀ n : Nat, ((co4 P)^[n] z).w = 0 := by
    intro z hz n
    induction n with
    | zero => exact hz
    | succ n ih => rw [Function.iterate_succ_apply']; exact (co4_eq P _ ih).2.2
  induction n with
  | zero => rfl
  | succ n ih => rw [Function.iterate_succ_apply', Function.iterate_succ_apply', one _ _ (hw x hx n) (hw y hy n), ih]

/-- An oscillator of mass two and stiffness three, with a step of one half, meets the hypotheses of the theorems above with `δ = 1/2`. -/
noncomputable def oscillator : Problem ℝ where
  massInv := (1 / 2 : ℝ) • LinearMap.id
  stiff := (3 : ℝ) • LinearMap.id
  boundary := 0
  source := 0
  eb := fun _ => 1
  es := fun _ => 1
  tau := 1 / 2
  sigma := 0

example (n : Nat) : 1 / 2 * ⟪((2 : ℝ) • LinearMap.id : ℝ →ₗ[ℝ] ℝ) ((co2 oscillator)^[n] ⟨1, 1, 0, 0⟩).v, ((co2 oscillator)^[n] ⟨1, 1, 0, 0⟩).v⟫ ≤
    energy ((2 : ℝ) • LinearMap.id) oscillator.stiff oscillator.tau 1 1 :=
  (co2_stable oscillator ((2 : ℝ) • LinearMap.id) (by intro y; simp [oscillator]) (by intro y; simp [oscillator])
    (by intro x y; simp; ring) (by intro y; simp; nlinarith [mul_self_nonneg y]) (by intro x y; simp [oscillator]; ring)
    (by intro y; simp [oscillator]; nlinarith [mul_self_nonneg y]) (by simp [oscillator]) (by norm_num [oscillator]) rfl rfl (1 / 2) (by norm_num)
    (by intro y; simp [oscillator]; nlinarith [mul_self_nonneg y]) ⟨1, 1, 0, 0⟩ n).1
end

end Verif.MaxTime
