import Verif.MaxTime.Model
import Verif.MaxTime.Spec
import Verif.MaxTime.LemmasOrder
import Mathlib.Tactic.Module
import Mathlib.Tactic.NormNum
import Mathlib.Tactic.LinearCombination

/-! # Time integration of the Maxwell application: lemmas -/
set_option linter.all false
namespace Verif.MaxTime
variable {V : Type*} [AddCommGroup V] [Module ℝ V]

/-- The position is moved with the velocity. -/
def drift (c : ℝ) (x : V × V) : V × V := (x.1 + c • x.2, x.2)
/-- The velocity is changed by the force. -/
def kick (A : V →ₗ[ℝ] V) (c : ℝ) (x : V × V) : V × V := (x.1, x.2 - c • A x.1)

theorem drift_drift (c : ℝ) (x : V × V) : drift (-c) (drift c x) = x := by
  ext <;> simp [drift]

theorem kick_kick (A : V →ₗ[ℝ] V) (c : ℝ) (x : V × V) : kick A (-c) (kick A c x) = x := by
  ext <;> simp [kick]

theorem sq19 : (√19 : ℝ) ^ 2 = 19 := Real.sq_sqrt (by norm_num)

/-- The coefficients of the positions and of the velocities. -/
noncomputable def cpos (k : Nat) : ℝ := alpha (k - 1) + beta k
noncomputable def cvel (k : Nat) : ℝ := beta k + alpha k

theorem co4Stage_eq (P : Problem V) (k : Nat) (x : State V) (hw : x.w = 0) :
    ((co4Stage P k x).u, (co4Stage P k x).v) = kick (P.massInv ∘ₗ P.stiff) (P.tau * cvel k) (drift (P.tau * cpos k) (x.u, x.v)) ∧
    (co4Stage P k x).t = x.t ∧ (co4Stage P k x).w = 0 := by
  refine ⟨?_, rfl, by simp [co4Stage, hw]⟩
  ext
  · simp [co4Stage, kick, drift, cpos]
  · simp only [co4Stage, kick, drift, cpos, cvel, hw, smul_zero, zero_add, add_zero, one_smul, mul_one, map_smul, LinearMap.comp_apply]
    module

/-- A step of fourth order as a list of moves. -/
noncomputable def co4Moves (A : V →ₗ[ℝ] V) (tau : ℝ) (x : V × V) : V × V :=
  drift (tau * alpha 5) (kick A (tau * cvel 5) (drift (tau * cpos 5) (kick A (tau * cvel 4) (drift (tau * cpos 4)
    (kick A (tau * cvel 3) (drift (tau * cpos 3) (kick A (tau * cvel 2) (drift (tau * cpos 2)
      (kick A (tau * cvel 1) (drift (tau * cpos 1) x))))))))))

theorem co4_eq (P : Problem V) (x : State V) (hw : x.w = 0) :
    ((co4 P x).u, (co4 P x).v) = co4Moves (P.massInv ∘ₗ P.stiff) P.tau (x.u, x.v) ∧ (co4 P x).t = x.t + P.tau ∧ (co4 P x).w = 0 := by
  obtain ⟨h1, t1, w1⟩ := co4Stage_eq P 1 x hw
  obtain ⟨h2, t2, w2⟩ := co4Stage_eq P 2 _ w1
  obtain ⟨h3, t3, w3⟩ := co4Stage_eq P 3 _ w2
  obtain ⟨h4, t4, w4⟩ := co4Stage_eq P 4 _ w3
  obtain ⟨h5, t5, w5⟩ := co4Stage_eq P 5 _ w4
  refine ⟨?_, ?_, w5⟩
  · show drift (P.tau * alpha 5) (((co4Stage P 5 (co4Stage P 4 (co4Stage P 3 (co4Stage P 2 (co4Stage P 1 x))))).u),
      (co4Stage P 5 (co4Stage P 4 (co4Stage P 3 (co4Stage P 2 (co4Stage P 1 x))))).v) = _
    rw [h5, h4, h3, h2, h1]; rfl
  · show _ + P.tau = _
    rw [← t1, ← t2, ← t3, ← t4, ← t5]; rfl

theorem cpos_vals : cpos 1 = alpha 5 ∧ cpos 2 = cpos 5 ∧ cpos 3 = cpos 4 := by
  refine ⟨by simp [cpos, alpha, beta], ?_, ?_⟩ <;> simp [cpos, alpha, beta] <;> ring

theorem cvel_vals : cvel 1 = cvel 5 ∧ cvel 2 = cvel 4 := by
  constructor <;> simp [cvel, alpha, beta] <;> ring

theorem co4Moves_reverse (A : V →ₗ[ℝ] V) (tau : ℝ) (x : V × V) : co4Moves A (-tau) (co4Moves A tau x) = x := by
  obtain ⟨p1, p2, p3⟩ := cpos_vals
  obtain ⟨v1, v2⟩ := cvel_vals
  simp only [co4Moves, neg_mul, p1, p2, p3, v1, v2, drift_drift, kick_kick]

theorem coefs : alpha 0 = 0 ∧ cpos 1 = 7/54 + (-1/108) * √19 ∧ cpos 2 = 5/27 + (-7/108) * √19 := by
  refine ⟨rfl, ?_, ?_⟩ <;> simp only [cpos, alpha, beta] <;> norm_num <;> ring

theorem co4Moves_eq (A : V →ₗ[ℝ] V) (t : ℝ) (u v : V) : co4Moves A t (u, v) =
    (u + (t * (1)) • v + (t ^ 2 * (-1/2)) • A u + (t ^ 3 * (-1/6)) • A v + (t ^ 4 * (1/24)) • A (A u) + (t ^ 5 * ((1799/196830) + (-1181/3936600) * √19)) • A (A v) + (t ^ 6 * ((-58643/39366000) + (209/7873200) * √19)) • A (A (A u)) + (t ^ 7 * ((-1180001/4251528000) + (4517/212576400) * √19)) • A (A (A v)) + (t ^ 8 * ((33289/1062882000) + (-24383/10628820000) * √19)) • A (A (A (A u))) + (t ^ 9 * ((1194337/229582512000) + (-388397/573956280000) * √19)) • A (A (A (A v))) + (t ^ 10 * ((-211987/717445350000) + (51271/1434890700000) * √19)) • A (A (A (A (A u)))) + (t ^ 11 * ((-1381957/30993639120000) + (142721/19371024450000) * √19)) • A (A (A (A (A v)))),
     v + (t * (-1)) • A u + (t ^ 2 * (-1/2)) • A v + (t ^ 3 * (1/6)) • A (A u) + (t ^ 4 * (1/24)) • A (A v) + (t ^ 5 * ((-313/40500) + (-1/4050) * √19)) • A (A (A u)) + (t ^ 6 * ((-58643/39366000) + (209/7873200) * √19)) • A (A (A v)) + (t ^ 7 * ((1309/6561000) + (-17/16402500) * √19)) • A (A (A (A u))) + (t ^ 8 * ((33289/1062882000) + (-24383/10628820000) * √19)) • A (A (A (A v))) + (t ^ 9 * ((-28031/13286025000) + (83/664301250) * √19)) • A (A (A (A (A u)))) + (t ^ 10 * ((-211987/717445350000) + (51271/1434890700000) * √19)) • A (A (A (A (A v))))) := by
  have hc1 : cpos 1 = (7/54) + (-1/108) * √19 := by simp only [cpos, alpha, beta]; ring
  have hc2 : cpos 2 = (5/27) + (-7/108) * √19 := by simp only [cpos, alpha, beta]; ring
  have hc3 : cpos 3 = (5/27) + (2/27) * √19 := by simp only [cpos, alpha, beta]; ring
  have hc4 : cpos 4 = (5/27) + (2/27) * √19 := by simp only [cpos, alpha, beta]; ring
  have hc5 : cpos 5 = (5/27) + (-7/108) * √19 := by simp only [cpos, alpha, beta]; ring
  have hd1 : cvel 1 = 2/5 := by simp only [cvel, alpha, beta]; ring
  have hd2 : cvel 2 = -1/10 := by simp only [cvel, alpha, beta]; ring
  have hd3 : cvel 3 = 2/5 := by simp only [cvel, alpha, beta]; ring
  have hd4 : cvel 4 = -1/10 := by simp only [cvel, alpha, beta]; ring
  have hd5 : cvel 5 = 2/5 := by simp only [cvel, alpha, beta]; ring
  have ha5 : alpha 5 = (7/54) + (-1/108) * √19 := by simp only [alpha]; ring
  have neg : ∀ (y : V × V) (c : ℝ), kick A (t * c) y = (y.1, y.2 + (-(c * t)) • A y.1) := by
    intro y c; simp only [kick, neg_smul, mul_comm t c]; rw [sub_eq_add_neg]
  obtain ⟨a1, b1⟩ := stage1 √19 t sq19 A u v
  obtain ⟨a2, b2⟩ := stage2 √19 t sq19 A u v
  obtain ⟨a3, b3⟩ := stage3 √19 t sq19 A u v
  obtain ⟨a4, b4⟩ := stage4 √19 t sq19 A u v
  obtain ⟨a5, b5⟩ := stage5 √19 t sq19 A u v
  have a6 := stage6 √19 t sq19 A u v
  simp only [co4Moves, neg, hc1, hc2, hc3, hc4, hc5, hd1, hd2, hd3, hd4, hd5, ha5, drift]
  rw [a1, b1, a2, b2, a3, b3, a4, b4, a5, b5, a6]

theorem loop_eq (P : Problem V) (m : Method) (stride : Nat) (hs : 0 < stride) (reserved : Nat) (x0 : State V) : ∀ (n i : Nat) (shots : List (Snapshot V)),
    (n + i - 1) / stride + 1 ≤ reserved →
    shots = (List.range ((i + stride - 1) / stride)).map (fun k => ⟨k, ((step P m)^[k * stride] x0).t, ((step P m)^[k * stride] x0).u⟩) →
    loop P m reserved stride n i ((step P m)^[i] x0) shots = some ((step P m)^[n + i] x0,
      (List.range ((n + i + stride - 1) / stride)).map (fun k => ⟨k, ((step P m)^[k * stride] x0).t, ((step P m)^[k * stride] x0).u⟩)) := by
  intro n
  induction n with
  | zero => intro i shots _ h; simp [loop, h]
  | succ n ih =>
    intro i shots hr h
    simp only [loop]
    have hit : step P m ((step P m)^[i] x0) = (step P m)^[i + 1] x0 := (Function.iterate_succ_apply' _ _ _).symm
    by_cases hi : i % stride = 0
    · obtain ⟨c, rfl⟩ : ∃ c, i = stride * c := Nat.dvd_of_mod_eq_zero hi
      have e1 : (stride * c + stride - 1) / stride = c := by
        have : stride * c + stride - 1 = (stride - 1) + stride * c := by omega
        rw [this, Nat.add_mul_div_left _ _ hs, Nat.div_eq_of_lt (by omega), zero_add]
      have e2 : (stride * c + 1 + stride - 1) / stride = c + 1 := by
        have : stride * c + 1 + stride - 1 = 0 + stride * (c + 1) := by rw [mul_add]; omega
        rw [this, Nat.add_mul_div_left _ _ hs, Nat.zero_div, zero_add]
      have e3 : shots.length = c := by rw [h, e1]; simp
      have e4 : c < reserved := by
        have : c ≤ (n + 1 + stride * c - 1) / stride := by
          rw [Nat.le_div_iff_mul_le hs, mul_comm]; omega
        omega
      rw [if_pos hi, snapshot, if_pos (by rw [e3]; exact e4)]
      simp only [Option.bind_eq_bind, Option.bind_some, hit]
      rw [ih (stride * c + 1) _ (by have : n + (stride * c + 1) - 1 = n + 1 + stride * c - 1 := by omega
                                    rw [this]; exact hr)]
      · rw [show n + (stride * c + 1) = n + 1 + stride * c by omega]
      · rw [e2, List.range_succ, List.map_append, e3, h, e1]
        simp only [List.map_cons, List.map_nil, mul_comm stride c]
    · rw [if_neg hi]
      simp only [Option.bind_eq_bind, Option.bind_some, hit]
      have e2 : (i + 1 + stride - 1) / stride = (i + stride - 1) / stride := by
        have hd := Nat.div_add_mod i stride
        have hm := Nat.mod_lt i hs
        have e : ∀ a, 0 < a → a < stride → (stride * (i / stride) + a + stride - 1) / stride = i / stride + 1 := by
          intro a ha hlt
          have : stride * (i / stride) + a + stride - 1 = (a - 1) + stride * (i / stride + 1) := by rw [mul_add]; omega
          rw [this, Nat.add_mul_div_left _ _ hs, Nat.div_eq_of_lt (by omega), zero_add]
        have r1 : (i + stride - 1) / stride = i / stride + 1 := by
          have := e (i % stride) (Nat.pos_of_ne_zero hi) hm
          rwa [hd] at this
        rw [r1]
        have : i + 1 + stride - 1 = (i % stride) + stride * (i / stride + 1) := by rw [mul_add]; omega
        rw [this, Nat.add_mul_div_left _ _ hs, Nat.div_eq_of_lt hm, zero_add]
      rw [ih (i + 1) shots (by have : n + (i + 1) - 1 = n + 1 + i - 1 := by omega
                               rw [this]; exact hr) (by rw [h, e2])]
      rw [show n + (i + 1) = n + 1 + i by omega]

section
variable {V : Type*} [NormedAddCommGroup V] [InnerProductSpace ℝ V]
open scoped RealInnerProductSpace

theorem drift_symplectic (M : V →ₗ[ℝ] V) (hM : M.IsSymmetric) (c : ℝ) (x y : V × V) :
    symplectic M (drift c x).1 (drift c x).2 (drift c y).1 (drift c y).2 = symplectic M x.1 x.2 y.1 y.2 := by
  have s : ⟪M y.2, x.2⟫ = ⟪M x.2, y.2⟫ := by rw [hM y.2 x.2, real_inner_comm]
  simp only [symplectic, drift, map_add, map_smul, inner_add_left, inner_smul_left, RCLike.conj_to_real, s]
  ring

theorem kick_symplectic (M A S : V →ₗ[ℝ] V) (hM : M.IsSymmetric) (hS : S.IsSymmetric) (hA : ∀ y, M (A y) = S y) (c : ℝ) (x y : V × V) :
    symplectic M (kick A c x).1 (kick A c x).2 (kick A c y).1 (kick A c y).2 = symplectic M x.1 x.2 y.1 y.2 := by
  have s1 : ⟪M x.1, A y.1⟫ = ⟪S x.1, y.1⟫ := by rw [hM, hA, hS]
  have s2 : ⟪M y.1, A x.1⟫ = ⟪S x.1, y.1⟫ := by rw [hM, hA, ← hS, real_inner_comm, hS, real_inner_comm]
  simp only [symplectic, kick, inner_sub_right, inner_smul_right, s1, s2]
  ring

end

end Verif.MaxTime
