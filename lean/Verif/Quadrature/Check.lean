import Verif.Quadrature.Integrals
import Mathlib.Algebra.BigOperators.Fin
import Mathlib.Tactic.Positivity
set_option linter.all false

/-! # Reduction to monomials, and integer arithmetic for rational tables -/
namespace Verif.Quadrature
open RefGeometry MeasureTheory
open scoped Nat

/-- The weighted sum of a rule. -/
noncomputable def quadSum {d : Nat} (r : Rule d) (f : Pt d → ℝ) : ℝ :=
  (r.points.map fun q => q.1 * f q.2).sum

theorem foldl_sum {α : Type} (l : List α) (f : α → ℝ) (s : ℝ) :
    l.foldl (fun s q => s + f q) s = s + (l.map f).sum := by
  induction l generalizing s with
  | nil => simp
  | cons x l ih => simp [ih]; ring

theorem integrate_eq {d : Nat} (r : Rule d) (hr : r.points ≠ [] ∧ r.number = r.points.length)
    (f : Pt d → ℝ) :
    r.integrate f = some (quadSum r f) := by
  unfold Rule.integrate quadSum
  cases h : r.points with
  | nil => exact absurd h hr.1
  | cons p ps =>
    have := hr.2
    rw [h] at this
    simp [this, foldl_sum]

theorem quadSum_sum {d : Nat} {ι : Type} (r : Rule d) (s : Finset ι) (c : ι → ℝ)
    (f : ι → Pt d → ℝ) :
    quadSum r (fun x => ∑ m ∈ s, c m * f m x) = ∑ m ∈ s, c m * quadSum r (f m) := by
  unfold quadSum
  induction r.points with
  | nil => simp
  | cons q l ih =>
    rw [List.map_cons, List.sum_cons, ih]
    simp only [List.map_cons, List.sum_cons, mul_add, Finset.sum_add_distrib]
    rw [Finset.mul_sum]
    congr 1
    refine Finset.sum_congr rfl fun m _ => by ring

/-- It is enough to look at monomials. -/
theorem integrates_of_monomials {d : Nat} {g : Geom d} (hc : IsCompact (body g)) {r : Rule d}
    (hr : r.points ≠ [] ∧ r.number = r.points.length) {n : Nat} {ε : ℝ}
    (h : ∀ a : Fin d → ℕ, ∑ i, a i ≤ n →
      |quadSum r (fun x => ∏ i, x i ^ a i) - ∫ x in body g, ∏ i, x i ^ a i| ≤ ε) :
    Integrates g r n ε := by
  intro p hp
  refine ⟨_, integrate_eq r hr _, ?_⟩
  have e1 : quadSum r (fun x => MvPolynomial.eval x p) =
      ∑ m ∈ p.support, p.coeff m * quadSum r (fun x => ∏ i, x i ^ m i) := by
    rw [← quadSum_sum]
    congr 1
    funext x
    exact MvPolynomial.eval_eq' x p
  have e2 : ∫ x in body g, MvPolynomial.eval x p =
      ∑ m ∈ p.support, p.coeff m * ∫ x in body g, ∏ i, x i ^ m i := by
    simp_rw [MvPolynomial.eval_eq']
    rw [integral_finsetSum]
    · simp_rw [integral_const_mul]
    · intro m _
      exact (((mono_continuous (fun i => m i)).const_mul
        (p.coeff m)).continuousOn).integrableOn_compact hc
  rw [e1, e2, ← Finset.sum_sub_distrib, coeffSum, Finset.mul_sum]
  refine (Finset.abs_sum_le_sum_abs _ _).trans (Finset.sum_le_sum fun m hm => ?_)
  rw [← mul_sub, abs_mul, mul_comm]
  refine mul_le_mul_of_nonneg_right (h (fun i => m i) ?_) (abs_nonneg _)
  refine le_trans ?_ ((MvPolynomial.le_totalDegree hm).trans hp)
  rw [Finsupp.sum_fintype _ _ (by simp)]

/-- The error for a monomial is the error for it as a polynomial. -/
theorem mono_of_integrates {d : Nat} {g : Geom d} {r : Rule d}
    (hr : r.points ≠ [] ∧ r.number = r.points.length) {n : Nat}
    {ε : ℝ} (h : Integrates g r n ε) (a : Fin d → ℕ) (ha : ∑ i, a i ≤ n) :
    |quadSum r (fun x => ∏ i, x i ^ a i) - ∫ x in body g, ∏ i, x i ^ a i| ≤ ε := by
  obtain ⟨v, hv, hle⟩ := h (MvPolynomial.monomial (Finsupp.equivFunOnFinite.symm a) 1) (by
    rw [MvPolynomial.totalDegree_monomial _ one_ne_zero, Finsupp.sum_fintype _ _ (by simp)]
    simpa using ha)
  rw [integrate_eq r hr] at hv
  have hev : ∀ x : Pt d, MvPolynomial.eval x
      (MvPolynomial.monomial (Finsupp.equivFunOnFinite.symm a) (1 : ℝ)) = ∏ i, x i ^ a i := by
    intro x
    rw [MvPolynomial.eval_monomial, Finsupp.prod_fintype _ _ (by simp)]
    simp
  simp only [hev, Option.some.injEq] at hv hle
  rw [hv]
  refine hle.trans (le_of_eq ?_)
  rw [coeffSum, MvPolynomial.support_monomial, if_neg one_ne_zero]
  simp

/-! ### Integer arithmetic -/

/-- All lists of `d` exponents whose sum is at most `n`. -/
def exps : Nat → Nat → List (List Nat)
  | 0, _ => [[]]
  | d + 1, n => (List.range (n + 1)).flatMap fun k => (exps d (n - k)).map (k :: ·)

theorem mem_exps : ∀ (d n : Nat) (a : Fin d → ℕ), ∑ i, a i ≤ n → List.ofFn a ∈ exps d n
  | 0, n, a, _ => by simp [exps]
  | d + 1, n, a, h => by
    rw [Fin.sum_univ_succ] at h
    rw [List.ofFn_succ, exps, List.mem_flatMap]
    refine ⟨a 0, List.mem_range.2 (by omega), List.mem_map.2 ⟨_, mem_exps d (n - a 0)
      (fun i => a i.succ) (by omega), rfl⟩⟩

/-- Powers by multiplication of natural numbers. -/
def powInt (x : Int) (n : Nat) : Int :=
  match x with
  | .ofNat k => .ofNat (Nat.pow k n)
  | .negSucc k => if n % 2 = 0 then .ofNat (Nat.pow (k + 1) n)
      else Int.neg (.ofNat (Nat.pow (k + 1) n))

theorem powInt_eq (x : Int) (n : Nat) : powInt x n = x ^ n := by
  unfold powInt
  split
  · rename_i k
    show ((k ^ n : ℕ) : ℤ) = _
    push_cast; rfl
  · rename_i k
    have e : Int.negSucc k = -((k + 1 : ℕ) : ℤ) := rfl
    rw [e]
    split
    · rename_i h
      rw [Even.neg_pow (Nat.even_iff.2 h)]
      show (((k + 1) ^ n : ℕ) : ℤ) = _
      push_cast; rfl
    · rename_i h
      rw [Odd.neg_pow (Nat.odd_iff.2 (by omega))]
      show -(((k + 1) ^ n : ℕ) : ℤ) = _
      push_cast; rfl

/-- A monomial at a point. -/
def monoVal : List Nat → List Int → Int
  | k :: a, y :: x => powInt y k * monoVal a x
  | _, _ => 1

theorem monoVal_eq : ∀ (d : Nat) (a : Fin d → Nat) (x : List Int), x.length = d →
    monoVal (List.ofFn a) x = ∏ i : Fin d, x.getD i 0 ^ a i
  | 0, a, x, _ => by simp [monoVal]
  | d + 1, a, [], h => by simp at h
  | d + 1, a, y :: x, h => by
    rw [List.ofFn_succ, monoVal, powInt_eq, monoVal_eq d _ x (by simpa using h),
      Fin.prod_univ_succ]
    simp

/-- The weighted sum of a monomial. -/
def moment (a : List Nat) : List (Int × List Int) → Int
  | [] => 0
  | e :: z => e.1 * monoVal a e.2 + moment a z

/-- The rational table is the integer table divided by `Kw` (weights) and `Kx` (coordinates). -/
def scaled {d : Nat} (Kw Kx : Nat) : List (ℚ × (Fin d → ℚ)) → List (Int × List Int) → Bool
  | [], [] => true
  | p :: t, e :: z => p.1.num * Kw == e.1 * p.1.den && e.2.length == d &&
      (List.finRange d).all (fun i => (p.2 i).num * Kx == e.2.getD i 0 * (p.2 i).den) &&
      scaled Kw Kx t z
  | _, _ => false

theorem rat_scaled (q : ℚ) (K : Nat) (hK : 0 < K) (z : Int) (h : q.num * K = z * q.den) :
    (q : ℝ) = z / K := by
  have hd : (q.den : ℝ) ≠ 0 := by exact_mod_cast q.den_nz
  have hk : (K : ℝ) ≠ 0 := by positivity
  rw [Rat.cast_def, div_eq_div_iff hd hk]
  exact_mod_cast h

theorem quadSum_scaled {d : Nat} (Kw Kx : Nat) (hw : 0 < Kw) (hx : 0 < Kx) (n N : Nat)
    (a : Fin d → ℕ) : ∀ (t : List (ℚ × (Fin d → ℚ))) (z : List (Int × List Int)),
      scaled Kw Kx t z = true →
      quadSum (ofTable n N t) (fun x => ∏ i, x i ^ a i) =
        moment (List.ofFn a) z / ((Kw : ℝ) * Kx ^ (∑ i, a i))
  | [], [], _ => by simp [quadSum, ofTable, moment]
  | [], _ :: _, h => by simp [scaled] at h
  | _ :: _, [], h => by simp [scaled] at h
  | p :: t, e :: z, h => by
    simp only [scaled, Bool.and_eq_true, beq_iff_eq, List.all_eq_true, List.mem_finRange,
      forall_const] at h
    obtain ⟨⟨⟨h1, h2⟩, h3⟩, h4⟩ := h
    have ih := quadSum_scaled Kw Kx hw hx n N a t z h4
    have : quadSum (ofTable n N (p :: t)) (fun x => ∏ i, x i ^ a i) =
        (p.1 : ℝ) * ∏ i, (p.2 i : ℝ) ^ a i +
          quadSum (ofTable n N t) (fun x => ∏ i, x i ^ a i) := by
      simp [quadSum, ofTable]
    rw [this, ih, moment, rat_scaled p.1 Kw hw e.1 h1]
    have hk : (Kx : ℝ) ≠ 0 := by positivity
    have hk' : (Kw : ℝ) ≠ 0 := by positivity
    have e1 : ∏ i, (p.2 i : ℝ) ^ a i =
        (monoVal (List.ofFn a) e.2 : ℝ) / (Kx : ℝ) ^ (∑ i, a i) := by
      rw [monoVal_eq d a e.2 h2]
      push_cast
      rw [← Finset.prod_pow_eq_pow_sum, ← Finset.prod_div_distrib]
      refine Finset.prod_congr rfl fun i _ => ?_
      rw [rat_scaled (p.2 i) Kx hx _ (h3 i), div_pow]
    rw [e1]
    push_cast
    field_simp

/-- The error for one monomial, as a numerator over `Kw * Kx ^ |a| * den`. -/
def errNum (I : List Nat → Nat × Nat) (Kw Kx : Nat) (z : List (Int × List Int)) (a : List Nat) :
    Int :=
  moment a z * (I a).2 - (I a).1 * (Kw * Nat.pow Kx a.sum : Nat)

def errDen (I : List Nat → Nat × Nat) (Kw Kx : Nat) (a : List Nat) : Nat :=
  Kw * Nat.pow Kx a.sum * (I a).2

/-- All monomials up to degree `n` have an error of at most `1 / E`. -/
def check (I : List Nat → Nat × Nat) (Kw Kx E d n : Nat) (z : List (Int × List Int)) : Bool :=
  (exps d n).all fun a => Nat.ble ((errNum I Kw Kx z a).natAbs * E) (errDen I Kw Kx a)

/-- `I` gives the integrals of the monomials over the shape. -/
def Moments {d : Nat} (g : Geom d) (I : List Nat → Nat × Nat) : Prop :=
  ∀ a : Fin d → ℕ, (I (List.ofFn a)).2 ≠ 0 ∧
    ∫ x in body g, ∏ i, x i ^ a i = ((I (List.ofFn a)).1 : ℝ) / (I (List.ofFn a)).2

theorem error_eq {d : Nat} {g : Geom d} {I : List Nat → Nat × Nat} (hI : Moments g I)
    {Kw Kx : Nat} (hw : 0 < Kw) (hx : 0 < Kx) (n N : Nat) {t : List (ℚ × (Fin d → ℚ))}
    {z : List (Int × List Int)} (hz : scaled Kw Kx t z = true) (a : Fin d → ℕ) :
    0 < errDen I Kw Kx (List.ofFn a) ∧
    quadSum (ofTable n N t) (fun x => ∏ i, x i ^ a i) - ∫ x in body g, ∏ i, x i ^ a i =
      (errNum I Kw Kx z (List.ofFn a) : ℝ) / errDen I Kw Kx (List.ofFn a) := by
  obtain ⟨h0, h1⟩ := hI a
  have hpow : Nat.pow Kx (List.ofFn a).sum = Kx ^ (∑ i, a i) := by
    rw [List.sum_ofFn]; rfl
  refine ⟨?_, ?_⟩
  · unfold errDen
    rw [hpow]
    have := Nat.pos_of_ne_zero h0
    positivity
  · rw [quadSum_scaled Kw Kx hw hx n N a t z hz, h1]
    unfold errNum errDen
    rw [hpow]
    have hk : (Kx : ℝ) ≠ 0 := by positivity
    have hk' : (Kw : ℝ) ≠ 0 := by positivity
    have h0' : ((I (List.ofFn a)).2 : ℝ) ≠ 0 := by exact_mod_cast h0
    push_cast
    field_simp

theorem mono_of_check {d : Nat} {g : Geom d} {I : List Nat → Nat × Nat} (hI : Moments g I)
    {Kw Kx E : Nat} (hw : 0 < Kw) (hx : 0 < Kx) (hE : 0 < E) (n N m : Nat)
    {t : List (ℚ × (Fin d → ℚ))}
    {z : List (Int × List Int)} (hz : scaled Kw Kx t z = true) (hc : check I Kw Kx E d m z = true)
    (a : Fin d → ℕ) (ha : ∑ i, a i ≤ m) :
    |quadSum (ofTable n N t) (fun x => ∏ i, x i ^ a i) - ∫ x in body g, ∏ i, x i ^ a i| ≤ 1 / E := by
  obtain ⟨hpos, he⟩ := error_eq hI hw hx n N hz a
  rw [he]
  unfold check at hc
  rw [List.all_eq_true] at hc
  have := Nat.le_of_ble_eq_true (hc _ (mem_exps d m a ha))
  have hp : (0 : ℝ) < errDen I Kw Kx (List.ofFn a) := by exact_mod_cast hpos
  have hE' : (0 : ℝ) < E := by exact_mod_cast hE
  rw [abs_div, abs_of_pos hp, div_le_div_iff₀ hp hE', one_mul, ← Int.cast_abs]
  have h2 : |errNum I Kw Kx z (List.ofFn a)| * (E : ℤ) ≤ errDen I Kw Kx (List.ofFn a) := by
    rw [Int.abs_eq_natAbs]; exact_mod_cast this
  exact_mod_cast h2

theorem integrates_of_check {d : Nat} {g : Geom d} (hg : IsCompact (body g))
    {I : List Nat → Nat × Nat} (hI : Moments g I)
    {Kw Kx E : Nat} (hw : 0 < Kw) (hx : 0 < Kx) (hE : 0 < E) (n N m : Nat)
    {t : List (ℚ × (Fin d → ℚ))} (ht : t ≠ [] ∧ N = t.length)
    {z : List (Int × List Int)} (hz : scaled Kw Kx t z = true)
    (hc : check I Kw Kx E d m z = true) : Integrates g (ofTable n N t) m (1 / E) :=
  integrates_of_monomials hg (by simpa [ofTable] using ht)
    (mono_of_check hI hw hx hE n N m hz hc)

/-! ### The integrals of the shapes as fractions -/

def lineM (n : Nat) : Nat × Nat := if n % 2 = 0 then (2, n + 1) else (0, 1)

def boxM : List Nat → Nat × Nat
  | [] => (1, 1)
  | n :: a => ((lineM n).1 * (boxM a).1, (lineM n).2 * (boxM a).2)

def triangleM (a : List Nat) : Nat × Nat :=
  match a with
  | [a, b] => (a ! * b !, (a + b + 2)!)
  | _ => (0, 1)

def tetrahedronM (a : List Nat) : Nat × Nat :=
  match a with
  | [a, b, c] => (a ! * b ! * c !, (a + b + c + 3)!)
  | _ => (0, 1)

def prismM (a : List Nat) : Nat × Nat :=
  match a with
  | [a, b, c] => (a ! * b ! * (lineM c).1, (a + b + 2)! * (lineM c).2)
  | _ => (0, 1)

def pyramidM (a : List Nat) : Nat × Nat :=
  match a with
  | [a, b, c] => ((lineM a).1 * (lineM b).1 * (c ! * (a + b + 2)!),
      (lineM a).2 * (lineM b).2 * (a + b + c + 3)!)
  | _ => (0, 1)

theorem lineM_eq (n : Nat) : (lineM n).2 ≠ 0 ∧ lineMoment n = ((lineM n).1 : ℝ) / (lineM n).2 := by
  unfold lineM lineMoment
  split <;> simp

theorem boxM_eq : ∀ (d : Nat) (a : Fin d → ℕ), (boxM (List.ofFn a)).2 ≠ 0 ∧
    ∏ i, lineMoment (a i) = ((boxM (List.ofFn a)).1 : ℝ) / (boxM (List.ofFn a)).2
  | 0, a => by simp [boxM]
  | d + 1, a => by
    obtain ⟨h1, h2⟩ := boxM_eq d (fun i => a i.succ)
    obtain ⟨h3, h4⟩ := lineM_eq (a 0)
    rw [List.ofFn_succ, Fin.prod_univ_succ, h2, h4, boxM]
    refine ⟨mul_ne_zero h3 h1, ?_⟩
    push_cast
    rw [div_mul_div_comm]

theorem line_moments : Moments lineG boxM := fun a => by
  rw [line_body, unit_box]; exact boxM_eq 1 a

theorem square_moments : Moments squareG boxM := fun a => by
  rw [square_body, unit_box]; exact boxM_eq 2 a

theorem cube_moments : Moments cubeG boxM := fun a => by
  rw [cube_body, unit_box]; exact boxM_eq 3 a

theorem hypercube_moments : Moments hypercubeG boxM := fun a => by
  rw [hypercube_body, unit_box]; exact boxM_eq 4 a

theorem ofFn2 (a : Fin 2 → ℕ) : List.ofFn a = [a 0, a 1] := by simp [List.ofFn_succ]
theorem ofFn3 (a : Fin 3 → ℕ) : List.ofFn a = [a 0, a 1, a 2] := by simp [List.ofFn_succ]

theorem triangle_moments : Moments triangleG triangleM := fun a => by
  rw [triangle_integral, ofFn2]
  simp only [triangleM]
  exact ⟨(Nat.factorial_pos _).ne', by push_cast; rfl⟩

theorem tetrahedron_moments : Moments tetrahedronG tetrahedronM := fun a => by
  rw [tetrahedron_integral, ofFn3]
  simp only [tetrahedronM]
  exact ⟨(Nat.factorial_pos _).ne', by push_cast; rfl⟩

theorem prism_moments : Moments prismG prismM := fun a => by
  obtain ⟨h3, h4⟩ := lineM_eq (a 2)
  rw [prism_integral, ofFn3, h4]
  simp only [prismM]
  refine ⟨mul_ne_zero (Nat.factorial_pos _).ne' h3, ?_⟩
  push_cast
  rw [div_mul_div_comm]

theorem pyramid_moments : Moments pyramidG pyramidM := fun a => by
  obtain ⟨h1, h2⟩ := lineM_eq (a 0)
  obtain ⟨h3, h4⟩ := lineM_eq (a 1)
  rw [pyramid_integral, ofFn3, h2, h4]
  simp only [pyramidM]
  refine ⟨mul_ne_zero (mul_ne_zero h1 h3) (Nat.factorial_pos _).ne', ?_⟩
  push_cast
  rw [div_mul_div_comm, div_mul_div_comm]

theorem line_compact : IsCompact (body lineG) := line_body ▸ box_compact 1 1
theorem square_compact : IsCompact (body squareG) := square_body ▸ box_compact 2 1
theorem cube_compact : IsCompact (body cubeG) := cube_body ▸ box_compact 3 1
theorem hypercube_compact : IsCompact (body hypercubeG) := hypercube_body ▸ box_compact 4 1
theorem triangle_compact : IsCompact (body triangleG) := triangle_body ▸ simplex_compact 2 1
theorem tetrahedron_compact : IsCompact (body tetrahedronG) :=
  tetrahedron_body ▸ simplex_compact 3 1

end Verif.Quadrature
