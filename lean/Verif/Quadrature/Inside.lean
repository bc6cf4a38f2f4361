import Verif.Quadrature.Check
set_option linter.all false

/-! # Points inside the shape, by integer arithmetic -/
namespace Verif.Quadrature
open RefGeometry

theorem scaled_mem {d : Nat} (Kw Kx : Nat) (hx : 0 < Kx) :
    ∀ (t : List (ℚ × (Fin d → ℚ))) (z : List (Int × List Int)), scaled Kw Kx t z = true →
      ∀ p ∈ t, ∃ e ∈ z, ∀ i : Fin d, (p.2 i : ℝ) = (e.2.getD i 0 : Int) / Kx
  | [], _, _ => by simp
  | _ :: _, [], h => by simp [scaled] at h
  | p :: t, e :: z, h => by
    simp only [scaled, Bool.and_eq_true, beq_iff_eq, List.all_eq_true, List.mem_finRange,
      forall_const] at h
    intro q hq
    rcases List.mem_cons.1 hq with rfl | hq
    · exact ⟨e, List.mem_cons_self, fun i => rat_scaled _ Kx hx _ (h.1.2 i)⟩
    · obtain ⟨e', he, h'⟩ := scaled_mem Kw Kx hx t z h.2 q hq
      exact ⟨e', List.mem_cons_of_mem _ he, h'⟩

/-- The test of a shape on the numerators. -/
def Test {d : Nat} (g : Geom d) (T : Nat → List Int → Bool) : Prop :=
  ∀ (K : Nat), 0 < K → ∀ (x : List Int) (p : Pt d), (∀ i : Fin d, p i = (x.getD i 0 : Int) / K) →
    T K x = true → p ∈ body g

theorem inside_of_test {d : Nat} {g : Geom d} {T : Nat → List Int → Bool} (hT : Test g T)
    {Kw Kx : Nat} (hx : 0 < Kx) (n N : Nat) {t : List (ℚ × (Fin d → ℚ))}
    {z : List (Int × List Int)} (hz : scaled Kw Kx t z = true)
    (hc : (z.all fun e => T Kx e.2) = true) : PointsInside g (ofTable n N t) := by
  intro q hq
  simp only [ofTable, List.mem_map] at hq
  obtain ⟨p, hp, rfl⟩ := hq
  obtain ⟨e, he, h⟩ := scaled_mem Kw Kx hx t z hz p hp
  rw [List.all_eq_true] at hc
  exact hT Kx hx e.2 _ h (hc e he)

def boxT (d : Nat) (K : Nat) (x : List Int) : Bool :=
  (List.range d).all fun i => decide (-(K : Int) ≤ x.getD i 0) && decide (x.getD i 0 ≤ K)

def simplexT (d : Nat) (K : Nat) (x : List Int) : Bool :=
  ((List.range d).all fun i => decide (0 ≤ x.getD i 0)) &&
    decide (((List.range d).map fun i => x.getD i 0).sum ≤ K)

def prismT (K : Nat) (x : List Int) : Bool :=
  simplexT 2 K x && decide (-(K : Int) ≤ x.getD 2 0) && decide (x.getD 2 0 ≤ K)

def pyramidT (K : Nat) (x : List Int) : Bool :=
  decide (0 ≤ x.getD 2 0) && decide (x.getD 2 0 ≤ K) &&
    decide (-(K - x.getD 2 0) ≤ x.getD 0 0) && decide (x.getD 0 0 ≤ K - x.getD 2 0) &&
    decide (-(K - x.getD 2 0) ≤ x.getD 1 0) && decide (x.getD 1 0 ≤ K - x.getD 2 0)

theorem div_le_one_iff' (K : Nat) (hK : 0 < K) (x : Int) : x ≤ K → ((x : ℝ) / K) ≤ 1 := by
  intro h
  rw [div_le_one (by exact_mod_cast hK)]
  exact_mod_cast h

theorem neg_one_le_div' (K : Nat) (hK : 0 < K) (x : Int) : -(K : Int) ≤ x → -1 ≤ ((x : ℝ) / K) := by
  intro h
  rw [le_div_iff₀ (by exact_mod_cast hK)]
  have : ((-(K : Int) : Int) : ℝ) ≤ x := by exact_mod_cast h
  push_cast at this
  linarith

theorem box_test {d : Nat} {g : Geom d}
    (hb : body g = Set.pi Set.univ (fun _ : Fin d => Set.Icc (-1 : ℝ) 1)) :
    Test g (boxT d) := by
  intro K hK x p hp h
  rw [hb]
  intro i _
  simp only [boxT, List.all_eq_true, List.mem_range, Bool.and_eq_true, decide_eq_true_eq] at h
  have := h i i.2
  rw [hp i]
  exact ⟨neg_one_le_div' K hK _ this.1, div_le_one_iff' K hK _ this.2⟩

theorem simplex_test {d : Nat} {g : Geom d} (hb : body g = simplex d 1) :
    Test g (simplexT d) := by
  intro K hK x p hp h
  rw [hb]
  simp only [simplexT, List.all_eq_true, List.mem_range, Bool.and_eq_true, decide_eq_true_eq] at h
  have hK' : (0 : ℝ) < K := by exact_mod_cast hK
  refine ⟨fun i => ?_, ?_⟩
  · rw [hp i]
    have := h.1 i i.2
    have : (0 : ℝ) ≤ (x.getD i 0 : Int) := by exact_mod_cast this
    positivity
  · have e : ∑ i, p i = ((((List.range d).map fun i => x.getD i 0).sum : Int) : ℝ) / K := by
      simp_rw [hp]
      rw [← Finset.sum_div]
      congr 1
      have : ((List.range d).map fun i => x.getD i 0).sum = ∑ i : Fin d, x.getD i 0 := by
        rw [← List.sum_ofFn]
        congr 1
        apply List.ext_getElem <;> simp
      rw [this]
      push_cast
      rfl
    rw [e]
    exact div_le_one_iff' K hK _ h.2

theorem prism_test : Test prismG prismT := by
  intro K hK x p hp h
  simp only [prismT, Bool.and_eq_true, decide_eq_true_eq] at h
  have ht : (![p 0, p 1] : Pt 2) ∈ body triangleG := by
    refine simplex_test triangle_body K hK x _ (fun i => ?_) h.1.1
    fin_cases i
    · exact hp 0
    · exact hp 1
  have e2 := hp 2
  have h1 := neg_one_le_div' K hK _ h.1.2
  have h2 := div_le_one_iff' K hK _ h.2
  have e2' : p 2 = ((x.getD 2 0 : Int) : ℝ) / K := e2
  rw [← e2'] at h1 h2
  exact ⟨h1, h2, ht⟩

theorem pyramid_test : Test pyramidG pyramidT := by
  intro K hK x p hp h
  simp only [pyramidT, Bool.and_eq_true, decide_eq_true_eq] at h
  obtain ⟨⟨⟨⟨⟨h0, h1⟩, h2⟩, h3⟩, h4⟩, h5⟩ := h
  have hK' : (0 : ℝ) < K := by exact_mod_cast hK
  have e0 : p 0 = ((x.getD 0 0 : Int) : ℝ) / K := hp 0
  have e1 : p 1 = ((x.getD 1 0 : Int) : ℝ) / K := hp 1
  have e2 : p 2 = ((x.getD 2 0 : Int) : ℝ) / K := hp 2
  generalize x.getD 0 0 = u at *
  generalize x.getD 1 0 = v at *
  generalize x.getD 2 0 = w at *
  have h0' : (0 : ℝ) ≤ w := by exact_mod_cast h0
  have h1' : (w : ℝ) ≤ K := by exact_mod_cast h1
  have h2' : -((K : ℝ) - w) ≤ u := by exact_mod_cast h2
  have h3' : (u : ℝ) ≤ K - w := by exact_mod_cast h3
  have h4' : -((K : ℝ) - w) ≤ v := by exact_mod_cast h4
  have h5' : (v : ℝ) ≤ K - w := by exact_mod_cast h5
  have hd : 1 - (w : ℝ) / K = (K - w) / K := by field_simp
  refine ⟨?_, ?_, ?_, ?_⟩
  · rw [e2]; positivity
  · rw [e2]; exact (div_le_one hK').2 h1'
  · rw [e0, e2, hd, abs_le, ← neg_div, div_le_div_iff_of_pos_right hK',
      div_le_div_iff_of_pos_right hK']
    exact ⟨h2', h3'⟩
  · rw [e1, e2, hd, abs_le, ← neg_div, div_le_div_iff_of_pos_right hK',
      div_le_div_iff_of_pos_right hK']
    exact ⟨h4', h5'⟩

end Verif.Quadrature
