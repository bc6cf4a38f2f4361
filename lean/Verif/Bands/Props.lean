import Verif.Bands.LemmasSpectrum
import Verif.Bands.LemmasGroup
import Mathlib.Data.Fin.VecNotation
import Mathlib.Tactic.FinCases
import Mathlib.Algebra.BigOperators.Fin

set_option linter.all false

/-! # Spectra of a homogeneous medium (C119) and grouped frequencies (C120) -/
namespace Verif.Bands

variable {d : Nat}

/-! ## C119 -/

theorem modes_eq (d : Nat) (ω : ℝ) : modes d ω = polarizations d ω := by
  rw [modes, polarizations]
  by_cases h : d ≤ 2
  · rw [if_neg (by omega), if_pos h]
  · rw [if_pos (by omega), if_neg h]

/-- **C119** (partial: for bases that are not too far from orthogonal, see `spectrum_misses`; frequencies equal to the
bound may be left out). For every basis of the reciprocal lattice that is `NearlyOrthogonal`, permittivity, wave vector
and bound, the search ends. The frequencies are those of a list of different lattice points, in increasing order and
each as often as there are polarizations; it has every point with a frequency below the bound and none above. -/
theorem spectrum_bands_partial (b : Fin d → Fin d → ℝ) (hb : NearlyOrthogonal b) (ε : ℝ) (hε : 0 < ε)
    (k : Fin d → ℝ) (M : ℝ) :
    ∃ Gs : List (Fin d → Int), Gs.Nodup ∧ (∀ G, band b ε k G < M → G ∈ Gs) ∧ (∀ G ∈ Gs, band b ε k G ≤ M) ∧
      (Gs.Pairwise fun G H => band b ε k G ≤ band b ε k H) ∧
      linearSpectrum b ε k M =
        some (Gs.flatMap fun G => List.replicate (polarizations d (band b ε k G)) (band b ε k G)) := by
  have hr := hb.regular
  obtain ⟨init, done, h1, h2, hI, h3⟩ := spectrum_total b hr ε hε k M
  have hfin : {p : Point d | frequency b ε k p ≤ M}.Finite := by
    refine (finite_within b k hr (M * √ε)).subset ?_
    intro p hp
    exact (frequency_le_iff b ε hε k p M).1 hp
  have hcomp := hI.complete hfin (by
    intro p hp
    obtain ⟨n, hn, hlt⟩ := closer b hb k (solve b k) (solve_spec b k hr) p
      (far_of_not_near b k p fun h => hp ((h2 p).2 h))
    exact ⟨n, hn, div_lt_div_of_pos_right hlt (Real.sqrt_pos.2 hε)⟩)
  have hf : frequency b ε k = band b ε k := funext fun p => frequency_eq_band b ε k p
  rw [hf] at hI hcomp h3
  refine ⟨done, hI.nodup, hcomp, hI.bound, hI.sorted, ?_⟩
  rw [h3, listing]
  congr 2
  funext G
  rw [modes_eq]

/-- **C119**. For every basis that is not singular the search ends, and what it reports are frequencies of different
lattice points up to the bound, in increasing order. -/
theorem spectrum_sound (b : Fin d → Fin d → ℝ)
    (hb : (Matrix.of fun coord vec => b vec coord : Matrix (Fin d) (Fin d) ℝ).det ≠ 0) (ε : ℝ) (hε : 0 < ε)
    (k : Fin d → ℝ) (M : ℝ) :
    ∃ Gs : List (Fin d → Int), Gs.Nodup ∧ (∀ G ∈ Gs, band b ε k G ≤ M) ∧
      (Gs.Pairwise fun G H => band b ε k G ≤ band b ε k H) ∧
      linearSpectrum b ε k M =
        some (Gs.flatMap fun G => List.replicate (polarizations d (band b ε k G)) (band b ε k G)) := by
  obtain ⟨init, done, h1, h2, hI, h3⟩ := spectrum_total b hb ε hε k M
  have hf : frequency b ε k = band b ε k := funext fun p => frequency_eq_band b ε k p
  rw [hf] at hI h3
  refine ⟨done, hI.nodup, hI.bound, hI.sorted, ?_⟩
  rw [h3, listing]
  congr 2
  funext G
  rw [modes_eq]

/-- A basis of the square lattice with sides of length one. -/
def skewed : Fin 2 → Fin 2 → ℝ := ![![1, 0], ![10, 1]]

theorem skewed_points : ∀ G ∈ ([![0, 0], ![1, 0], ![-1, 0], ![-10, 1], ![10, -1]] : List (Fin 2 → Int)),
    band skewed 1 (fun _ => 0) G ≤ 1 := by
  intro G hG
  simp only [List.mem_cons, List.not_mem_nil, or_false] at hG
  rw [band, length, Real.sqrt_one, div_one]
  rw [show (1 : ℝ) = √1 from Real.sqrt_one.symm]
  apply Real.sqrt_le_sqrt
  rcases hG with rfl | rfl | rfl | rfl | rfl <;>
    simp [latticeVector, skewed, Fin.sum_univ_two] <;> norm_num

/-- **C119** (violated). The search only moves to points with a higher frequency. In the basis `(1, 0)`, `(10, 1)` of
the square lattice the points `±(0, 1)` cannot be reached like this: at the wave vector zero and up to the frequency
6/5 at most four modes are reported, although there are five lattice points with frequencies up to one, and the one at
zero gives two modes. -/
theorem spectrum_misses : ∃ l, linearSpectrum skewed 1 (fun _ => 0) (6 / 5) = some l ∧ l.length ≤ 4 ∧
    ∃ Gs : List (Fin 2 → Int), Gs.Nodup ∧ Gs.length = 5 ∧ ∀ G ∈ Gs, band skewed 1 (fun _ => 0) G ≤ 1 := by
  have hreg : Regular skewed := by
    rw [Regular, Matrix.det_fin_two]
    simp [skewed]
  obtain ⟨init, done, h1, h2, hI, h3⟩ := spectrum_total skewed hreg 1 one_pos (fun _ => 0) (6 / 5)
  have hsolve : ∀ i, round (solve skewed (fun _ => 0) i) = 0 := by
    intro i
    have : solve skewed (fun _ : Fin 2 => (0 : ℝ)) = 0 := by
      rw [solve, if_neg hreg]
      exact Matrix.mulVec_zero _
    rw [this, Pi.zero_apply, round, if_pos le_rfl]
    norm_num
  have hbnd : ∀ p : Point 2, frequency skewed 1 (fun _ => 0) p ≤ 6 / 5 → |p 0 + 10 * p 1| ≤ 1 := by
    intro p hp
    rw [frequency_le_iff skewed 1 one_pos, Real.sqrt_one, mul_one] at hp
    have := (abs_le_l2Norm _ (0 : Fin 2)).trans hp
    simp only [position, skewed, Fin.sum_univ_two, Matrix.cons_val_zero, Matrix.cons_val_one, sub_zero, mul_one] at this
    have h5 : (((|p 0 + 10 * p 1| : Int)) : ℝ) < 2 := by
      push_cast
      rw [mul_comm (10 : ℝ)]
      linarith
    have h6 : |p 0 + 10 * p 1| < 2 := by exact_mod_cast h5
    omega
  have hzero : ∀ p ∈ done, p 1 = 0 := by
    by_contra hc
    push Not at hc
    obtain ⟨p0, hp0, hn0⟩ := hc
    have hbad : {p : Point 2 | p ∈ done ∧ p 1 ≠ 0}.Finite :=
      (List.finite_toSet done).subset fun p hp => hp.1
    obtain ⟨p, hp, hmin⟩ := Set.exists_min_image _ (frequency skewed 1 fun _ => 0) hbad ⟨p0, hp0, hn0⟩
    have hpb := abs_le.1 (hbnd p (hI.bound p hp.1))
    rcases hI.origin p (Or.inl hp.1) with hi | ⟨r, hr, hn, hlt, -⟩
    · have h4 := (h2 p).1 hi
      simp only [hsolve] at h4
      have h40 := abs_le.1 (h4 0)
      have h41 := abs_le.1 (h4 1)
      exact hp.2 (by omega)
    · have hr0 : r 1 = 0 := by
        by_contra hh
        exact absurd (hmin r ⟨hr, hh⟩) (not_le.2 hlt)
      have hrb := abs_le.1 (hbnd r (hI.bound r hr))
      have h40 := abs_le.1 (hn.2 0)
      have h41 := abs_le.1 (hn.2 1)
      exact hp.2 (by omega)
  have hsub : ∀ p ∈ done, p ∈ ([![0, 0], ![1, 0], ![-1, 0]] : List (Point 2)) := by
    intro p hp
    have h0 := hzero p hp
    have hb := abs_le.1 (hbnd p (hI.bound p hp))
    have h4 : p 0 = 0 ∨ p 0 = 1 ∨ p 0 = -1 := by omega
    have hpe : p = ![p 0, p 1] := by
      funext i; fin_cases i <;> rfl
    rw [h0] at hpe
    rcases h4 with h4 | h4 | h4 <;> rw [h4] at hpe <;> rw [hpe] <;> simp
  refine ⟨_, h3, ?_, _, ?_, ?_, skewed_points⟩
  · obtain ⟨rest, hperm, hsl⟩ := List.subperm_of_subset hI.nodup hsub
    have hlen : (listing (frequency skewed 1 fun _ => 0) done).length =
        (rest.map fun p => modes 2 (frequency skewed 1 (fun _ => 0) p)).sum := by
      rw [listing, List.length_flatMap]
      simp only [List.length_replicate]
      exact ((hperm.map _).sum_eq).symm
    rw [hlen]
    refine (List.Sublist.sum_le_sum (hsl.map _) (by simp)).trans ?_
    have hone : ∀ x : Int, x = 1 ∨ x = -1 → modes 2 (frequency skewed 1 (fun _ => 0) ![x, 0]) = 1 := by
      intro x hx
      have : frequency skewed 1 (fun _ => 0) ![x, 0] = 1 := by
        rw [frequency, l2Norm]
        rcases hx with rfl | rfl <;> simp [position, skewed, Fin.sum_univ_two]
      rw [this, modes]
      norm_num
    simp only [List.map_cons, List.map_nil, List.sum_cons, List.sum_nil]
    rw [hone 1 (Or.inl rfl), hone (-1) (Or.inr rfl)]
    have : modes 2 (frequency skewed 1 (fun _ => 0) ![0, 0]) ≤ 2 := by
      rw [modes, if_neg (by omega)]
      split <;> omega
    omega
  · decide
  · rfl

/-- The cubic lattice in space meets the condition, and so does the triangular one in the plane. -/
example : NearlyOrthogonal (fun i j : Fin 3 => if i = j then (2 : ℝ) else 0) ∧
    NearlyOrthogonal (![![2, 0], ![1, 2]] : Fin 2 → Fin 2 → ℝ) := by
  constructor
  · apply Orthogonal.nearly
    refine ⟨?_, ?_⟩
    · intro i j hij
      apply Finset.sum_eq_zero
      intro c _
      simp only []
      by_cases h : i = c
      · subst h; rw [if_neg (Ne.symm hij), mul_zero]
      · rw [if_neg h, zero_mul]
    · intro i h
      have := congrFun h i
      simp at this
  · intro i
    fin_cases i
    · have : (Finset.univ.erase (0 : Fin 2)) = {1} := by decide
      simp [this, Fin.sum_univ_two]; norm_num
    · have : (Finset.univ.erase (1 : Fin 2)) = {0} := by decide
      simp [this, Fin.sum_univ_two]; norm_num

/-! ## C120 -/

/-- **C120**. For every sorted list and positive tolerance: the keys are at least the tolerance apart and in
increasing order; the count of a key is the number of entries from the key up to less than the tolerance above it; and
the counts add up to the number of entries. -/
theorem group_counts (tol : ℝ) (ht : 0 < tol) (l : List ℝ) (hs : l.Pairwise (· ≤ ·)) :
    ((group l tol).map Prod.snd).sum = l.length ∧
    ((group l tol).map Prod.fst).Pairwise (fun x y => x + tol ≤ y) ∧
    ∀ e ∈ group l tol, e.1 ∈ l ∧ e.2 = (l.filter fun y => e.1 ≤ y ∧ y < e.1 + tol).length := by
  obtain ⟨m, hm⟩ : ∃ m, l.length = m := ⟨_, rfl⟩
  induction m using Nat.strong_induction_on generalizing l with
  | _ m ih =>
    cases l with
    | nil => simp [group, groupLoop]
    | cons e l =>
      have hs0 := hs
      rw [List.pairwise_cons] at hs
      rw [group_cons tol ht e l hs0]
      set c := groupCount tol e l with hc
      have hsp := groupCount_sorted tol e l hs.2 hs.1
      rw [← hc] at hsp
      have hcl : c ≤ l.length := groupCount_le tol e l
      have hlen : (l.drop c).length < m := by
        simp only [List.length_drop]; simp only [List.length_cons] at hm; omega
      obtain ⟨i1, i2, i3⟩ := ih _ hlen (l.drop c) (hs.2.sublist (List.drop_sublist _ _)) rfl
      have hsplit : l = l.take c ++ l.drop c := (List.take_append_drop c l).symm
      refine ⟨?_, ?_, ?_⟩
      · rw [List.map_cons, List.sum_cons, i1]
        simp only [List.length_drop, List.length_cons]
        omega
      · rw [List.map_cons, List.pairwise_cons]
        refine ⟨?_, i2⟩
        intro x hx
        obtain ⟨a, ha, rfl⟩ := List.mem_map.1 hx
        exact hsp.2 _ (i3 a ha).1
      · intro a ha
        rcases List.mem_cons.1 ha with rfl | ha
        · refine ⟨List.mem_cons_self, ?_⟩
          simp only []
          rw [List.filter_cons_of_pos (by simp [ht])]
          conv_rhs => rw [hsplit]
          rw [List.filter_append, List.length_cons, List.length_append]
          rw [List.filter_eq_self.2 (by
            intro y hy
            have h1 := hsp.1 y hy
            have h2 := hs.1 y (List.mem_of_mem_take hy)
            simp [h1, h2])]
          rw [List.filter_eq_nil_iff.2 (by
            intro y hy
            have := hsp.2 y hy
            simp only [decide_eq_true_eq, not_and, not_lt]
            exact fun _ => this)]
          rw [List.length_take, min_eq_left hcl, List.length_nil]
          omega
        · obtain ⟨h1, h2⟩ := i3 a ha
          have hge := hsp.2 _ h1
          refine ⟨List.mem_cons_of_mem _ (List.mem_of_mem_drop h1), ?_⟩
          rw [h2]
          rw [List.filter_cons_of_neg (by simp only [decide_eq_true_eq, not_and]; intro h; linarith)]
          conv_rhs => rw [hsplit]
          rw [List.filter_append, List.length_append]
          have : List.filter (fun y => decide (a.1 ≤ y ∧ y < a.1 + tol)) (List.take c l) = [] := by
            rw [List.filter_eq_nil_iff]
            intro y hy
            have := hsp.1 y hy
            simp only [decide_eq_true_eq, not_and, not_lt]
            intro h
            linarith
          rw [this, List.length_nil, Nat.zero_add]

/-- **C120** (violated for lists that are not sorted). A frequency that comes back later overwrites its count: of
three entries two remain. -/
theorem group_overwrites : group [0, 1, 0] (1 / 2) = [(0, 1), (1, 1)] := by
  rw [group, groupLoop, groupCount, if_neg (by norm_num)]
  simp only [List.drop_zero, assign]
  rw [groupLoop, groupCount, if_neg (by norm_num)]
  simp only [List.drop_zero, assign]
  rw [groupLoop, groupCount]
  simp only [List.drop_nil]
  rw [groupLoop]
  norm_num [assign]

/-- **C119**, **C120**. The grouped spectrum counts, for every key, the modes of all lattice points with frequencies
from the key to less than `10⁻⁵` above it, for keys that far below the bound. -/
theorem spectrum_degeneracy_partial (b : Fin d → Fin d → ℝ) (hb : NearlyOrthogonal b) (ε : ℝ) (hε : 0 < ε)
    (k : Fin d → ℝ) (M : ℝ) :
    ∃ r, spectrum b ε k M = some r ∧ ∀ e ∈ r, e.1 + 1 / 10 ^ 5 ≤ M →
      ∃ Gs : List (Fin d → Int), Gs.Nodup ∧
        (∀ G, G ∈ Gs ↔ e.1 ≤ band b ε k G ∧ band b ε k G < e.1 + 1 / 10 ^ 5) ∧
        e.2 = (Gs.map fun G => polarizations d (band b ε k G)).sum := by
  obtain ⟨Gs, h1, h2, h3, h4, h5⟩ := spectrum_bands_partial b hb ε hε k M
  refine ⟨_, by rw [spectrum, h5]; rfl, ?_⟩
  have hsorted : (Gs.flatMap fun G => List.replicate (polarizations d (band b ε k G)) (band b ε k G)).Pairwise
      (· ≤ ·) := by
    rw [List.pairwise_flatMap]
    refine ⟨fun G _ => List.pairwise_replicate.2 (Or.inr le_rfl), h4.imp ?_⟩
    intro G H hGH x hx y hy
    rw [(List.mem_replicate.1 hx).2, (List.mem_replicate.1 hy).2]
    exact hGH
  intro e he heM
  obtain ⟨-, h6⟩ := (group_counts (1 / 10 ^ 5) (by norm_num) _ hsorted).2.2 e he
  refine ⟨Gs.filter fun G => e.1 ≤ band b ε k G ∧ band b ε k G < e.1 + 1 / 10 ^ 5, h1.filter _, ?_, ?_⟩
  · intro G
    rw [List.mem_filter, decide_eq_true_eq]
    exact ⟨fun h => h.2, fun h => ⟨h2 G (lt_of_lt_of_le h.2 heM), h⟩⟩
  · rw [h6]
    clear h6 he hsorted h5 h4 h3 h2 h1
    induction Gs with
    | nil => rfl
    | cons G Gs ih =>
      rw [List.flatMap_cons, List.filter_append, List.length_append, ih]
      by_cases hG : e.1 ≤ band b ε k G ∧ band b ε k G < e.1 + 1 / 10 ^ 5
      · rw [List.filter_cons_of_pos (by simpa using hG), List.map_cons, List.sum_cons, List.filter_replicate,
          if_pos (by simpa using hG), List.length_replicate]
      · rw [List.filter_cons_of_neg (by simpa using hG), List.filter_replicate, if_neg (by simpa using hG)]
        simp

end Verif.Bands
