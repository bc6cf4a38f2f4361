import Verif.Lattice.LemmasTensor
import Mathlib.Data.List.Range
import Mathlib.Data.List.Nodup

set_option linter.all false

namespace Verif.Lattice
open RefGeometry

theorem Enumerates.perm {d : Nat} {l m : List (Pt d)} {S : Set (Pt d)} (h1 : Enumerates l S)
    (h2 : Enumerates m S) : l.Perm m :=
  (List.perm_ext_iff_of_nodup h1.1 h2.1).mpr fun p => (h1.2 p).trans (h2.2 p).symm

theorem scale_inj' {n a b : Nat} (hn : 1 ≤ n) (h : (a : ℝ) * (1 / n) = b * (1 / n)) : a = b := by
  apply scale_inj hn; rw [mul_comm, h, mul_comm]

theorem curvedLine_enumerates (n : Nat) (hn : 1 ≤ n) : Enumerates (curvedLine n) (tensorLattice 1 n) := by
  have hn' : (n : ℝ) ≠ 0 := by positivity
  apply tensor_enumerates hn
  · simp [curvedLine]
  · intro k hk
    refine List.mem_map.mpr ⟨k 0, List.mem_range.mpr (Nat.lt_succ_iff.mpr (hk 0)), ?_⟩
    funext i; fin_cases i; simp; field_simp

theorem curvedTriangle_enumerates (n : Nat) (hn : 1 ≤ n) :
    Enumerates (curvedTriangle n) (simplexLattice 2 n) := by
  have hn' : (n : ℝ) ≠ 0 := by positivity
  constructor
  · unfold curvedTriangle
    rw [List.nodup_flatMap]
    constructor
    · intro i _
      refine List.Nodup.map ?_ List.nodup_range
      intro a b h
      exact scale_inj' hn (congrFun h 0)
    · refine List.Pairwise.imp ?_ List.nodup_range
      intro a b hab
      simp only [Function.onFun, List.disjoint_left, List.mem_map]
      rintro x ⟨j, _, rfl⟩ ⟨j', _, h⟩
      exact hab (scale_inj' hn (congrFun h 1)).symm
  · intro p
    simp only [curvedTriangle, List.mem_flatMap, List.mem_map, List.mem_range, simplexLattice,
      Set.mem_ofPred_eq]
    constructor
    · rintro ⟨i, hi, j, hj, rfl⟩
      refine ⟨![j, i], by simp; omega, ?_⟩
      funext q; fin_cases q <;> simp <;> field_simp
    · rintro ⟨k, hk, rfl⟩
      rw [Fin.sum_univ_two] at hk
      refine ⟨k 1, by omega, k 0, by omega, ?_⟩
      funext q; fin_cases q <;> simp <;> field_simp

theorem curvedTetrahedron_enumerates (n : Nat) (hn : 1 ≤ n) :
    Enumerates (curvedTetrahedron n) (simplexLattice 3 n) := by
  have hn' : (n : ℝ) ≠ 0 := by positivity
  constructor
  · unfold curvedTetrahedron
    rw [List.nodup_flatMap]
    constructor
    · intro iz _
      rw [List.nodup_flatMap]
      constructor
      · intro i _
        refine List.Nodup.map ?_ List.nodup_range
        intro a b h
        exact scale_inj' hn (congrFun h 0)
      · refine List.Pairwise.imp ?_ List.nodup_range
        intro a b hab
        simp only [Function.onFun, List.disjoint_left, List.mem_map]
        rintro x ⟨j, _, rfl⟩ ⟨j', _, h⟩
        exact hab (scale_inj' hn (congrFun h 1)).symm
    · refine List.Pairwise.imp ?_ List.nodup_range
      intro a b hab
      simp only [Function.onFun, List.disjoint_left, List.mem_flatMap, List.mem_map]
      rintro x ⟨i, _, j, _, rfl⟩ ⟨i', _, j', _, h⟩
      exact hab (scale_inj' hn (congrFun h 2)).symm
  · intro p
    simp only [curvedTetrahedron, List.mem_flatMap, List.mem_map, List.mem_range, simplexLattice,
      Set.mem_ofPred_eq]
    constructor
    · rintro ⟨i, hi, j, hj, l, hl, rfl⟩
      refine ⟨![l, j, i], by simp [Fin.sum_univ_three]; omega, ?_⟩
      funext q; fin_cases q <;> simp <;> field_simp
    · rintro ⟨k, hk, rfl⟩
      rw [Fin.sum_univ_three] at hk
      refine ⟨k 2, by omega, k 1, by omega, k 0, by omega, ?_⟩
      funext q; fin_cases q <;> simp <;> field_simp

/-! ### order from the number of points -/

theorem lround_nat (p : Nat) : lround (p : ℝ) = p := by
  unfold lround
  rw [if_pos (by positivity), Int.floor_eq_iff]
  constructor <;> push_cast <;> linarith

theorem triangleOrder_of (N p : Nat) (h : 2 * N = (p + 1) * (p + 2)) :
    triangleOrderFromPoints N = p := by
  have h' : 2 * (N : ℝ) = (p + 1) * (p + 2) := by exact_mod_cast h
  have e : Real.sqrt (9 + 8 * ((N : ℝ) - 1)) = 2 * p + 3 := by
    rw [show (9 : ℝ) + 8 * (N - 1) = (2 * p + 3) ^ 2 by nlinarith, Real.sqrt_sq (by positivity)]
  unfold triangleOrderFromPoints
  simp only
  rw [e, show (-3 / 2 + (2 * (p : ℝ) + 3) / 2) = p by ring, lround_nat, if_pos]
  have : ((p : ℤ) + 2) * (p + 1) = N * 2 := by
    have : ((2 * N : Nat) : ℤ) = (((p + 1) * (p + 2) : Nat) : ℤ) := by rw [h]
    push_cast at this; linarith
  rw [this, Int.mul_ediv_cancel _ (by norm_num)]

theorem triangleOrder_cases (N : Nat) :
    triangleOrderFromPoints N = -1 ∨
    ∃ p : Nat, triangleOrderFromPoints N = p ∧ 2 * N = (p + 1) * (p + 2) := by
  unfold triangleOrderFromPoints
  simp only
  generalize ho : lround (-3 / 2 + Real.sqrt (9 + 8 * ((N : ℝ) - 1)) / 2) = o
  split_ifs with h
  · have hs : 0 ≤ Real.sqrt (9 + 8 * ((N : ℝ) - 1)) := Real.sqrt_nonneg _
    have ho' : -1 ≤ o := by
      rw [← ho]
      unfold lround
      have h1 : (1 : ℝ) ≤ Real.sqrt (9 + 8 * ((N : ℝ) - 1)) := by
        have : (0 : ℝ) ≤ N := by positivity
        apply Real.le_sqrt_of_sq_le
        nlinarith
      split_ifs with h2
      · have := Int.floor_nonneg.mpr (show (0 : ℝ) ≤ -3 / 2 + Real.sqrt (9 + 8 * ((N : ℝ) - 1)) / 2 + 1 / 2 by linarith)
        linarith
      · have : (-2 : ℤ) < ⌈-3 / 2 + Real.sqrt (9 + 8 * ((N : ℝ) - 1)) / 2 - 1 / 2⌉ := by
          rw [Int.lt_ceil]; push_cast; linarith
        linarith
    by_cases hneg : o = -1
    · left; exact hneg
    · right
      obtain ⟨p, rfl⟩ : ∃ p : Nat, o = p := ⟨o.toNat, by omega⟩
      refine ⟨p, rfl, ?_⟩
      have hev : 2 ∣ (p + 2) * (p + 1) := by
        rcases Nat.even_or_odd p with ⟨q, hq⟩ | ⟨q, hq⟩
        · exact Dvd.dvd.mul_right ⟨q + 1, by omega⟩ _
        · exact Dvd.dvd.mul_left ⟨q + 1, by omega⟩ _
      have h3 : ((p + 2) * (p + 1) / 2 : Nat) = N := by
        have : (((p + 2) * (p + 1) / 2 : Nat) : ℤ) = (N : ℤ) := by push_cast; exact h
        exact_mod_cast this
      rw [← h3, Nat.mul_div_cancel' hev]; ring
  · left; rfl

theorem tetNumber_lt {a b : Nat} (h : a < b) :
    (a + 1) * (a + 2) * (a + 3) < (b + 1) * (b + 2) * (b + 3) := by
  have h1 : (a + 1) * (a + 2) < (b + 1) * (b + 2) := Nat.mul_lt_mul'' (by omega) (by omega)
  exact Nat.mul_lt_mul'' h1 (by omega)

theorem tetOrderLoop_spec (N : Nat) : ∀ (fuel T o : Nat), 6 * T = (o + 1) * (o + 2) * (o + 3) →
    (∀ o' < o, 6 * N ≠ (o' + 1) * (o' + 2) * (o' + 3)) → o < T → N < fuel + o →
    (tetOrderLoop N fuel T o = -1 ∧ ∀ p : Nat, 6 * N ≠ (p + 1) * (p + 2) * (p + 3)) ∨
    ∃ p : Nat, tetOrderLoop N fuel T o = p ∧ 6 * N = (p + 1) * (p + 2) * (p + 3) := by
  intro fuel
  induction fuel with
  | zero =>
    intro T o hT ho hoT hf
    left
    refine ⟨rfl, fun p hp => ?_⟩
    by_cases h : p < o
    · exact ho p h hp
    · have : (o + 1) * (o + 2) * (o + 3) ≤ (p + 1) * (p + 2) * (p + 3) := by
        rcases Nat.lt_or_ge o p with h2 | h2
        · exact Nat.le_of_lt (tetNumber_lt h2)
        · have : p = o := by omega
          rw [this]
      omega
  | succ fuel ih =>
    intro T o hT ho hoT hf
    unfold tetOrderLoop
    by_cases h1 : T ≤ N
    · rw [if_pos h1]
      by_cases h2 : T = N
      · rw [if_pos h2]; right; exact ⟨o, rfl, by rw [← h2, hT]⟩
      · rw [if_neg h2]
        have hev : 2 ∣ (o + 1 + 1) * (o + 1 + 2) := by
          rcases Nat.even_or_odd o with ⟨q, hq⟩ | ⟨q, hq⟩
          · exact Dvd.dvd.mul_right ⟨q + 1, by omega⟩ _
          · exact Dvd.dvd.mul_left ⟨q + 2, by omega⟩ _
        obtain ⟨c, hc⟩ := hev
        refine ih _ (o + 1) ?_ ?_ ?_ (by omega)
        · have h6 : 6 * c = 3 * ((o + 1 + 1) * (o + 1 + 2)) := by rw [hc]; ring
          have h7 : (o + 1 + 1) * (o + 1 + 2) / 2 = c := by
            rw [hc, Nat.mul_div_cancel_left _ (by norm_num)]
          simp only [h7]
          rw [Nat.mul_add, hT, h6]; ring
        · intro o' ho' heq
          rcases Nat.lt_or_ge o' o with h3 | h3
          · exact ho o' h3 heq
          · have : o' = o := by omega
            subst this
            omega
        · rw [hc, Nat.mul_div_cancel_left _ (by norm_num)]
          have : 0 < c := by
            rcases Nat.eq_zero_or_pos c with h | h
            · subst h; simp at hc
            · exact h
          omega
    · rw [if_neg h1]
      left
      refine ⟨rfl, fun p hp => ?_⟩
      by_cases h : p < o
      · exact ho p h hp
      · have : (o + 1) * (o + 2) * (o + 3) ≤ (p + 1) * (p + 2) * (p + 3) := by
          rcases Nat.lt_or_ge o p with h2 | h2
          · exact Nat.le_of_lt (tetNumber_lt h2)
          · have : p = o := by omega
            rw [this]
        omega

theorem tetrahedronOrder_cases (N : Nat) :
    (tetrahedronOrderFromPoints N = -1 ∧ ∀ p : Nat, 6 * N ≠ (p + 1) * (p + 2) * (p + 3)) ∨
    ∃ p : Nat, tetrahedronOrderFromPoints N = p ∧ 6 * N = (p + 1) * (p + 2) * (p + 3) :=
  tetOrderLoop_spec N (N + 1) 1 0 (by norm_num) (by omega) (by omega) (by omega)

theorem tetrahedronOrder_of (N p : Nat) (h : 6 * N = (p + 1) * (p + 2) * (p + 3)) :
    tetrahedronOrderFromPoints N = p := by
  rcases tetrahedronOrder_cases N with ⟨_, h2⟩ | ⟨q, h1, h2⟩
  · exact absurd h (h2 p)
  · rw [h1]
    rcases Nat.lt_trichotomy p q with h3 | h3 | h3
    · have := tetNumber_lt h3; omega
    · rw [h3]
    · have := tetNumber_lt h3; omega

/-! ### indices of the nodes of faces -/

theorem findPoint_exact {d : Nat} {pts : List (Pt d)} {p : Pt d} (hp : p ∈ pts)
    (hsep : ∀ q ∈ pts, ∑ i, (p i - q i) ^ 2 < (1e-8 : ℝ) * 1e-8 → q = p) :
    ∃ j, findPoint pts p = some j ∧ pts[j]? = some p := by
  unfold findPoint
  have hex : ∃ x ∈ pts, decide (∑ i, (p i - x i) ^ 2 < (1e-8 : ℝ) * 1e-8) = true := by
    refine ⟨p, hp, ?_⟩
    simp
    norm_num
  cases h : pts.findIdx? fun q => decide (∑ i, (p i - q i) ^ 2 < (1e-8 : ℝ) * 1e-8) with
  | none =>
    rw [List.findIdx?_eq_none_iff] at h
    obtain ⟨x, hx, hx2⟩ := hex
    rw [h x hx] at hx2; cases hx2
  | some j =>
    refine ⟨j, rfl, ?_⟩
    rw [List.findIdx?_eq_some_iff_getElem] at h
    obtain ⟨hj, h1, _⟩ := h
    have := hsep pts[j] (List.getElem_mem hj) (of_decide_eq_true h1)
    rw [List.getElem?_eq_getElem hj, this]

theorem nodeIndices_exact {d e : Nat} {pts : List (Pt d)} (map : Pt e → Pt d) (nodes : List (Pt e))
    (hm : ∀ x ∈ nodes, map x ∈ pts)
    (hsep : ∀ p ∈ pts, ∀ q ∈ pts, ∑ i, (p i - q i) ^ 2 < (1e-8 : ℝ) * 1e-8 → q = p) :
    ∃ idx, nodeIndices pts map nodes = some idx ∧
      idx.map (fun j => pts[j]?) = nodes.map fun x => some (map x) := by
  unfold nodeIndices
  induction nodes with
  | nil => exact ⟨[], by simp, rfl⟩
  | cons x xs ih =>
    obtain ⟨j, hj, hj2⟩ := findPoint_exact (hm x (by simp)) (hsep _ (hm x (by simp)))
    obtain ⟨idx, h1, h2⟩ := ih fun y hy => hm y (by simp [hy])
    refine ⟨j :: idx, ?_, ?_⟩
    · simp [List.mapM_cons, hj, h1]
    · simp [hj2, h2]

theorem simplex_separated {d n : Nat} (hn : 1 ≤ n) (hn8 : n ≤ 10 ^ 8) {p q : Pt d}
    (hp : p ∈ simplexLattice d n) (hq : q ∈ simplexLattice d n)
    (h : ∑ i, (p i - q i) ^ 2 < (1e-8 : ℝ) * 1e-8) : q = p := by
  obtain ⟨k, _, rfl⟩ := hp
  obtain ⟨l, _, rfl⟩ := hq
  have hn' : (0 : ℝ) < n := by positivity
  have hn8' : (n : ℝ) ≤ 10 ^ 8 := by exact_mod_cast hn8
  funext i
  by_contra hne
  have hkl : k i ≠ l i := by intro h; apply hne; simp [h]
  have h1 : ((k i : ℝ) / n - (l i : ℝ) / n) ^ 2 ≤ ∑ i, ((k i : ℝ) / n - (l i : ℝ) / n) ^ 2 :=
    Finset.single_le_sum (f := fun i => ((k i : ℝ) / n - (l i : ℝ) / n) ^ 2)
      (fun j _ => sq_nonneg _) (Finset.mem_univ i)
  have h2 : (1 : ℝ) ≤ ((k i : ℝ) - l i) ^ 2 := by
    have : (1 : ℤ) ≤ ((k i : ℤ) - l i) ^ 2 := by
      have : ((k i : ℤ) - l i) ≠ 0 := by omega
      have := sq_pos_of_ne_zero this
      omega
    exact_mod_cast this
  have h3 : ((k i : ℝ) / n - (l i : ℝ) / n) ^ 2 = ((k i : ℝ) - l i) ^ 2 / n ^ 2 := by field_simp
  have h4 : (1e-8 : ℝ) * 1e-8 ≤ ((k i : ℝ) - l i) ^ 2 / n ^ 2 := by
    rw [le_div_iff₀ (by positivity)]
    have : (n : ℝ) ^ 2 ≤ (10 ^ 8) ^ 2 := by gcongr
    calc (1e-8 : ℝ) * 1e-8 * (n : ℝ) ^ 2 ≤ 1e-8 * 1e-8 * (10 ^ 8) ^ 2 := by gcongr
      _ = 1 := by norm_num
      _ ≤ _ := h2
  simp only at h
  linarith

theorem corner_mem_two {n : Nat} (hn : 1 ≤ n) {x : Pt 2} (hx : x ∈ triangleG.nodes) :
    x ∈ simplexLattice 2 n := by
  have hn' : (n : ℝ) ≠ 0 := by positivity
  simp only [triangleG, List.mem_cons, List.not_mem_nil, or_false] at hx
  rcases hx with rfl | rfl | rfl
  · exact ⟨![0, 0], by simp, by funext i; fin_cases i <;> simp⟩
  · exact ⟨![n, 0], by simp, by funext i; fin_cases i <;> simp [hn']⟩
  · exact ⟨![0, n], by simp, by funext i; fin_cases i <;> simp [hn']⟩

theorem corner_mem_three {n : Nat} (hn : 1 ≤ n) {x : Pt 3} (hx : x ∈ tetrahedronG.nodes) :
    x ∈ simplexLattice 3 n := by
  have hn' : (n : ℝ) ≠ 0 := by positivity
  simp only [tetrahedronG, List.mem_cons, List.not_mem_nil, or_false] at hx
  rcases hx with rfl | rfl | rfl | rfl
  · exact ⟨![0, 0, 0], by simp [Fin.sum_univ_three], by funext i; fin_cases i <;> simp⟩
  · exact ⟨![n, 0, 0], by simp [Fin.sum_univ_three], by funext i; fin_cases i <;> simp [hn']⟩
  · exact ⟨![0, n, 0], by simp [Fin.sum_univ_three], by funext i; fin_cases i <;> simp [hn']⟩
  · exact ⟨![0, 0, n], by simp [Fin.sum_univ_three], by funext i; fin_cases i <;> simp [hn']⟩

theorem triangle_face_mem {n : Nat} (hn : 1 ≤ n) {f : Face 1} (hf : f ∈ triangleFaces) {x : Pt 1}
    (hx : x ∈ tensorLattice 1 n) : f.map.transform x ∈ simplexLattice 2 n := by
  obtain ⟨k, hk, rfl⟩ := hx
  have hk0 := hk 0
  have hn' : (n : ℝ) ≠ 0 := by positivity
  have hsub : ((n - k 0 : Nat) : ℝ) = n - k 0 := Nat.cast_sub hk0
  simp only [triangleFaces, List.mem_cons, List.not_mem_nil, or_false] at hf
  rcases hf with rfl | rfl | rfl
  · exact ⟨![k 0, 0], by simpa using hk0, by funext i; fin_cases i <;> simp <;> field_simp <;> norm_num⟩
  · exact ⟨![0, k 0], by simpa using hk0, by funext i; fin_cases i <;> simp <;> field_simp <;> norm_num⟩
  · refine ⟨![n - k 0, k 0], by simp; omega, ?_⟩
    funext i; fin_cases i <;> simp [hsub] <;> field_simp <;> norm_num <;> ring

theorem tetrahedron_face_mem {n : Nat} (hn : 1 ≤ n) {f : Face 2} (hf : f ∈ tetrahedronFaces) {x : Pt 2}
    (hx : x ∈ simplexLattice 2 n) : f.map.transform x ∈ simplexLattice 3 n := by
  obtain ⟨k, hk, rfl⟩ := hx
  rw [Fin.sum_univ_two] at hk
  have hn' : (n : ℝ) ≠ 0 := by positivity
  have hsub : ((n - k 0 - k 1 : Nat) : ℝ) = n - k 0 - k 1 := by
    rw [Nat.sub_sub, Nat.cast_sub hk]; push_cast; ring
  simp only [tetrahedronFaces, List.mem_cons, List.not_mem_nil, or_false] at hf
  rcases hf with rfl | rfl | rfl | rfl
  · exact ⟨![0, k 1, k 0], by simp [Fin.sum_univ_three]; omega, by funext i; fin_cases i <;> simp⟩
  · exact ⟨![k 0, 0, k 1], by simp [Fin.sum_univ_three]; omega, by funext i; fin_cases i <;> simp⟩
  · exact ⟨![k 1, k 0, 0], by simp [Fin.sum_univ_three]; omega, by funext i; fin_cases i <;> simp⟩
  · refine ⟨![n - k 0 - k 1, k 0, k 1], by simp [Fin.sum_univ_three]; omega, ?_⟩
    funext i; fin_cases i <;> simp [hsub] <;> field_simp

theorem tetrahedron_edge_mem {n : Nat} (hn : 1 ≤ n) {a b : Pt 3} (ha : a ∈ tetrahedronG.nodes)
    (hb : b ∈ tetrahedronG.nodes) {x : Pt 1} (hx : x ∈ tensorLattice 1 n) :
    (lineToTetrahedron a b).transform x ∈ simplexLattice 3 n := by
  obtain ⟨k, hk, rfl⟩ := hx
  have hk0 := hk 0
  have hn' : (n : ℝ) ≠ 0 := by positivity
  have key : ∀ u v : Fin 3 → Nat, ∑ i, u i ≤ 1 → ∑ i, v i ≤ 1 →
      (lineToTetrahedron (fun i => (u i : ℝ)) (fun i => (v i : ℝ))).transform
        (fun i => -1 + 2 * (k i : ℝ) / n) ∈ simplexLattice 3 n := by
    intro u v hu hv
    refine ⟨fun i => (n - k 0) * u i + k 0 * v i, ?_, ?_⟩
    · rw [Finset.sum_add_distrib, ← Finset.mul_sum, ← Finset.mul_sum]
      calc (n - k 0) * ∑ i, u i + k 0 * ∑ i, v i ≤ (n - k 0) * 1 + k 0 * 1 := by gcongr
        _ = n := by omega
    · funext i
      simp only [lineToTetrahedron]
      push_cast
      rw [Nat.cast_sub hk0]
      field_simp
      ring
  have corner : ∀ c ∈ tetrahedronG.nodes, ∃ u : Fin 3 → Nat, ∑ i, u i ≤ 1 ∧ c = fun i => (u i : ℝ) := by
    intro c hc
    simp only [tetrahedronG, List.mem_cons, List.not_mem_nil, or_false] at hc
    rcases hc with rfl | rfl | rfl | rfl
    · exact ⟨![0, 0, 0], by simp [Fin.sum_univ_three], by funext i; fin_cases i <;> simp⟩
    · exact ⟨![1, 0, 0], by simp [Fin.sum_univ_three], by funext i; fin_cases i <;> simp⟩
    · exact ⟨![0, 1, 0], by simp [Fin.sum_univ_three], by funext i; fin_cases i <;> simp⟩
    · exact ⟨![0, 0, 1], by simp [Fin.sum_univ_three], by funext i; fin_cases i <;> simp⟩
  obtain ⟨u, hu, rfl⟩ := corner a ha
  obtain ⟨v, hv, rfl⟩ := corner b hb
  exact key u v hu hv

end Verif.Lattice
