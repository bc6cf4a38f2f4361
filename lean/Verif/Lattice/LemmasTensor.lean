import Verif.Lattice.LemmasPoints
import Mathlib.Data.Fintype.Pi
import Mathlib.Data.Fintype.BigOperators

set_option linter.all false

namespace Verif
variable {α β : Type}

theorem flatMap_getElem (f : β → List α) (m : Nat) : ∀ (l : List β), (∀ x ∈ l, (f x).length = m) →
    ∀ (k i : Nat), i < m → (l.flatMap f)[k * m + i]? = l[k]?.bind fun x => (f x)[i]? := by
  intro l
  induction l with
  | nil => intro _ k i _; simp
  | cons x xs ih =>
    intro h k i hi
    have hx := h x (by simp)
    rw [List.flatMap_cons]
    cases k with
    | zero =>
      rw [List.getElem?_append_left (by rw [hx]; omega)]
      simp
    | succ k =>
      rw [List.getElem?_append_right (by rw [hx]; nlinarith)]
      have e : (k + 1) * m + i - (f x).length = k * m + i := by
        rw [hx, Nat.add_mul, Nat.one_mul]; omega
      rw [e, ih (fun y hy => h y (by simp [hy])) k i hi]; simp

theorem mem_segs {segs : List (Nat → α)} {m k i : Nat} {f : Nat → α} (hk : segs[k]? = some f)
    (hi : i < m) : f i ∈ segs.flatMap fun f => (List.range m).map f :=
  List.mem_flatMap.mpr ⟨f, List.mem_of_getElem? hk, List.mem_map.mpr ⟨i, List.mem_range.mpr hi, rfl⟩⟩

theorem mem_segs2 {segs : List (Nat × Nat → α)} {m k i j : Nat} {f : Nat × Nat → α} (hk : segs[k]? = some f)
    (hi : i < m) (hj : j < m) : f (i, j) ∈ segs.flatMap fun f => (List.range m).flatMap fun i =>
      (List.range m).map fun j => f (i, j) :=
  List.mem_flatMap.mpr ⟨f, List.mem_of_getElem? hk, List.mem_flatMap.mpr ⟨i, List.mem_range.mpr hi,
    List.mem_map.mpr ⟨j, List.mem_range.mpr hj, rfl⟩⟩⟩

end Verif

namespace Verif.Lattice
open RefGeometry

/-! ### Tensor lattices -/

/-- The inner points of a side. -/
noncomputable def inn (n i : Nat) : ℝ := -1 + ((i : ℝ) + 1) * (2 / (n : ℝ))

theorem tensor_enumerates {d n : Nat} (hn : 1 ≤ n) (pts : List (Pt d))
    (hlen : pts.length = (n + 1) ^ d)
    (h : ∀ k : Fin d → Nat, (∀ i, k i ≤ n) → (fun i => -1 + 2 * (k i : ℝ) / n) ∈ pts) :
    Enumerates pts (tensorLattice d n) := by
  have hn' : (n : ℝ) ≠ 0 := by positivity
  let g : (Fin d → Fin (n + 1)) → Pt d := fun k i => -1 + 2 * ((k i : Nat) : ℝ) / n
  have hg : Function.Injective g := by
    intro a b hab
    funext i
    have := congrFun hab i
    simp only [g] at this
    field_simp at this
    have h2 : ((a i : Nat) : ℝ) = ((b i : Nat) : ℝ) := by linarith
    exact Fin.ext (by exact_mod_cast h2)
  let T := (Finset.univ : Finset (Fin d → Fin (n + 1))).toList.map g
  have hT : T.Nodup := (Finset.nodup_toList _).map hg
  have hperm : pts.Perm T := by
    apply perm_of_cover hT
    · intro x hx
      obtain ⟨k, _, rfl⟩ := List.mem_map.mp hx
      exact h (fun i => k i) (fun i => Nat.lt_succ_iff.mp (k i).isLt)
    · simp [T, hlen]
  refine ⟨hperm.nodup_iff.mpr hT, fun p => ?_⟩
  rw [hperm.mem_iff]
  constructor
  · intro hp
    obtain ⟨k, _, rfl⟩ := List.mem_map.mp hp
    exact ⟨fun i => k i, fun i => Nat.lt_succ_iff.mp (k i).isLt, rfl⟩
  · rintro ⟨k, hk, rfl⟩
    refine List.mem_map.mpr ⟨fun i => ⟨k i, by have := hk i; omega⟩, by simp, rfl⟩

theorem node_cases {n k : Nat} (hn : 1 ≤ n) (hk : k ≤ n) :
    -1 + 2 * (k : ℝ) / n = -1 ∨ -1 + 2 * (k : ℝ) / n = 1 ∨ ∃ i, i < n - 1 ∧ -1 + 2 * (k : ℝ) / n = inn n i := by
  have hn' : (n : ℝ) ≠ 0 := by positivity
  by_cases h0 : k = 0
  · left; simp [h0]
  · by_cases h1 : k = n
    · right; left; rw [h1]; field_simp; norm_num
    · right; right
      refine ⟨k - 1, by omega, ?_⟩
      unfold inn
      rw [Nat.cast_sub (by omega)]
      push_cast
      field_simp
      ring

theorem tensor_inside {d n : Nat} (hn : 1 ≤ n) {p : Pt d} (hp : p ∈ tensorLattice d n) (i : Fin d) :
    -1 ≤ p i ∧ p i ≤ 1 := by
  obtain ⟨k, hk, rfl⟩ := hp
  have hn' : (0 : ℝ) < n := by positivity
  have h1 : (k i : ℝ) ≤ n := by exact_mod_cast hk i
  have h0 : (0 : ℝ) ≤ k i := by positivity
  constructor
  · have : (0 : ℝ) ≤ 2 * (k i : ℝ) / n := by positivity
    linarith
  · have : 2 * (k i : ℝ) / n ≤ 2 := by rw [div_le_iff₀ hn']; linarith
    linarith

/-! curve -/

noncomputable def curveList (n : Nat) : List (Pt 1) :=
  [![-1], ![1]] ++ (List.range (n - 1)).map fun i => ![inn n i]

theorem vtkCurve_eq (n : Nat) (hn : 1 ≤ n) : vtkCurve n = some (curveList n) := by
  unfold vtkCurve
  apply fill_eq
  · apply List.Perm.of_eq
    unfold curveList
    rw [writesFrom_append]
    congr 1
    apply List.ext_getElem?
    intro i
    by_cases hi : i < n - 1
    · simp [writesFrom, hi, inn, Nat.add_comm, add_comm]; omega
    · rw [List.getElem?_eq_none (by simp; omega), List.getElem?_eq_none (by simp [writesFrom]; omega)]
  · simp [curveList]; omega

theorem vec1_eta (p : Pt 1) : p = ![p 0] := by funext i; fin_cases i; rfl
theorem vec2_eta (p : Pt 2) : p = ![p 0, p 1] := by funext i; fin_cases i <;> rfl
theorem vec3_eta' (p : Pt 3) : p = ![p 0, p 1, p 2] := by funext i; fin_cases i <;> rfl

theorem curve_enumerates (n : Nat) (hn : 1 ≤ n) : Enumerates (curveList n) (tensorLattice 1 n) := by
  apply tensor_enumerates hn
  · simp [curveList]; omega
  · intro k hk
    rw [vec1_eta (fun i => -1 + 2 * (k i : ℝ) / n)]
    rcases node_cases hn (hk 0) with h | h | ⟨i, hi, h⟩
    · simp [curveList, h]
    · simp [curveList, h]
    · apply List.mem_append_right
      exact List.mem_map.mpr ⟨i, List.mem_range.mpr hi, by rw [h]⟩

theorem curve_edges (n : Nat) (hn : 1 ≤ n) : EdgesAt (curveList n) n 2 [(![-1], ![1])] := by
  have hn' : (n : ℝ) ≠ 0 := by positivity
  intro k e he i hi
  have hk : k = 0 := by
    by_contra hc
    rw [List.getElem?_eq_none (by simp; omega)] at he
    cases he
  subst hk
  simp only [List.getElem?_cons_zero, Option.some.injEq] at he
  subst he
  rw [curveList, Nat.zero_mul, List.getElem?_append_right (by simp)]
  have : i < n - 1 := by omega
  simp [this]
  funext j
  fin_cases j
  simp [between, AffineMap.lineMap_apply, inn]
  ring

/-! quadrilateral -/

noncomputable def quadSides (n : Nat) : List (Nat → Pt 2) :=
  [fun i => ![inn n i, -1], fun i => ![1, inn n i], fun i => ![inn n i, 1], fun i => ![-1, inn n i]]

noncomputable def quadInner (n : Nat) : List (Pt 2) :=
  (List.range (n - 1)).flatMap fun i => (List.range (n - 1)).map fun j => ![inn n j, inn n i]

noncomputable def quadList (n : Nat) : List (Pt 2) :=
  [![-1, -1], ![1, -1], ![1, 1], ![-1, 1]] ++
    ((quadSides n).flatMap fun f => (List.range (n - 1)).map f) ++ quadInner n

theorem quadInner_length (n : Nat) : (quadInner n).length = (n - 1) * (n - 1) := by
  simp [quadInner, List.length_flatMap]

theorem quadList_length (n : Nat) (hn : 1 ≤ n) : (quadList n).length = (n + 1) * (n + 1) := by
  obtain ⟨m, rfl⟩ : ∃ m, n = m + 1 := ⟨n - 1, by omega⟩
  simp only [quadList, List.length_append, quadInner_length, Nat.add_sub_cancel]
  simp [quadSides]
  ring

theorem vtkQuadrilateral_eq (n : Nat) (hn : 1 ≤ n) : vtkQuadrilateral n = some (quadList n) := by
  unfold vtkQuadrilateral
  apply fill_eq
  · unfold quadList
    rw [writesFrom_append, writesFrom_append]
    refine List.Perm.append (List.Perm.append ?_ ?_) ?_
    · exact List.Perm.of_eq (by simp [writesFrom_cons, writesFrom_nil])
    · refine (List.Perm.of_eq ?_).trans (segments_range (quadSides n) (n - 1) _)
      apply List.flatMap_congr
      intro i _
      simp [quadSides, inn]
      omega
    · apply List.Perm.of_eq
      congr 1
      simp [quadSides]
      omega
  · exact quadList_length n hn

theorem quad_enumerates (n : Nat) (hn : 1 ≤ n) : Enumerates (quadList n) (tensorLattice 2 n) := by
  apply tensor_enumerates hn
  · rw [quadList_length n hn]; ring
  · intro k hk
    rw [vec2_eta (fun i => -1 + 2 * (k i : ℝ) / n)]
    unfold quadList
    rw [List.mem_append, List.mem_append]
    rcases node_cases hn (hk 0) with hx | hx | ⟨x, hxl, hx⟩ <;>
      rcases node_cases hn (hk 1) with hy | hy | ⟨y, hyl, hy⟩ <;> rw [hx, hy]
    · left; left; simp
    · left; left; simp
    · left; right; exact mem_segs (segs := quadSides n) (k := 3) rfl hyl
    · left; left; simp
    · left; left; simp
    · left; right; exact mem_segs (segs := quadSides n) (k := 1) rfl hyl
    · left; right; exact mem_segs (segs := quadSides n) (k := 0) rfl hxl
    · left; right; exact mem_segs (segs := quadSides n) (k := 2) rfl hxl
    · right
      exact List.mem_flatMap.mpr ⟨y, List.mem_range.mpr hyl, List.mem_map.mpr ⟨x, List.mem_range.mpr hxl, rfl⟩⟩

theorem quad_edges (n : Nat) (hn : 1 ≤ n) : EdgesAt (quadList n) n 4
    [(![-1, -1], ![1, -1]), (![1, -1], ![1, 1]), (![-1, 1], ![1, 1]), (![-1, -1], ![-1, 1])] := by
  have hn' : (n : ℝ) ≠ 0 := by positivity
  intro k e he i hi
  have hk : k < 4 := by
    by_contra hc
    rw [List.getElem?_eq_none (by simp; omega)] at he
    cases he
  have hidx : k * (n - 1) + i < 4 * (n - 1) := by
    have : k * (n - 1) ≤ 3 * (n - 1) := Nat.mul_le_mul_right _ (by omega)
    omega
  rw [quadList, List.append_assoc, Nat.add_assoc, List.getElem?_append_right (by simp)]
  simp only [List.length_cons, List.length_nil, Nat.zero_add, Nat.reduceAdd, Nat.add_sub_cancel_left]
  rw [List.getElem?_append_left (by simp [quadSides]; omega), segs_getElem _ _ _ _ (by omega)]
  have : k = 0 ∨ k = 1 ∨ k = 2 ∨ k = 3 := by omega
  rcases this with rfl | rfl | rfl | rfl <;>
  · simp only [List.getElem?_cons_zero, List.getElem?_cons_succ, Option.some.injEq] at he
    subst he
    simp only [quadSides, List.getElem?_cons_zero, List.getElem?_cons_succ, Option.map_some,
      Option.some.injEq]
    funext j
    fin_cases j <;> simp [between, AffineMap.lineMap_apply, inn] <;> field_simp <;> ring

theorem quad_interior (n : Nat) (hn : 1 ≤ n) (i j : Nat) (hi : i < n - 1) (hj : j < n - 1) :
    (quadList n)[4 * n + i * (n - 1) + j]? = some ![inn n j, inn n i] := by
  have e : 4 * n = ([![-1, -1], ![1, -1], ![1, 1], ![-1, 1]] ++
    ((quadSides n).flatMap fun f => (List.range (n - 1)).map f)).length := by
    simp [quadSides]; omega
  rw [quadList, Nat.add_assoc, e, List.getElem?_append_right (Nat.le_add_right _ _),
    Nat.add_sub_cancel_left, quadInner, flatMap_getElem _ (n - 1) _ (by simp) _ _ hj]
  simp [hi, hj]

/-! hexahedron -/

noncomputable def hexEdges (n : Nat) : List (Nat → Pt 3) :=
  [fun i => ![inn n i, -1, -1], fun i => ![1, inn n i, -1], fun i => ![inn n i, 1, -1],
    fun i => ![-1, inn n i, -1], fun i => ![inn n i, -1, 1], fun i => ![1, inn n i, 1],
    fun i => ![inn n i, 1, 1], fun i => ![-1, inn n i, 1], fun i => ![-1, -1, inn n i],
    fun i => ![1, -1, inn n i], fun i => ![-1, 1, inn n i], fun i => ![1, 1, inn n i]]

/-- Face points; the first index is the slow one. -/
noncomputable def hexFaces (n : Nat) : List (Nat × Nat → Pt 3) :=
  [fun q => ![-1, inn n q.2, inn n q.1], fun q => ![1, inn n q.2, inn n q.1],
    fun q => ![inn n q.2, -1, inn n q.1], fun q => ![inn n q.2, 1, inn n q.1],
    fun q => ![inn n q.2, inn n q.1, -1], fun q => ![inn n q.2, inn n q.1, 1]]

noncomputable def hexInner (n : Nat) : List (Pt 3) :=
  (List.range (n - 1)).flatMap fun z => (List.range (n - 1)).flatMap fun y =>
    (List.range (n - 1)).map fun x => ![inn n x, inn n y, inn n z]

noncomputable def hexCorners : List (Pt 3) :=
  [![-1, -1, -1], ![1, -1, -1], ![1, 1, -1], ![-1, 1, -1],
    ![-1, -1, 1], ![1, -1, 1], ![1, 1, 1], ![-1, 1, 1]]

noncomputable def hexList (n : Nat) : List (Pt 3) :=
  hexCorners ++ ((hexEdges n).flatMap fun f => (List.range (n - 1)).map f) ++
    ((hexFaces n).flatMap fun f => (List.range (n - 1)).flatMap fun i =>
      (List.range (n - 1)).map fun j => f (i, j)) ++ hexInner n

theorem mem_inner3 {n x y z : Nat} (hz : z < n - 1) (hy : y < n - 1) (hx : x < n - 1) :
    ![inn n x, inn n y, inn n z] ∈ hexInner n :=
  List.mem_flatMap.mpr ⟨z, List.mem_range.mpr hz, List.mem_flatMap.mpr ⟨y, List.mem_range.mpr hy,
    List.mem_map.mpr ⟨x, List.mem_range.mpr hx, rfl⟩⟩⟩

theorem hexInner_length (n : Nat) : (hexInner n).length = (n - 1) * ((n - 1) * (n - 1)) := by
  simp [hexInner, List.length_flatMap]

theorem hexFaces_length (n : Nat) : ((hexFaces n).flatMap fun f => (List.range (n - 1)).flatMap fun i =>
      (List.range (n - 1)).map fun j => f (i, j)).length = 6 * ((n - 1) * (n - 1)) := by
  simp [hexFaces, List.length_flatMap]; omega

theorem hexEdges_length (n : Nat) :
    ((hexEdges n).flatMap fun f => (List.range (n - 1)).map f).length = 12 * (n - 1) := by
  simp [hexEdges]; omega

theorem hexList_length (n : Nat) (hn : 1 ≤ n) : (hexList n).length = (n + 1) * (n + 1) * (n + 1) := by
  obtain ⟨m, rfl⟩ : ∃ m, n = m + 1 := ⟨n - 1, by omega⟩
  rw [hexList, List.length_append, List.length_append, List.length_append, hexInner_length,
    hexFaces_length, hexEdges_length, Nat.add_sub_cancel]
  simp only [hexCorners, List.length_cons, List.length_nil]
  ring

theorem vtkHexahedron_eq (n : Nat) (hn : 1 ≤ n) : vtkHexahedron n = some (hexList n) := by
  unfold vtkHexahedron
  apply fill_eq
  · unfold hexList
    rw [writesFrom_append, writesFrom_append, writesFrom_append]
    refine List.Perm.append (List.Perm.append (List.Perm.append ?_ ?_) ?_) ?_
    · exact List.Perm.of_eq (by simp [hexCorners, writesFrom_cons, writesFrom_nil])
    · refine (List.Perm.of_eq ?_).trans (segments_range (hexEdges n) (n - 1) _)
      apply List.flatMap_congr
      intro i _
      simp [hexEdges, inn, hexCorners]
    · refine (List.Perm.of_eq ?_).trans (segments_range2 (hexFaces n) (n - 1) _)
      apply List.flatMap_congr
      intro i _
      apply List.flatMap_congr
      intro j _
      rw [List.length_append, hexEdges_length]
      simp [hexFaces, inn, hexCorners, Nat.add_assoc]
    · apply List.Perm.of_eq
      rw [List.length_append, List.length_append, hexEdges_length, hexFaces_length, Nat.zero_add]
      rfl
  · exact hexList_length n hn

theorem hex_enumerates (n : Nat) (hn : 1 ≤ n) : Enumerates (hexList n) (tensorLattice 3 n) := by
  apply tensor_enumerates hn
  · rw [hexList_length n hn]; ring
  intro k hk
  rw [vec3_eta' (fun i => -1 + 2 * (k i : ℝ) / n)]
  have mem_segs := @Verif.mem_segs (Pt 3) (hexEdges n) (n - 1)
  have mem_segs2 := @Verif.mem_segs2 (Pt 3) (hexFaces n) (n - 1)
  unfold hexList
  rw [List.mem_append, List.mem_append, List.mem_append]
  rcases node_cases hn (hk 0) with hx | hx | ⟨x, hxl, hx⟩ <;>
    rcases node_cases hn (hk 1) with hy | hy | ⟨y, hyl, hy⟩ <;>
    rcases node_cases hn (hk 2) with hz | hz | ⟨z, hzl, hz⟩
  · rw [hx, hy, hz]; left; left; left; simp [hexCorners]
  · rw [hx, hy, hz]; left; left; left; simp [hexCorners]
  · rw [hx, hy, hz]; left; left; right; exact mem_segs (k := 8) rfl hzl
  · rw [hx, hy, hz]; left; left; left; simp [hexCorners]
  · rw [hx, hy, hz]; left; left; left; simp [hexCorners]
  · rw [hx, hy, hz]; left; left; right; exact mem_segs (k := 10) rfl hzl
  · rw [hx, hy, hz]; left; left; right; exact mem_segs (k := 3) rfl hyl
  · rw [hx, hy, hz]; left; left; right; exact mem_segs (k := 7) rfl hyl
  · rw [hx, hy, hz]; left; right; exact mem_segs2 (k := 0) rfl hzl hyl
  · rw [hx, hy, hz]; left; left; left; simp [hexCorners]
  · rw [hx, hy, hz]; left; left; left; simp [hexCorners]
  · rw [hx, hy, hz]; left; left; right; exact mem_segs (k := 9) rfl hzl
  · rw [hx, hy, hz]; left; left; left; simp [hexCorners]
  · rw [hx, hy, hz]; left; left; left; simp [hexCorners]
  · rw [hx, hy, hz]; left; left; right; exact mem_segs (k := 11) rfl hzl
  · rw [hx, hy, hz]; left; left; right; exact mem_segs (k := 1) rfl hyl
  · rw [hx, hy, hz]; left; left; right; exact mem_segs (k := 5) rfl hyl
  · rw [hx, hy, hz]; left; right; exact mem_segs2 (k := 1) rfl hzl hyl
  · rw [hx, hy, hz]; left; left; right; exact mem_segs (k := 0) rfl hxl
  · rw [hx, hy, hz]; left; left; right; exact mem_segs (k := 4) rfl hxl
  · rw [hx, hy, hz]; left; right; exact mem_segs2 (k := 2) rfl hzl hxl
  · rw [hx, hy, hz]; left; left; right; exact mem_segs (k := 2) rfl hxl
  · rw [hx, hy, hz]; left; left; right; exact mem_segs (k := 6) rfl hxl
  · rw [hx, hy, hz]; left; right; exact mem_segs2 (k := 3) rfl hzl hxl
  · rw [hx, hy, hz]; left; right; exact mem_segs2 (k := 4) rfl hyl hxl
  · rw [hx, hy, hz]; left; right; exact mem_segs2 (k := 5) rfl hyl hxl
  · rw [hx, hy, hz]; right; exact mem_inner3 hzl hyl hxl

theorem hex_edges (n : Nat) (hn : 1 ≤ n) : EdgesAt (hexList n) n 8
    [(![-1, -1, -1], ![1, -1, -1]), (![1, -1, -1], ![1, 1, -1]), (![-1, 1, -1], ![1, 1, -1]),
      (![-1, -1, -1], ![-1, 1, -1]), (![-1, -1, 1], ![1, -1, 1]), (![1, -1, 1], ![1, 1, 1]),
      (![-1, 1, 1], ![1, 1, 1]), (![-1, -1, 1], ![-1, 1, 1]), (![-1, -1, -1], ![-1, -1, 1]),
      (![1, -1, -1], ![1, -1, 1]), (![-1, 1, -1], ![-1, 1, 1]), (![1, 1, -1], ![1, 1, 1])] := by
  have hn' : (n : ℝ) ≠ 0 := by positivity
  intro k e he i hi
  have hk : k < 12 := by
    by_contra hc
    rw [List.getElem?_eq_none (by simp; omega)] at he
    cases he
  have hidx : k * (n - 1) + i < 12 * (n - 1) := by
    have : k * (n - 1) ≤ 11 * (n - 1) := Nat.mul_le_mul_right _ (by omega)
    omega
  have h8 : hexCorners.length = 8 := rfl
  rw [hexList, List.append_assoc, List.append_assoc, Nat.add_assoc,
    List.getElem?_append_right (by rw [h8]; omega), h8, Nat.add_sub_cancel_left,
    List.getElem?_append_left (by rw [hexEdges_length]; omega), segs_getElem _ _ _ _ (by omega)]
  have : k = 0 ∨ k = 1 ∨ k = 2 ∨ k = 3 ∨ k = 4 ∨ k = 5 ∨ k = 6 ∨ k = 7 ∨ k = 8 ∨ k = 9 ∨ k = 10 ∨
    k = 11 := by omega
  rcases this with rfl | rfl | rfl | rfl | rfl | rfl | rfl | rfl | rfl | rfl | rfl | rfl <;>
  · simp only [List.getElem?_cons_zero, List.getElem?_cons_succ, Option.some.injEq] at he
    subst he
    simp only [hexEdges, List.getElem?_cons_zero, List.getElem?_cons_succ, Option.map_some,
      Option.some.injEq]
    funext j
    fin_cases j <;> simp [between, AffineMap.lineMap_apply, inn] <;> field_simp <;> ring

theorem hex_faces (n : Nat) (hn : 1 ≤ n) (k i j : Nat) (f : Nat × Nat → Pt 3)
    (hf : (hexFaces n)[k]? = some f) (hi : i < n - 1) (hj : j < n - 1) :
    (hexList n)[8 + 12 * (n - 1) + k * ((n - 1) * (n - 1)) + i * (n - 1) + j]? = some (f (i, j)) := by
  have hk : k < 6 := by
    by_contra hc
    rw [List.getElem?_eq_none (by simp [hexFaces]; omega)] at hf
    cases hf
  have hij : i * (n - 1) + j < (n - 1) * (n - 1) := by
    have : i * (n - 1) ≤ (n - 1 - 1) * (n - 1) := Nat.mul_le_mul_right _ (by omega)
    have h2 : (n - 1 - 1) * (n - 1) + (n - 1) = (n - 1) * (n - 1) := by
      rw [← Nat.succ_mul]; congr 1; omega
    omega
  have hidx : k * ((n - 1) * (n - 1)) + (i * (n - 1) + j) < 6 * ((n - 1) * (n - 1)) := by
    have : k * ((n - 1) * (n - 1)) ≤ 5 * ((n - 1) * (n - 1)) := Nat.mul_le_mul_right _ (by omega)
    omega
  have h8 : hexCorners.length = 8 := rfl
  rw [hexList, List.append_assoc, List.append_assoc, Nat.add_assoc, Nat.add_assoc, Nat.add_assoc,
    List.getElem?_append_right (by rw [h8]; omega), h8, Nat.add_sub_cancel_left,
    List.getElem?_append_right (by rw [hexEdges_length]; omega), hexEdges_length,
    Nat.add_sub_cancel_left, List.getElem?_append_left (by rw [hexFaces_length]; omega),
    flatMap_getElem _ ((n - 1) * (n - 1)) _ (by intro x _; simp [List.length_flatMap]) _ _ hij, hf, Option.bind_some,
    flatMap_getElem _ (n - 1) _ (by simp) _ _ hj]
  simp [hi, hj]

theorem hex_interior (n : Nat) (hn : 1 ≤ n) (x y z : Nat) (hx : x < n - 1) (hy : y < n - 1)
    (hz : z < n - 1) :
    (hexList n)[8 + 12 * (n - 1) + 6 * ((n - 1) * (n - 1)) + z * ((n - 1) * (n - 1)) + y * (n - 1) + x]? =
      some ![inn n x, inn n y, inn n z] := by
  have hyx : y * (n - 1) + x < (n - 1) * (n - 1) := by
    have : y * (n - 1) ≤ (n - 1 - 1) * (n - 1) := Nat.mul_le_mul_right _ (by omega)
    have h2 : (n - 1 - 1) * (n - 1) + (n - 1) = (n - 1) * (n - 1) := by
      rw [← Nat.succ_mul]; congr 1; omega
    omega
  have h8 : hexCorners.length = 8 := rfl
  have e : 8 + 12 * (n - 1) + 6 * ((n - 1) * (n - 1)) = (hexCorners ++
      ((hexEdges n).flatMap fun f => (List.range (n - 1)).map f) ++
      ((hexFaces n).flatMap fun f => (List.range (n - 1)).flatMap fun i =>
      (List.range (n - 1)).map fun j => f (i, j))).length := by
    rw [List.length_append, List.length_append, hexEdges_length, hexFaces_length, h8]
  rw [hexList, e, Nat.add_assoc, Nat.add_assoc, List.getElem?_append_right (Nat.le_add_right _ _),
    Nat.add_sub_cancel_left, hexInner,
    flatMap_getElem _ ((n - 1) * (n - 1)) _ (by intro x _; simp [List.length_flatMap]) _ _ hyx]
  rw [List.getElem?_range hz, Option.bind_some, flatMap_getElem _ (n - 1) _ (by simp) _ _ hx]
  simp [hx, hy]

end Verif.Lattice
