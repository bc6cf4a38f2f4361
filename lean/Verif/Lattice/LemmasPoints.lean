import Verif.Lattice.Lemmas
import Verif.Lattice.Spec
import Mathlib.Tactic.NormNum
import Mathlib.Tactic.Positivity

set_option linter.all false

namespace Verif
variable {α : Type}

theorem segs_getElem (segs : List (Nat → α)) (m : Nat) : ∀ (k i : Nat), i < m →
    (segs.flatMap fun f => (List.range m).map f)[k * m + i]? = segs[k]?.map fun f => f i := by
  induction segs with
  | nil => intro k i _; simp
  | cons f fs ih =>
    intro k i hi
    rw [List.flatMap_cons]
    cases k with
    | zero =>
      rw [List.getElem?_append_left (by simp; omega)]
      simp [hi]
    | succ k =>
      rw [List.getElem?_append_right (by simp; nlinarith)]
      have e : (k + 1) * m + i - ((List.range m).map f).length = k * m + i := by
        simp only [List.length_map, List.length_range]
        rw [Nat.add_mul, Nat.one_mul]; omega
      rw [e, ih k i hi]; simp

end Verif

namespace Verif.Lattice
open RefGeometry

/-! ### Recursion -/

theorem triLayer_shift (o : IVec 3) (r : Nat) :
    triLayer (o + ![1, 1, 1]) r = (triLayer o r).map (· + ![1, 1, 1]) := by
  unfold triLayer triEdges
  split_ifs with h
  · simp [add_right_comm]
  · simp [add_right_comm, Function.comp_def]

theorem triLayers_shift (s : Nat) : ∀ (fuel l : Nat),
    triLayers (s + 3) fuel (l + 1) = (triLayers s fuel l).map (· + ![1, 1, 1]) := by
  intro fuel
  induction fuel with
  | zero => intro l; rfl
  | succ fuel ih =>
    intro l
    unfold triLayers
    by_cases h : 3 * l ≤ s
    · have e : s + 3 - 3 * (l + 1) = s - 3 * l := by omega
      have e2 : (![l + 1, l + 1, l + 1] : IVec 3) = ![l, l, l] + ![1, 1, 1] := by simp
      rw [if_pos h, if_pos (by omega), List.map_append, ih, e, e2, triLayer_shift]
    · rw [if_neg h, if_neg (by omega)]; rfl

theorem triLayers_fuel (s : Nat) : ∀ (f g l : Nat), s < 3 * (l + f) → s < 3 * (l + g) →
    triLayers s f l = triLayers s g l := by
  intro f
  induction f with
  | zero =>
    intro g l h1 h2
    cases g with
    | zero => rfl
    | succ g => rw [triLayers, triLayers, if_neg (by omega)]
  | succ f ih =>
    intro g l h1 h2
    cases g with
    | zero => rw [triLayers, triLayers, if_neg (by omega)]
    | succ g =>
      rw [triLayers, triLayers]
      split_ifs with h
      · rw [ih g (l + 1) (by omega) (by omega)]
      · rfl

theorem tri_recursion (s : Nat) :
    (triLayers (s + 3) (s + 4) 0).drop (3 * (s + 3)) =
      (triLayers s (s + 1) 0).map (· + ![1, 1, 1]) := by
  rw [tri_drop (s + 3) (by omega), triLayers_shift,
    triLayers_fuel s (s + 3) (s + 1) 0 (by omega) (by omega)]

theorem tetFaces_shift (o : IVec 4) (r : Nat) :
    tetFaces (o + ![1, 1, 1, 1]) r = (tetFaces o r).map (· + ![1, 1, 1, 1]) := by
  unfold tetFaces
  rw [List.map_flatMap]
  apply List.flatMap_congr
  intro fm _
  simp [add_right_comm, Function.comp_def]

theorem tetLayer_shift (o : IVec 4) (r : Nat) :
    tetLayer (o + ![1, 1, 1, 1]) r = (tetLayer o r).map (· + ![1, 1, 1, 1]) := by
  unfold tetLayer tetEdges
  split_ifs with h
  · simp [add_right_comm]
  · rw [tetFaces_shift]
    simp [add_right_comm, Function.comp_def]

theorem tetLayers_shift (s : Nat) : ∀ (fuel l : Nat),
    tetLayers (s + 4) fuel (l + 1) = (tetLayers s fuel l).map (· + ![1, 1, 1, 1]) := by
  intro fuel
  induction fuel with
  | zero => intro l; rfl
  | succ fuel ih =>
    intro l
    unfold tetLayers
    by_cases h : 4 * l ≤ s
    · have e : s + 4 - 4 * (l + 1) = s - 4 * l := by omega
      have e2 : (![l + 1, l + 1, l + 1, l + 1] : IVec 4) = ![l, l, l, l] + ![1, 1, 1, 1] := by simp
      rw [if_pos h, if_pos (by omega), List.map_append, ih, e, e2, tetLayer_shift]
    · rw [if_neg h, if_neg (by omega)]; rfl

theorem tetLayers_fuel (s : Nat) : ∀ (f g l : Nat), s < 4 * (l + f) → s < 4 * (l + g) →
    tetLayers s f l = tetLayers s g l := by
  intro f
  induction f with
  | zero =>
    intro g l h1 h2
    cases g with
    | zero => rfl
    | succ g => rw [tetLayers, tetLayers, if_neg (by omega)]
  | succ f ih =>
    intro g l h1 h2
    cases g with
    | zero => rw [tetLayers, tetLayers, if_neg (by omega)]
    | succ g =>
      rw [tetLayers, tetLayers]
      split_ifs with h
      · rw [ih g (l + 1) (by omega) (by omega)]
      · rfl

theorem tet_recursion (s : Nat) :
    (tetLayers (s + 4) (s + 5) 0).drop (tetLayer ![0, 0, 0, 0] (s + 4)).length =
      (tetLayers s (s + 1) 0).map (· + ![1, 1, 1, 1]) := by
  rw [tetLayers, if_pos (by omega), Nat.mul_zero, Nat.sub_zero, List.drop_left, Nat.zero_add]
  have := tetLayers_shift s (s + 4) 0
  rw [Nat.zero_add] at this
  rw [this, tetLayers_fuel s (s + 4) (s + 1) 0 (by omega) (by omega)]

/-! ### Points -/

noncomputable def triPoint (n : Nat) (b : IVec 3) : Pt 2 := ![1 / (n : ℝ) * b 1, 1 / (n : ℝ) * b 2]
noncomputable def tetPoint (n : Nat) (b : IVec 4) : Pt 3 :=
  ![1 / (n : ℝ) * b 1, 1 / (n : ℝ) * b 2, 1 / (n : ℝ) * b 3]

theorem vtkTriangle_eq (n : Nat) : vtkTriangle n = some ((triLayers n (n + 1) 0).map (triPoint n)) := by
  unfold vtkTriangle; rw [baryTriangle_eq]; rfl

theorem vtkTetrahedron_eq (n : Nat) :
    vtkTetrahedron n = some ((tetLayers n (n + 1) 0).map (tetPoint n)) := by
  unfold vtkTetrahedron; rw [baryTetrahedron_eq]; rfl

theorem scale_inj {n a b : Nat} (hn : 1 ≤ n) (h : 1 / (n : ℝ) * a = 1 / (n : ℝ) * b) : a = b := by
  have hn' : (n : ℝ) ≠ 0 := by positivity
  field_simp at h
  exact_mod_cast h

theorem triangle_enumerates (n : Nat) (hn : 1 ≤ n) :
    Enumerates ((triLayers n (n + 1) 0).map (triPoint n)) (simplexLattice 2 n) := by
  have hp := triLayers_perm n
  have hmem : ∀ b, b ∈ triLayers n (n + 1) 0 ↔ b 0 + b 1 + b 2 = n := by
    intro b; rw [hp.mem_iff, List.Nat.mem_antidiagonalTuple, Fin.sum_univ_three]
  have hn' : (n : ℝ) ≠ 0 := by positivity
  constructor
  · refine List.Nodup.map_on ?_ (hp.nodup_iff.mpr (List.Nat.nodup_antidiagonalTuple 3 n))
    intro a ha b hb h
    rw [hmem] at ha hb
    have h1 := scale_inj hn (congrFun h 0)
    have h2 := scale_inj hn (congrFun h 1)
    rw [vec3_eta a, vec3_eta b]
    have h0 : a 0 = b 0 := by omega
    rw [h0, h1, h2]
  · intro p
    simp only [List.mem_map, hmem, simplexLattice, Set.mem_ofPred_eq]
    constructor
    · rintro ⟨b, hb, rfl⟩
      refine ⟨![b 1, b 2], by simp; omega, ?_⟩
      funext i; fin_cases i <;> simp [triPoint] <;> field_simp
    · rintro ⟨k, hk, rfl⟩
      rw [Fin.sum_univ_two] at hk
      refine ⟨![n - k 0 - k 1, k 0, k 1], by simp; omega, ?_⟩
      funext i; fin_cases i <;> simp [triPoint] <;> field_simp

theorem tetrahedron_enumerates (n : Nat) (hn : 1 ≤ n) :
    Enumerates ((tetLayers n (n + 1) 0).map (tetPoint n)) (simplexLattice 3 n) := by
  have hp := tetLayers_perm n
  have hmem : ∀ b, b ∈ tetLayers n (n + 1) 0 ↔ b 0 + b 1 + b 2 + b 3 = n := by
    intro b; rw [hp.mem_iff, List.Nat.mem_antidiagonalTuple, Fin.sum_univ_four]
  have hn' : (n : ℝ) ≠ 0 := by positivity
  constructor
  · refine List.Nodup.map_on ?_ (hp.nodup_iff.mpr (List.Nat.nodup_antidiagonalTuple 4 n))
    intro a ha b hb h
    rw [hmem] at ha hb
    have h1 := scale_inj hn (congrFun h 0)
    have h2 := scale_inj hn (congrFun h 1)
    have h3 := scale_inj hn (congrFun h 2)
    rw [vec4_eta a, vec4_eta b]
    have h0 : a 0 = b 0 := by omega
    rw [h0, h1, h2, h3]
  · intro p
    simp only [List.mem_map, hmem, simplexLattice, Set.mem_ofPred_eq]
    constructor
    · rintro ⟨b, hb, rfl⟩
      refine ⟨![b 1, b 2, b 3], by simp [Fin.sum_univ_three]; omega, ?_⟩
      funext i; fin_cases i <;> simp [tetPoint] <;> field_simp
    · rintro ⟨k, hk, rfl⟩
      rw [Fin.sum_univ_three] at hk
      refine ⟨![n - k 0 - k 1 - k 2, k 0, k 1, k 2], by simp; omega, ?_⟩
      funext i; fin_cases i <;> simp [tetPoint] <;> field_simp

theorem triangle_inside (n : Nat) {p : Pt 2} (hp : p ∈ simplexLattice 2 n) (hn : 1 ≤ n) :
    triangleG.isInternal p := by
  obtain ⟨k, hk, rfl⟩ := hp
  rw [Fin.sum_univ_two] at hk
  have hn' : (0 : ℝ) < n := by positivity
  have hk' : (k 0 : ℝ) + k 1 ≤ n := by exact_mod_cast hk
  have h0 : (0 : ℝ) ≤ k 0 := by positivity
  have h1 : (0 : ℝ) ≤ k 1 := by positivity
  simp only [triangleG]
  refine ⟨by positivity, by rw [div_le_one hn']; linarith, by positivity, ?_⟩
  rw [div_le_iff₀ hn', sub_mul, div_mul_cancel₀ _ hn'.ne']; linarith

theorem tetrahedron_inside (n : Nat) {p : Pt 3} (hp : p ∈ simplexLattice 3 n) (hn : 1 ≤ n) :
    tetrahedronG.isInternal p := by
  obtain ⟨k, hk, rfl⟩ := hp
  rw [Fin.sum_univ_three] at hk
  have hn' : (0 : ℝ) < n := by positivity
  have hk' : (k 0 : ℝ) + k 1 + k 2 ≤ n := by exact_mod_cast hk
  have h0 : (0 : ℝ) ≤ k 0 := by positivity
  have h1 : (0 : ℝ) ≤ k 1 := by positivity
  have h2 : (0 : ℝ) ≤ k 2 := by positivity
  simp only [tetrahedronG]
  refine ⟨by positivity, by rw [div_le_one hn']; linarith, by positivity, ?_, by positivity, ?_⟩
  · rw [div_le_iff₀ hn', sub_mul, div_mul_cancel₀ _ hn'.ne']; linarith
  · rw [div_le_iff₀ hn', sub_mul, sub_mul, div_mul_cancel₀ _ hn'.ne', div_mul_cancel₀ _ hn'.ne']; linarith

theorem triLayers_head (n : Nat) (hn : 1 ≤ n) : ∃ rest, triLayers n (n + 1) 0 =
    [![n, 0, 0], ![0, n, 0], ![0, 0, n]] ++
      (((triEdges ![0, 0, 0] n).flatMap fun f => (List.range (n - 1)).map f) ++ rest) := by
  refine ⟨triLayers n n 1, ?_⟩
  rw [triLayers, if_pos (by omega), triLayer, if_neg (by omega)]
  simp

theorem triangle_corners (n : Nat) (hn : 1 ≤ n) :
    ((triLayers n (n + 1) 0).map (triPoint n)).take 3 = triangleG.nodes := by
  obtain ⟨rest, h⟩ := triLayers_head n hn
  have hn' : (n : ℝ) ≠ 0 := by positivity
  rw [h]
  simp [triPoint, triangleG, hn']

theorem triangle_edges (n : Nat) (hn : 1 ≤ n) :
    EdgesAt ((triLayers n (n + 1) 0).map (triPoint n)) n 3
      [(![0, 0], ![1, 0]), (![1, 0], ![0, 1]), (![0, 1], ![0, 0])] := by
  obtain ⟨rest, h⟩ := triLayers_head n hn
  have hn' : (n : ℝ) ≠ 0 := by positivity
  intro k e he i hi
  have hk : k < 3 := by
    by_contra hc
    rw [List.getElem?_eq_none (by simp; omega)] at he
    cases he
  have hsub : ((n - i - 1 : Nat) : ℝ) = n - i - 1 := by
    rw [Nat.sub_sub, Nat.cast_sub (by omega)]; push_cast; ring
  have hidx : k * (n - 1) + i < 3 * (n - 1) := by
    have : k * (n - 1) ≤ 2 * (n - 1) := Nat.mul_le_mul_right _ (by omega)
    omega
  rw [h, List.getElem?_map, Nat.add_assoc, List.getElem?_append_right (by simp)]
  simp only [List.length_cons, List.length_nil, Nat.zero_add, Nat.reduceAdd, Nat.add_sub_cancel_left]
  rw [List.getElem?_append_left (by simp [triEdges]; omega), segs_getElem _ _ _ _ (by omega)]
  have : k = 0 ∨ k = 1 ∨ k = 2 := by omega
  rcases this with rfl | rfl | rfl <;>
  · simp only [List.getElem?_cons_zero, List.getElem?_cons_succ, Option.some.injEq] at he
    subst he
    simp only [triEdges, List.getElem?_cons_zero, List.getElem?_cons_succ, Option.map_some,
      Option.some.injEq]
    funext j
    fin_cases j <;> simp [triPoint, between, AffineMap.lineMap_apply, hsub] <;> field_simp <;> ring

theorem triangle_interior (n : Nat) (hn : 4 ≤ n) :
    ((triLayers n (n + 1) 0).map (triPoint n)).drop (3 * n) =
      ((triLayers (n - 3) (n - 3 + 1) 0).map (triPoint (n - 3))).map
        fun p i => (1 + ((n : ℝ) - 3) * p i) / n := by
  obtain ⟨s, rfl⟩ : ∃ s, n = s + 3 := ⟨n - 3, by omega⟩
  have hs : ((s : ℝ)) ≠ 0 := by have : 0 < s := by omega
                                positivity
  have hs3 : ((s : ℝ) + 3) ≠ 0 := by positivity
  rw [← List.map_drop, tri_recursion, Nat.add_sub_cancel, List.map_map, List.map_map]
  apply List.map_congr_left
  intro b _
  funext j
  fin_cases j <;> simp [triPoint, Matrix.vecHead, Matrix.vecTail] <;> field_simp <;> ring_nf <;> rfl

theorem tetLayers_head (n : Nat) (hn : 1 ≤ n) : ∃ rest, tetLayers n (n + 1) 0 =
    [![n, 0, 0, 0], ![0, n, 0, 0], ![0, 0, n, 0], ![0, 0, 0, n]] ++
      (((tetEdges ![0, 0, 0, 0] n).flatMap fun f => (List.range (n - 1)).map f) ++
        (tetFaces ![0, 0, 0, 0] n ++ rest)) := by
  refine ⟨tetLayers n n 1, ?_⟩
  rw [tetLayers, if_pos (by omega), tetLayer, if_neg (by omega)]
  simp

theorem tetrahedron_corners (n : Nat) (hn : 1 ≤ n) :
    ((tetLayers n (n + 1) 0).map (tetPoint n)).take 4 = tetrahedronG.nodes := by
  obtain ⟨rest, h⟩ := tetLayers_head n hn
  have hn' : (n : ℝ) ≠ 0 := by positivity
  rw [h]
  simp [tetPoint, tetrahedronG, hn']

theorem tetrahedron_edges (n : Nat) (hn : 1 ≤ n) :
    EdgesAt ((tetLayers n (n + 1) 0).map (tetPoint n)) n 4
      [(![0, 0, 0], ![1, 0, 0]), (![1, 0, 0], ![0, 1, 0]), (![0, 1, 0], ![0, 0, 0]),
        (![0, 0, 0], ![0, 0, 1]), (![1, 0, 0], ![0, 0, 1]), (![0, 1, 0], ![0, 0, 1])] := by
  obtain ⟨rest, h⟩ := tetLayers_head n hn
  have hn' : (n : ℝ) ≠ 0 := by positivity
  intro k e he i hi
  have hk : k < 6 := by
    by_contra hc
    rw [List.getElem?_eq_none (by simp; omega)] at he
    cases he
  have hsub : ((n - (i + 1) : Nat) : ℝ) = n - i - 1 := by
    rw [Nat.cast_sub (by omega)]; push_cast; ring
  have hidx : k * (n - 1) + i < 6 * (n - 1) := by
    have : k * (n - 1) ≤ 5 * (n - 1) := Nat.mul_le_mul_right _ (by omega)
    omega
  rw [h, List.getElem?_map, Nat.add_assoc, List.getElem?_append_right (by simp)]
  simp only [List.length_cons, List.length_nil, Nat.zero_add, Nat.reduceAdd, Nat.add_sub_cancel_left]
  rw [List.getElem?_append_left (by simp [tetEdges]; omega), segs_getElem _ _ _ _ (by omega)]
  have : k = 0 ∨ k = 1 ∨ k = 2 ∨ k = 3 ∨ k = 4 ∨ k = 5 := by omega
  rcases this with rfl | rfl | rfl | rfl | rfl | rfl <;>
  · simp only [List.getElem?_cons_zero, List.getElem?_cons_succ, Option.some.injEq] at he
    subst he
    simp only [tetEdges, List.getElem?_cons_zero, List.getElem?_cons_succ, Option.map_some,
      Option.some.injEq]
    funext j
    fin_cases j <;> simp [tetPoint, between, AffineMap.lineMap_apply, hsub] <;> field_simp <;> ring

theorem tetLayer_length' (n : Nat) (hn : 1 ≤ n) :
    (tetLayer ![0, 0, 0, 0] n).length = 2 * (n * n + 1) := by
  rw [tetLayer_length, if_neg (by omega)]
  have := interior_length n (by omega)
  obtain ⟨m, rfl⟩ : ∃ m, n = m + 1 := ⟨n - 1, by omega⟩
  cases m with
  | zero => simp at this ⊢; simp [this]
  | succ m =>
    have e1 : m + 1 + 1 - 1 = m + 1 := by omega
    have e2 : m + 1 + 1 - 2 = m := by omega
    rw [e1, e2] at this
    rw [e1]
    nlinarith [this]

theorem tetrahedron_interior (n : Nat) (hn : 5 ≤ n) :
    ((tetLayers n (n + 1) 0).map (tetPoint n)).drop (2 * (n * n + 1)) =
      ((tetLayers (n - 4) (n - 4 + 1) 0).map (tetPoint (n - 4))).map
        fun p i => (1 + ((n : ℝ) - 4) * p i) / n := by
  rw [← tetLayer_length' n (by omega)]
  obtain ⟨s, rfl⟩ : ∃ s, n = s + 4 := ⟨n - 4, by omega⟩
  have hs : ((s : ℝ)) ≠ 0 := by have : 0 < s := by omega
                                positivity
  have hs3 : ((s : ℝ) + 4) ≠ 0 := by positivity
  rw [← List.map_drop, tet_recursion, Nat.add_sub_cancel, List.map_map, List.map_map]
  apply List.map_congr_left
  intro b _
  funext j
  fin_cases j <;> simp [tetPoint, Matrix.vecHead, Matrix.vecTail] <;> field_simp <;> ring_nf <;> rfl

theorem tet_mem_sum {n : Nat} {b : IVec 3} (h : b ∈ triLayers n n 1) (hn : 1 ≤ n) :
    b 0 + b 1 + b 2 = n := by
  have : b ∈ triLayers n (n + 1) 0 := by
    rw [triLayers, if_pos (by omega)]; exact List.mem_append_right _ h
  rw [(triLayers_perm n).mem_iff, List.Nat.mem_antidiagonalTuple, Fin.sum_univ_three] at this
  exact this

theorem toFace_0 (b : IVec 3) : toFace ![0, 1, 3] b = ![b 0, b 1, 0, b 2] := by
  funext i; fin_cases i <;> rfl
theorem toFace_1 (b : IVec 3) : toFace ![2, 3, 1] b = ![0, b 2, b 0, b 1] := by
  funext i; fin_cases i <;> rfl
theorem toFace_2 (b : IVec 3) : toFace ![0, 3, 2] b = ![b 0, 0, b 2, b 1] := by
  funext i; fin_cases i <;> rfl
theorem toFace_3 (b : IVec 3) : toFace ![0, 2, 1] b = ![b 0, b 2, b 1, 0] := by
  funext i; fin_cases i <;> rfl

theorem tetrahedron_faces (n : Nat) (hn : 1 ≤ n) (i : Nat) (p : Pt 3)
    (hi : i < (n - 1) * (n - 2) / 2) (k : Nat)
    (hp : ((tetLayers n (n + 1) 0).map (tetPoint n))[4 + 6 * (n - 1) + k * ((n - 1) * (n - 2) / 2) + i]? = some p) :
    (k = 0 → p 1 = 0) ∧ (k = 1 → p 0 + p 1 + p 2 = 1) ∧ (k = 2 → p 0 = 0) ∧ (k = 3 → p 2 = 0) := by
  obtain ⟨rest, h⟩ := tetLayers_head n hn
  have hn' : (n : ℝ) ≠ 0 := by positivity
  have hlen : (triLayers n n 1).length = (n - 1) * (n - 2) / 2 := by
    have := interior_length n (by omega); omega
  by_cases hk : k < 4
  swap
  · exact ⟨by omega, by omega, by omega, by omega⟩
  have hidx : k * (triLayers n n 1).length + i < 4 * (triLayers n n 1).length := by
    have : k * (triLayers n n 1).length ≤ 3 * (triLayers n n 1).length := Nat.mul_le_mul_right _ (by omega)
    omega
  rw [← hlen] at hp hi
  obtain ⟨m, hm⟩ : ∃ m, m = (triLayers n n 1).length := ⟨_, rfl⟩
  rw [h, List.getElem?_map, Nat.add_assoc, Nat.add_assoc, List.getElem?_append_right (by simp),
    List.getElem?_append_right (by simp [tetEdges]; omega)] at hp
  have e : 4 + (6 * (n - 1) + (k * (triLayers n n 1).length + i)) -
      [(![n, 0, 0, 0] : IVec 4), ![0, n, 0, 0], ![0, 0, n, 0], ![0, 0, 0, n]].length -
      ((tetEdges ![0, 0, 0, 0] n).flatMap fun f => (List.range (n - 1)).map f).length =
      k * (triLayers n n 1).length + i := by
    simp [tetEdges]; omega
  rw [e, List.getElem?_append_left (by rw [tetFaces_length]; omega)] at hp
  have hfaces : tetFaces ![0, 0, 0, 0] n =
      ((faceMapping.map fun fm (i : Nat) => (![0, 0, 0, 0] : IVec 4) + toFace fm ((triLayers n n 1).getD i 0)).flatMap
        fun f => (List.range (triLayers n n 1).length).map f) := by
    rw [tetFaces, List.flatMap_map]
    apply List.flatMap_congr
    intro fm _
    apply List.ext_getElem?
    intro j
    by_cases hj : j < (triLayers n n 1).length
    · simp [hj]
    · rw [List.getElem?_eq_none (by simp; omega), List.getElem?_eq_none (by simp; omega)]
  rw [hfaces, segs_getElem _ _ _ _ hi] at hp
  have hmem : (triLayers n n 1).getD i 0 ∈ triLayers n n 1 := by
    rw [List.getD_eq_getElem?_getD, List.getElem?_eq_getElem hi]; exact List.getElem_mem _
  have hsum := tet_mem_sum hmem hn
  generalize hb : (triLayers n n 1).getD i 0 = b at hsum
  have hsum' : (b 0 : ℝ) + b 1 + b 2 = n := by exact_mod_cast hsum
  have : k = 0 ∨ k = 1 ∨ k = 2 ∨ k = 3 := by omega
  rcases this with rfl | rfl | rfl | rfl <;>
  · simp only [faceMapping, List.map_cons, List.getElem?_cons_zero, List.getElem?_cons_succ,
      Option.map_some, Option.some.injEq, hb, toFace_0, toFace_1, toFace_2, toFace_3] at hp
    subst hp
    refine ⟨?_, ?_, ?_, ?_⟩ <;> intro hk' <;> simp [tetPoint] at hk' ⊢
    all_goals (field_simp; linarith)

end Verif.Lattice
