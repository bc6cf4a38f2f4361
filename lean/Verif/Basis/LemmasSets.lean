import Verif.Basis.LemmasNodup
import Mathlib.Tactic.NormNum

set_option linter.all false
namespace Verif.Basis

/-! ### Lengths -/

theorem sum_range_succ (f : Nat → Nat) (n : Nat) :
    ((List.range (n + 1)).map f).sum = ((List.range n).map f).sum + f n := by
  simp [List.range_succ]

theorem sum_range_const (c n : Nat) : ((List.range n).map fun _ => c).sum = n * c := by
  simp

theorem sum_congr (f g : Nat → Nat) (n : Nat) (h : ∀ i < n, f i = g i) :
    ((List.range n).map f).sum = ((List.range n).map g).sum := by
  congr 1; apply List.map_congr_left; intro a ha; exact h a (List.mem_range.1 ha)

theorem sum_rev (f : Nat → Nat) (n : Nat) :
    ((List.range n).map fun i => f (n - i)).sum = ((List.range n).map fun i => f (i + 1)).sum := by
  induction n with
  | zero => simp
  | succ n ih =>
    rw [sum_range_succ (fun i => f (i + 1)), ← ih, List.range_succ_eq_map]
    simp [Function.comp_def, Nat.add_comm]

theorem sum_id (n : Nat) : ((List.range n).map fun i => i + 1).sum * 2 = n * (n + 1) := by
  induction n with
  | zero => simp
  | succ n ih => rw [sum_range_succ, Nat.add_mul, ih]; ring

theorem sum_tri (n : Nat) : ((List.range n).map fun i => (i + 1) * (i + 2) / 2).sum * 6 =
    n * (n + 1) * (n + 2) := by
  induction n with
  | zero => simp
  | succ n ih =>
    have h : (n + 1) * (n + 2) / 2 * 2 = (n + 1) * (n + 2) :=
      Nat.div_mul_cancel (Nat.even_mul_succ_self (n + 1)).two_dvd
    rw [sum_range_succ, Nat.add_mul, ih]
    have : (n + 1) * (n + 2) / 2 * 6 = ((n + 1) * (n + 2)) * 3 := by linarith
    rw [this]; ring

/-- The number of pairs `(i, j)` with `i + j < n`. -/
theorem length_pairs {α : Type} (f : Nat → Nat → α) (c n : Nat) :
    ((upTo c (n + c)).flatMap fun i => (upTo (i + c) (n + c)).map fun j => f i j).length * 2 =
      (n + 1) * (n + 2) := by
  simp only [List.length_flatMap, List.length_map, length_upTo]
  rw [show upTo c (n + c) = List.range (n + 1) by unfold upTo; congr 1; omega]
  rw [sum_congr _ (fun i => n + 1 - i) _ (by intro i hi; omega), sum_rev (fun i => i), sum_id]

theorem length_pairs' {α : Type} (f : Nat → Nat → α) (c o : Nat) (h : o < c) :
    ((upTo c o).flatMap fun i => (upTo (i + c) o).map fun j => f i j).length = 0 := by
  rw [show upTo c o = [] by unfold upTo; simp; omega]; rfl

theorem length_triples {α : Type} (f : Nat → Nat → Nat → α) (c n : Nat) :
    ((upTo c (n + c)).flatMap fun i => (upTo (i + c) (n + c)).flatMap fun j =>
      (upTo (i + j + c) (n + c)).map fun k => f i j k).length * 6 =
      (n + 1) * (n + 2) * (n + 3) := by
  have inner : ∀ i ≤ n, ((upTo (i + c) (n + c)).flatMap fun j =>
      (upTo (i + j + c) (n + c)).map fun k => f i j k).length = (n - i + 1) * (n - i + 2) / 2 := by
    intro i hi
    have := length_pairs (f i) (i + c) (n - i)
    rw [show n - i + (i + c) = n + c by omega] at this
    have e : ∀ j, j + (i + c) = i + j + c := by intro j; omega
    simp only [e] at this
    omega
  rw [List.length_flatMap]
  rw [show upTo c (n + c) = List.range (n + 1) by unfold upTo; congr 1; omega]
  rw [sum_congr _ (fun i => (n + 1 - i) * (n + 1 - i + 1) / 2) _ (by
    intro i hi; rw [inner i (by omega)]; congr 2 <;> omega), sum_rev (fun i => i * (i + 1) / 2),
    sum_tri]

theorem line_length (o : Nat) : (lineDG o).length = o + 1 := by
  unfold lineDG; split <;> simp [length_upTo] <;> omega

theorem upTo2 (n : Nat) : upTo 2 (n + 1) = List.range n := by unfold upTo; congr 1

theorem square_length (o : Nat) : (squareDG o).length = (o + 1) ^ 2 := by
  rcases o with _ | n
  · rfl
  · unfold squareDG
    rw [if_pos (by omega), List.length_append, List.length_flatMap, upTo2]
    simp only [List.length_append, List.length_map, List.length_range, List.length_finRange,
      List.length_cons, List.length_nil, sum_range_const]
    ring

theorem triangle_length (o : Nat) : (triangleDG o).length * 2 = (o + 1) * (o + 2) := by
  rcases o with _ | _ | n
  · rfl
  · rfl
  · unfold triangleDG
    rw [if_pos (by omega), List.length_append, List.length_flatMap, upTo2, sum_range_succ]
    rw [sum_congr _ (fun k => 3 + (k + 1)) n (by
      intro k hk
      rw [if_pos (by omega)]
      simp [List.finRange, List.filter_cons]; omega)]
    rw [if_neg (by omega)]
    have h : ((List.range n).map fun k => 3 + (k + 1)).sum * 2 = n * (n + 7) := by
      induction n with
      | zero => simp
      | succ n ih => rw [sum_range_succ, Nat.add_mul, ih]; ring
    simp [List.finRange, List.filter_cons]
    simp at h
    linarith

theorem tet_length (o : Nat) : (tetDG o).length * 6 = (o + 1) * (o + 2) * (o + 3) := by
  rcases o with _ | n
  · rfl
  · unfold tetDG
    rw [if_pos (by omega), List.length_append, List.length_flatMap, upTo2]
    rw [sum_congr _ (fun j => 6 + 4 * j + j * (j - 1) / 2) n (by
      intro j hj
      rcases j with _ | _ | j
      · rfl
      · rfl
      · have := length_pairs (fun i k => TetFn.interior i (j + 1 + 1 - i - k - 2) k) 2 j
        rw [if_pos (by omega), if_pos (by omega)]
        simp only [List.length_append, List.length_map]
        rw [show (j + 1 + 1) * (j + 1 + 1 - 1) / 2 = (j + 1) * (j + 2) / 2 by
          rw [Nat.mul_comm]; rfl]
        have h2 : (j + 1) * (j + 2) / 2 * 2 = (j + 1) * (j + 2) :=
          Nat.div_mul_cancel (Nat.even_mul_succ_self (j + 1)).two_dvd
        have h3 : ∀ j, (tetFaceNodes.flatMap fun (x : Fin 4 × Fin 4 × Fin 4) =>
            (upTo 1 j).map fun k => TetFn.face x.1 x.2.1 x.2.2 (j - k - 1) k).length = 4 * j := by
          intro j; simp [tetFaceNodes, length_upTo]; ring
        rw [h3]
        have h4 : (tetEdgeNodes).length = 6 := rfl
        rw [h4]
        have h5 : ∀ a b : Nat, a * 2 = (j + 1) * (j + 2) → b = (j + 1) * (j + 2) / 2 → a = b := by
          intro a b h h'; omega
        rw [h5 _ _ this rfl])]
    have h : ((List.range n).map fun j => 6 + 4 * j + j * (j - 1) / 2).sum * 6 =
        n * (n ^ 2 + 9 * n + 26) := by
      induction n with
      | zero => simp
      | succ n ih =>
        rw [sum_range_succ, Nat.add_mul, ih]
        have h2 : n * (n - 1) / 2 * 2 = n * (n - 1) :=
          Nat.div_mul_cancel (Nat.even_mul_pred_self n).two_dvd
        rcases n with _ | n
        · simp
        · simp only [Nat.add_sub_cancel] at h2 ⊢
          nlinarith
    simp only [List.length_map, List.length_finRange]
    rw [Nat.add_mul, h]; ring

theorem cube_length (o : Nat) : (cubeDG o).length = (o + 1) ^ 3 := by
  rcases o with _ | n
  · rfl
  · unfold cubeDG
    rw [if_pos (by omega), List.length_append, List.length_flatMap, upTo2]
    rw [sum_congr _ (fun j => 19 + (15 * j + 3 * j * j)) n (by
      intro j hj
      simp only [List.length_append, List.length_flatMap, List.length_map, cubeEdgeNodes0,
        cubeEdgeNodes1, cubeEdgeNodes2, List.length_cons, List.length_nil, sum_range_const]
      have : ∀ j, ((List.range j).map fun i => (0+1+1+1+1+1+1+1+1+1+1+1+1+1+1+1+1+1+1) + i * (0+1+1+1+1+1+1)).sum =
          15 * j + 3 * j * j := by
        intro j
        induction j with
        | zero => rfl
        | succ j ih => rw [sum_range_succ, ih]; ring
      rw [this])]
    have h : ((List.range n).map fun j => 19 + (15 * j + 3 * j * j)).sum =
        n * (n ^ 2 + 6 * n + 12) := by
      induction n with
      | zero => simp
      | succ n ih => rw [sum_range_succ, ih]; ring
    rw [h]
    simp only [List.length_map, List.length_finRange]
    ring

theorem prism_length (o : Nat) :
    (prismDG o).length * 2 = (o + 1) ^ 2 * (o + 2) + (o - 1) * (o - 2) := by
  rcases o with _ | n
  · rfl
  · unfold prismDG
    rw [if_pos (by omega), List.length_append, List.length_flatMap, upTo2]
    have hs : ∀ j, ((List.range j).map fun i => ((List.range (j - i)).map fun k => 3).sum).sum * 2 =
        3 * (j * (j + 1)) := by
      intro j
      simp only [sum_range_const]
      rw [sum_rev (fun i => i * 3)]
      have := sum_id j
      have e : ((List.range j).map fun i => (i + 1) * 3).sum =
          ((List.range j).map fun i => (i + 1)).sum * 3 := by
        rw [List.sum_map_mul_right]
      rw [e]; linarith
    rw [sum_congr _ (fun j => 12 + 8 * j + 3 * (j * (j + 1)) / 2) n (by
      intro j hj
      have h1 := hs j
      simp only [List.length_append, List.length_map, prismTriEdgeNodes,
        prismSideEdgeNodes, List.length_cons, List.length_nil, prismTriFaceNodes,
        prismSquareFaceNodes, List.flatMap_cons, List.flatMap_nil, List.length_range]
      simp only [List.length_flatMap, List.length_cons, List.length_nil, sum_range_const] at h1 ⊢
      simp only [Nat.zero_add] at h1 ⊢
      norm_num at h1 ⊢
      omega)]
    have h : ((List.range n).map fun j => 12 + 8 * j + 3 * (j * (j + 1)) / 2).sum * 2 =
        n * (n ^ 2 + 8 * n + 15) := by
      induction n with
      | zero => simp
      | succ n ih =>
        rw [sum_range_succ, Nat.add_mul, ih]
        have h2 : 3 * (n * (n + 1)) / 2 * 2 = 3 * (n * (n + 1)) :=
          Nat.div_mul_cancel ((Nat.even_mul_succ_self n).two_dvd.mul_left 3)
        nlinarith
    simp only [List.length_map, List.length_finRange]
    rw [Nat.add_mul, h]
    rcases n with _ | n
    · rfl
    · simp only [Nat.add_sub_cancel, show n + 1 + 1 - 2 = n by omega]
      ring

theorem length_pairs_all {α : Type} (f : Nat → Nat → α) (c o : Nat) :
    ((upTo c o).flatMap fun i => (upTo (i + c) o).map fun j => f i j).length * 2 =
      (o + 1 - c) * (o + 2 - c) := by
  rcases Nat.lt_or_ge o c with h | h
  · rw [length_pairs' _ _ _ h, show o + 1 - c = 0 by omega]; simp
  · obtain ⟨n, rfl⟩ := Nat.exists_eq_add_of_le' h
    rw [length_pairs]; congr 1 <;> omega

theorem length_triples_all {α : Type} (f : Nat → Nat → Nat → α) (c o : Nat) :
    ((upTo c o).flatMap fun i => (upTo (i + c) o).flatMap fun j =>
      (upTo (i + j + c) o).map fun k => f i j k).length * 6 =
      (o + 1 - c) * (o + 2 - c) * (o + 3 - c) := by
  rcases Nat.lt_or_ge o c with h | h
  · rw [show upTo c o = [] by unfold upTo; simp; omega, show o + 1 - c = 0 by omega]; simp
  · obtain ⟨n, rfl⟩ := Nat.exists_eq_add_of_le' h
    rw [length_triples]; congr 1; congr 1
    all_goals omega

theorem length_square {α : Type} (f : Nat → Nat → α) (c o : Nat) :
    ((upTo c o).flatMap fun i => (upTo c o).map fun j => f i j).length = (o + 1 - c) ^ 2 := by
  simp [List.length_flatMap, length_upTo]; ring

theorem length_cubic {α : Type} (f : Nat → Nat → Nat → α) (c o : Nat) :
    ((upTo c o).flatMap fun i => (upTo c o).flatMap fun j => (upTo c o).map fun k =>
      f i j k).length = (o + 1 - c) ^ 3 := by
  simp [List.length_flatMap, length_upTo]; ring

theorem triangle_perm (o : Nat) (ho : 0 < o) :
    (triangleDG o).Perm
      (conformingSet 1 (triangleVertexSets o) [] (triangleFaceSets o) (triangleInterior o)) := by
  have hc : conformingSet 1 (triangleVertexSets o) [] (triangleFaceSets o) (triangleInterior o) =
      [.vertex 0, .vertex 1, .vertex 2] ++
      ((upTo 2 o).map (fun j => .face 1 0 j) ++ ((upTo 2 o).map (fun j => .face 2 0 j) ++
      (upTo 2 o).map (fun j => .face 2 1 j))) ++ triangleInterior o := by
    simp [conformingSet, triangleVertexSets, triangleFaceSets, triangleFaceNodes, List.finRange,
      List.filter_cons]
  rw [hc]
  refine perm_of_subset (triangle_nodup o) ?_ ?_
  · intro x
    unfold triangleDG triangleInterior
    rw [if_pos ho]
    cases x with
    | constant => memsimp; grind
    | vertex i => memsimp; fin_cases i <;> simp
    | face a b j => memsimp; fin_cases a <;> fin_cases b <;> simp <;> grind
    | interior a b =>
      memsimp
      simp
      intros; omega
  · have h1 := triangle_length o
    have h2 := length_pairs_all (fun i j => TriangleFn.interior i j) 3 o
    have h3 := length_upTo 2 o
    rw [triangleInterior]
    simp only [List.length_append, List.length_map, List.length_cons, List.length_nil]
    rw [h3]
    generalize ((upTo 3 o).flatMap fun i => (upTo (i + 3) o).map fun j =>
      TriangleFn.interior i j).length = L at *
    obtain ⟨n, rfl⟩ : ∃ n, o = n + 1 := ⟨o - 1, by omega⟩
    rcases n with _ | n
    · simp at h1 h2 ⊢; omega
    · simp only [show n + 1 + 1 + 1 - 3 = n by omega, show n + 1 + 1 + 2 - 3 = n + 1 by omega,
        show n + 1 + 1 + 1 - 2 = n + 1 by omega] at *
      nlinarith

theorem square_perm (o : Nat) (ho : 0 < o) :
    (squareDG o).Perm
      (conformingSet 0 (squareVertexSets o) [] (squareFaceSets o) (squareInterior o)) := by
  have hc : conformingSet 0 (squareVertexSets o) [] (squareFaceSets o) (squareInterior o) =
      [.vertex 0, .vertex 1, .vertex 2, .vertex 3] ++
      ((upTo 2 o).map (fun j => .face0 0 1 j) ++ ((upTo 2 o).map (fun j => .face1 0 2 j) ++
      ((upTo 2 o).map (fun j => .face1 1 3 j) ++ (upTo 2 o).map (fun j => .face0 2 3 j)))) ++
      squareInterior o := by
    simp [conformingSet, squareVertexSets, squareFaceSets, squareFaceNodes, List.finRange,
      List.filter_cons, squareFaceFn]
  rw [hc]
  refine perm_of_subset (square_nodup o) ?_ ?_
  · intro x
    unfold squareDG squareInterior
    rw [if_pos ho]
    cases x with
    | constant => memsimp; grind
    | vertex i => memsimp; fin_cases i <;> simp
    | face0 a b j => memsimp; grind
    | face1 a b j => memsimp; grind
    | interior a b => memsimp; grind
  · rw [square_length, squareInterior]
    have h2 := length_square (fun i j => SquareFn.interior i j) 2 o
    simp only [List.length_append, List.length_map, List.length_cons, List.length_nil, h2,
      length_upTo]
    obtain ⟨n, rfl⟩ : ∃ n, o = n + 1 := ⟨o - 1, by omega⟩
    simp only [show n + 1 + 1 - 2 = n by omega]
    nlinarith

theorem tet_perm (o : Nat) (ho : 0 < o) :
    (tetDG o).Perm
      (conformingSet 0 (tetVertexSets o) (tetEdgeSets o) (tetFaceSets o) (tetInterior o)) := by
  have hc : conformingSet 0 (tetVertexSets o) (tetEdgeSets o) (tetFaceSets o) (tetInterior o) =
      ((List.finRange 4).map .vertex ++
      tetEdgeNodes.flatMap (fun (a, b) => (upTo 2 o).map (fun j => .edge a b j))) ++
      tetFaceNodes.flatMap (fun (a, b, c) => (upTo 3 o).flatMap fun j =>
        (upTo (j + 3) o).map fun k => .face a b c j k) ++
      tetInterior o := by
    simp [conformingSet, tetVertexSets, tetEdgeSets, tetFaceSets, tetEdgeNodes, tetFaceNodes,
      trianglePerms, List.finRange, List.filter_cons]
  rw [hc]
  refine perm_of_subset (tet_nodup o) ?_ ?_
  · intro x
    unfold tetDG tetInterior
    rw [if_pos ho]
    cases x with
    | constant => memsimp; grind
    | vertex i => memsimp; fin_cases i <;> simp
    | edge a b j => memsimp; grind
    | face a b c j k => memsimp; grind
    | interior a b c => memsimp; grind
  · have h1 := tet_length o
    have h2 := length_triples_all (fun i j k => TetFn.interior i j k) 4 o
    have h3 : ∀ a b c, _ := fun a b c => length_pairs_all (fun i j => TetFn.face a b c i j) 3 o
    rw [tetInterior]
    simp only [List.length_append, List.length_map, List.length_finRange, tetEdgeNodes,
      tetFaceNodes, List.flatMap_cons, List.flatMap_nil, List.length_nil, length_upTo] at *
    have e1 := h3 0 3 2
    have e2 := h3 0 1 3
    have e3 := h3 0 2 1
    have e4 := h3 1 2 3
    generalize List.length _ = L0 at h1 ⊢
    generalize List.length _ = L1 at e1 ⊢
    generalize List.length _ = L2 at e2 ⊢
    generalize List.length _ = L3 at e3 ⊢
    generalize List.length _ = L4 at e4 ⊢
    generalize List.length _ = L5 at h2 ⊢
    clear h3 hc
    rcases o with _ | _ | _ | n
    · omega
    · simp at *; omega
    · simp at *; omega
    · simp only [show n + 1 + 1 + 1 + 1 - 3 = n + 1 by omega, show n + 1 + 1 + 1 + 2 - 3 = n + 2 by omega,
        show n + 1 + 1 + 1 + 1 - 2 = n + 2 by omega, show n + 1 + 1 + 1 + 1 - 4 = n by omega,
        show n + 1 + 1 + 1 + 2 - 4 = n + 1 by omega, show n + 1 + 1 + 1 + 3 - 4 = n + 2 by omega] at *
      nlinarith

theorem cube_perm (o : Nat) (ho : 0 < o) :
    (cubeDG o).Perm
      (conformingSet 0 (cubeVertexSets o) (cubeEdgeSets o) (cubeFaceSets o) (cubeInterior o)) := by
  have hc : conformingSet 0 (cubeVertexSets o) (cubeEdgeSets o) (cubeFaceSets o) (cubeInterior o) =
      ((List.finRange 8).map .vertex ++
      (cubeEdgeNodes0.flatMap (fun (a, b) => (upTo 2 o).map (fun j => .edge0 a b j)) ++
      (cubeEdgeNodes1.flatMap (fun (a, b) => (upTo 2 o).map (fun j => .edge1 a b j)) ++
      cubeEdgeNodes2.flatMap (fun (a, b) => (upTo 2 o).map (fun j => .edge2 a b j))))) ++
      (cubeFaceNodes.zipIdx.flatMap (fun ((a, b, c, _), i) => (upTo 2 o).flatMap fun j =>
        (upTo 2 o).map fun k => cubeFaceFn i a b c j k) ++
      cubeInterior o) := by
    simp [conformingSet, cubeVertexSets, cubeEdgeSets, cubeFaceSets, cubeEdgeNodes0, cubeEdgeNodes1,
      cubeEdgeNodes2, cubeFaceNodes, cubeSquarePerms, List.finRange, List.filter_cons]
  rw [hc]
  refine perm_of_subset (cube_nodup o) ?_ ?_
  · intro x
    unfold cubeDG cubeInterior
    rw [if_pos ho]
    simp only [cubeFaceNodes, List.zipIdx_cons, List.zipIdx_nil, List.flatMap_cons,
      List.flatMap_nil, cubeFaceFn]
    norm_num
    cases x with
    | constant => simp
    | vertex i => simp
    | edge0 a b j => simp; grind
    | edge1 a b j => simp; grind
    | edge2 a b j => simp; grind
    | face0 a b c j k => simp [mem_upTo]; grind
    | face1 a b c j k => simp [mem_upTo]; grind
    | face2 a b c j k => simp [mem_upTo]; grind
    | interior a b c => clear hc; simp [mem_upTo]; grind (splits := 30)
  · rw [cube_length, cubeInterior]
    have h2 := length_cubic (fun i j k => CubeFn.interior i j k) 2 o
    simp only [List.length_append, List.length_map, List.length_finRange, cubeEdgeNodes0,
      cubeEdgeNodes1, cubeEdgeNodes2, cubeFaceNodes, List.zipIdx_cons, List.zipIdx_nil,
      List.flatMap_cons, List.flatMap_nil, List.length_nil, length_upTo, length_cubic,
      length_square]
    obtain ⟨n, rfl⟩ : ∃ n, o = n + 1 := ⟨o - 1, by omega⟩
    simp only [show n + 1 + 1 - 2 = n by omega]
    nlinarith

end Verif.Basis
