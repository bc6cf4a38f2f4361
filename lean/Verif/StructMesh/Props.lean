import Verif.StructMesh.LemmasElement
import Mathlib.Data.Rat.Defs
import Mathlib.Algebra.Order.Field.Basic
import Mathlib.Data.List.Perm.Basic
import Mathlib.Tactic.LinearCombination

/-!
# The structured mesh: nodes, cells and their triangulation

The number of elements is positive in every direction.
-/

set_option linter.unusedSectionVars false

namespace Verif.StructMesh

variable {K : Type*} [Field K] [CharZero K]

/-! ## C164: nodes on a lattice -/

/-- The coordinates handed out are the lattice points of the domain, each exactly once. -/
theorem lattice_once (ds : List (Dim K)) (h0 : ∀ d ∈ ds, 0 < d.n) :
    ∃ P : List (List ℕ), P.Nodup ∧ (∀ p, p ∈ P ↔ IsPoint ds p) ∧
      coordinates ds = P.map (position ds) :=
  ⟨allPts ds, nodup_allPts h0, mem_allPts h0, coordinates_eq h0⟩

/-- The coordinate that corner `j` of a cell refers to lies at that corner. -/
theorem corner_position (ds : List (Dim K)) (h0 : ∀ d ∈ ds, 0 < d.n) (l : List ℕ)
    (hl : IsCell ds l) (j : ℕ) (hj : j < 2 ^ ds.length) :
    ∃ g, cornerId ds l j = some g ∧ (coordinates ds)[g]? = some (position ds (corner l j)) := by
  obtain ⟨g, _, h1, -, -, h4⟩ := cornerId_spec h0 hl j hj
  exact ⟨g, h1, by rw [coordinates_eq h0, List.getElem?_map, h4]; rfl⟩

/-- The ids are the numbers `0, 1, …` in the order in which the coordinates are handed out. -/
theorem ids_consecutive (ds : List (Dim K)) :
    (coordinateIDs ds).flatten = List.range (coordinates ds).length := by
  have := nodeRun_snd ds (ds.map Dim.nodes).prod (List.replicate ds.length 0) 0
  rw [List.range_eq_range']
  unfold coordinateIDs coordinates nodes
  rw [← List.flatMap_def]
  exact this

/-! ## C165: periodic boundaries -/

theorem wrap_iff (ds : List (Dim K)) (h0 : ∀ d ∈ ds, 0 < d.n) (p q : List ℕ) (hp : IsPoint ds p)
    (hq : IsPoint ds q) : wrap ds p = wrap ds q ↔ Identified ds p q := by
  unfold IsPoint at *
  induction ds generalizing p q with
  | nil => cases hp; cases hq; simp [wrap, Identified]
  | cons d ds ih =>
    cases hp with
    | @cons _ a _ as a1 a2 =>
      cases hq with
      | @cons _ b _ bs b1 b2 =>
        have hd := h0 d List.mem_cons_self
        simp only [wrap, Identified, List.cons.injEq,
          ih (fun x hx => h0 x (List.mem_cons_of_mem _ hx)) as bs a2 b2]
        refine and_congr_left fun _ => ?_
        cases d.periodic
        · simp
        · simp only [true_and]
          split_ifs <;> omega

/-- Two corners of cells belong to the same node exactly if they are the same point of the
periodic domain. -/
theorem same_node_iff (ds : List (Dim K)) (h0 : ∀ d ∈ ds, 0 < d.n) (l m : List ℕ)
    (hl : IsCell ds l) (hm : IsCell ds m) (i j : ℕ) (hi : i < 2 ^ ds.length)
    (hj : j < 2 ^ ds.length) (g h : ℕ) (hg : cornerId ds l i = some g)
    (hh : cornerId ds m j = some h) :
    (∃ ids ∈ coordinateIDs ds, g ∈ ids ∧ h ∈ ids) ↔
      Identified ds (corner l i) (corner m j) := by
  obtain ⟨g', idg, g1, g2, g3, -⟩ := cornerId_spec h0 hl i hi
  obtain ⟨h', idh, h1, h2, h3, -⟩ := cornerId_spec h0 hm j hj
  rw [hg, Option.some.injEq] at g1
  rw [hh, Option.some.injEq] at h1
  subst g1 h1
  rw [← wrap_iff ds h0 _ _ (corner_point hl i) (corner_point hm j)]
  have hnd : (coordinateIDs ds).flatten.Nodup := by rw [ids_consecutive]; exact List.nodup_range
  have huniq : ∀ (a b : ℕ) (A B : List ℕ) (x : ℕ), (coordinateIDs ds)[a]? = some A →
      (coordinateIDs ds)[b]? = some B → x ∈ A → x ∈ B → a = b := by
    intro a b A B x ha hb xa xb
    have hdis := (List.nodup_flatten.1 hnd).2
    rw [List.pairwise_iff_getElem] at hdis
    obtain ⟨a1, a2⟩ := List.getElem?_eq_some_iff.1 ha
    obtain ⟨b1, b2⟩ := List.getElem?_eq_some_iff.1 hb
    rcases lt_trichotomy a b with hab | hab | hab
    · exact absurd (b2 ▸ xb) (List.disjoint_left.1 (hdis a b a1 b1 hab) (a2 ▸ xa))
    · exact hab
    · exact absurd (a2 ▸ xa) (List.disjoint_left.1 (hdis b a b1 a1 hab) (b2 ▸ xb))
  constructor
  · rintro ⟨ids, hids, hg', hh'⟩
    obtain ⟨k, hk⟩ := List.getElem?_of_mem hids
    have e1 := huniq _ _ _ _ _ g2 hk g3 hg'
    have e2 := huniq _ _ _ _ _ h2 hk h3 hh'
    exact flat_inj (below_wrap h0 (corner_point hl i)) (below_wrap h0 (corner_point hm j))
      (e1.trans e2.symm)
  · intro e
    rw [← e, g2, Option.some.injEq] at h2
    subst h2
    exact ⟨idg, List.mem_of_getElem? g2, g3, h3⟩

/-! ## C166: elements -/

/-- The elements of a rectangular mesh are the cells, each once, with their corners. -/
theorem rectangular (ds : List (Dim K)) (h0 : ∀ d ∈ ds, 0 < d.n) :
    ∃ (es : List (List ℕ)) (cells : List (List ℕ)), elements ds false = some es ∧ cells.Nodup ∧ (∀ l, l ∈ cells ↔ IsCell ds l) ∧
      es.map (List.map ((coordinates ds)[·]?)) = cells.map fun l =>
        (List.range (2 ^ ds.length)).map fun j => some (position ds (corner l j)) := by
  have hc : ∀ l ∈ allLoops (ds.map Dim.n), IsCell ds l := fun l hl =>
    (cell_below _ _).2 ((mem_allLoops (n_pos h0)).1 hl)
  refine ⟨(allLoops (ds.map Dim.n)).map (idsOf ds), allLoops (ds.map Dim.n), ?_,
    nodup_allLoops (n_pos h0), fun l => (mem_allLoops (n_pos h0)).trans (cell_below _ _).symm, ?_⟩
  · have hr := run_rect ds (ds.map Dim.n).prod (List.replicate ds.length 0)
      ((initialCorners ds.length).getD [])
    have he : elements ds false = elementRun ds false (ds.map Dim.n).prod
      ⟨List.replicate ds.length 0, 0, (initialCorners ds.length).getD []⟩ := rfl
    rw [he, hr]
    have : ((List.range (ds.map Dim.n).prod).map fun i =>
        (step (ds.map Dim.n))^[i] (List.replicate ds.length 0)) = allLoops (ds.map Dim.n) := by
      unfold allLoops; rw [List.length_map]
    rw [this]
    refine mapM_some _ _ _ fun l hl => ?_
    obtain ⟨ids, i1, -⟩ := cellIds_spec h0 (hc l hl)
    simp [idsOf, i1]
  · rw [List.map_map]
    refine List.map_congr_left fun l hl => ?_
    obtain ⟨ids, i1, i2, i3⟩ := cellIds_spec h0 (hc l hl)
    have e : idsOf ds l = ids := by simp [idsOf, i1]
    simp only [Function.comp, e]
    apply List.ext_getElem?
    intro j
    rw [List.getElem?_map, List.getElem?_map]
    by_cases hj : j < 2 ^ ds.length
    · obtain ⟨g, g1, g2⟩ := corner_position ds h0 l (hc l hl) j hj
      rw [i3 j hj, g1, List.getElem?_range hj]
      simp [g2]
    · rw [List.getElem?_eq_none (by omega), List.getElem?_eq_none (by simp; omega)]
      rfl

/-- The elements of a triangular mesh: every cell once, cut up the same way up to
quarter turns; the number of quarter turns of a cell is even or odd as the sum of its
indices. -/
theorem triangular (ds : List (Dim K)) (h0 : ∀ d ∈ ds, 0 < d.n) (T : List (List ℕ))
    (hT : initialCorners ds.length = some T) :
    ∃ (es : List (List ℕ)) (cells : List (List ℕ)) (r : List ℕ → ℕ),
      elements ds true = some es ∧ cells.Nodup ∧
      (∀ l, l ∈ cells ↔ IsCell ds l) ∧ (∀ l, IsCell ds l → r l % 2 = l.sum % 2) ∧
      es.map (List.map ((coordinates ds)[·]?)) = cells.flatMap fun l =>
        (turned T (r l)).map fun t => t.map fun k => some (position ds (corner l k)) := by
  have hlt : 0 < T.length ∧ ∀ r, ∀ t ∈ turned T r, ∀ k ∈ t, k < 2 ^ ds.length := by
    unfold initialCorners at hT
    split at hT
    · rename_i hd
      rw [hd]
      obtain rfl := Option.some.inj hT
      exact ⟨by decide, fun r => turned_lt 4 rot_lt4 _ (by decide) r⟩
    · rename_i hd
      rw [hd]
      obtain rfl := Option.some.inj hT
      exact ⟨by decide, fun r => turned_lt 8 rot_lt _ (by decide) r⟩
    · simp at hT
  have hc : ∀ l ∈ allLoops (ds.map Dim.n), IsCell ds l := fun l hl =>
    (cell_below _ _).2 ((mem_allLoops (n_pos h0)).1 hl)
  have hz : IsCell ds (List.replicate ds.length 0) := by
    rw [cell_below]
    have := below_zero (n_pos h0)
    rwa [List.length_map] at this
  set l0 := List.replicate ds.length 0 with hl0
  have hrun := run_tri h0 T hlt.1 hlt.2 (ds.map Dim.n).prod (l0, 0) hz
  rw [turned_zero] at hrun
  refine ⟨(List.range (ds.map Dim.n).prod).flatMap fun i =>
      (turned T ((adv ds)^[i] (l0, 0)).2).map (pick (idsOf ds ((adv ds)^[i] (l0, 0)).1)),
    allLoops (ds.map Dim.n), fun l => ((adv ds)^[flat (ds.map Dim.n) l] (l0, 0)).2, ?_,
    nodup_allLoops (n_pos h0), fun l => (mem_allLoops (n_pos h0)).trans (cell_below _ _).symm,
    ?_, ?_⟩
  · unfold elements
    simp only [if_true, hT]
    exact hrun
  · intro l hl
    have hp := adv_parity (l0, 0) hz (by simp [hl0]) (flat (ds.map Dim.n) l)
    rw [hp, adv_fst]
    have := loop_flat (n_pos h0) ((cell_below _ _).1 hl)
    rw [List.length_map] at this
    rw [this]
  · unfold allLoops
    rw [List.map_flatMap, List.flatMap_map, List.flatMap_def, List.flatMap_def]
    congr 1
    refine List.map_congr_left fun i hi => ?_
    have hi' := List.mem_range.1 hi
    obtain ⟨b1, b2⟩ := loop_spec (n_pos h0) i hi'
    simp only [List.length_map] at b1 b2 ⊢
    rw [b2, adv_fst]
    have hcell := (cell_below ds _).2 b1
    simp only [← hl0] at hcell ⊢
    generalize (step (ds.map Dim.n))^[i] l0 = l at hcell
    rw [List.map_map]
    refine List.map_congr_left fun t ht => ?_
    obtain ⟨ids, i1, i2, i3⟩ := cellIds_spec h0 hcell
    have e : idsOf ds l = ids := by simp [idsOf, i1]
    simp only [Function.comp, e, pick, List.map_map]
    refine List.map_congr_left fun k hk => ?_
    have hk' := hlt.2 _ t ht k hk
    obtain ⟨g, g1, g2⟩ := corner_position ds h0 l hcell k hk'
    simp only [Function.comp, List.getD_eq_getElem?_getD, i3 k hk', g1, Option.getD_some, g2]

/-- Other dimensions cannot be cut up. -/
theorem triangular_other (ds : List (Dim K)) (h2 : ds.length ≠ 2) (h3 : ds.length ≠ 3) :
    elements ds true = none := by
  have : initialCorners ds.length = none := by
    unfold initialCorners
    split
    · exact absurd ‹_› h2
    · exact absurd ‹_› h3
    · rfl
  unfold elements
  simp [this]

/-! ## C167: the pieces of a cell -/

theorem square_rot : ∀ k < 4, square (rot k) = ((square k).2, 1 - (square k).1) := by decide
theorem cube_rot : ∀ k < 8, cube (rot k) = ((cube k).2.1, 1 - (cube k).1, (cube k).2.2) := by
  decide

/-- The two triangles of a square, however turned, are positively oriented, have total
area one, and together cover the square. -/
theorem triangles_fill {R : Type*} [Field R] [LinearOrder R] [IsStrictOrderedRing R]
    (T : List (List ℕ)) (hT : initialCorners 2 = some T) (r : ℕ) :
    (∀ t ∈ turned T r, 0 < area2 (t.map square)) ∧
    ((turned T r).map fun t => area2 (t.map square)).sum = 2 ∧
    ∀ x y : R, 0 ≤ x → x ≤ 1 → 0 ≤ y → y ≤ 1 → ∃ a b c : ℕ, [a, b, c] ∈ turned T r ∧
      a < 4 ∧ b < 4 ∧ c < 4 ∧ ∃ u v w : R, 0 ≤ u ∧ 0 ≤ v ∧ 0 ≤ w ∧ u + v + w = 1 ∧
      u * (square a).1 + v * (square b).1 + w * (square c).1 = x ∧
      u * (square a).2 + v * (square b).2 + w * (square c).2 = y := by
  obtain rfl : T = [[0, 1, 2], [1, 3, 2]] := by simpa [initialCorners] using hT.symm
  have hm := turned_mod [[0, 1, 2], [1, 3, 2]] (by decide) r
  refine ⟨?_, ?_, ?_⟩
  · rw [hm]
    have : r % 4 < 4 := Nat.mod_lt _ (by norm_num)
    generalize r % 4 = q at this
    revert q; decide
  · rw [hm]
    have : r % 4 < 4 := Nat.mod_lt _ (by norm_num)
    generalize r % 4 = q at this
    revert q; decide
  · induction r with
    | zero =>
      intro x y hx hx1 hy hy1
      rw [turned_zero]
      rcases le_total (x + y) 1 with h | h
      · refine ⟨0, 1, 2, by simp, by norm_num, by norm_num, by norm_num, 1 - x - y, x, y,
          by linarith, hx, hy, by ring, ?_, ?_⟩ <;> simp [square]
      · refine ⟨1, 3, 2, by simp, by norm_num, by norm_num, by norm_num, 1 - y, x + y - 1, 1 - x,
          by linarith, by linarith, by linarith, by ring, ?_, ?_⟩ <;> simp [square]
    | succ r ih =>
      intro x y hx hx1 hy hy1
      obtain ⟨a, b, c, hmem, ha, hb, hc, u, v, w, hu, hv, hw, h1, h2, h3⟩ :=
        ih (turned_mod _ (by decide) r) (1 - y) x (by linarith) (by linarith) hx hx1
      refine ⟨rot a, rot b, rot c, ?_, rot_lt4 a ha, rot_lt4 b hb, rot_lt4 c hc, u, v, w, hu, hv,
        hw, h1, ?_, ?_⟩
      · rw [← turned_turned, ← turned_one]
        exact List.mem_map.2 ⟨_, hmem, rfl⟩
      · rw [square_rot a ha, square_rot b hb, square_rot c hc]
        exact h3
      · rw [square_rot a ha, square_rot b hb, square_rot c hc]
        push_cast
        linear_combination h1 - h2

/-- The five tetrahedra of a cube, however turned, are positively oriented, have total
volume one, and together cover the cube. -/
theorem tetrahedra_fill {R : Type*} [Field R] [LinearOrder R] [IsStrictOrderedRing R]
    (T : List (List ℕ)) (hT : initialCorners 3 = some T) (r : ℕ) :
    (∀ t ∈ turned T r, 0 < volume6 (t.map cube)) ∧
    ((turned T r).map fun t => volume6 (t.map cube)).sum = 6 ∧
    ∀ x y z : R, 0 ≤ x → x ≤ 1 → 0 ≤ y → y ≤ 1 → 0 ≤ z → z ≤ 1 → ∃ a b c d : ℕ,
      [a, b, c, d] ∈ turned T r ∧ a < 8 ∧ b < 8 ∧ c < 8 ∧ d < 8 ∧ ∃ s u v w : R,
      0 ≤ s ∧ 0 ≤ u ∧ 0 ≤ v ∧ 0 ≤ w ∧ s + u + v + w = 1 ∧
      s * (cube a).1 + u * (cube b).1 + v * (cube c).1 + w * (cube d).1 = x ∧
      s * (cube a).2.1 + u * (cube b).2.1 + v * (cube c).2.1 + w * (cube d).2.1 = y ∧
      s * (cube a).2.2 + u * (cube b).2.2 + v * (cube c).2.2 + w * (cube d).2.2 = z := by
  obtain rfl : T = [[1, 2, 4, 7], [0, 1, 2, 4], [1, 3, 2, 7], [1, 4, 5, 7], [2, 6, 4, 7]] := by
    simpa [initialCorners] using hT.symm
  have hm := turned_mod [[1, 2, 4, 7], [0, 1, 2, 4], [1, 3, 2, 7], [1, 4, 5, 7], [2, 6, 4, 7]]
    (by decide) r
  refine ⟨?_, ?_, ?_⟩
  · rw [hm]
    have : r % 4 < 4 := Nat.mod_lt _ (by norm_num)
    generalize r % 4 = q at this
    revert q; decide
  · rw [hm]
    have : r % 4 < 4 := Nat.mod_lt _ (by norm_num)
    generalize r % 4 = q at this
    revert q; decide
  · clear hm
    induction r with
    | zero =>
      intro x y z hx hx1 hy hy1 hz hz1
      rw [turned_zero]
      by_cases h1 : x + y + z ≤ 1
      · refine ⟨0, 1, 2, 4, by simp, by norm_num, by norm_num, by norm_num, by norm_num,
          1 - x - y - z, x, y, z, by linarith, hx, hy, hz, by ring, ?_, ?_, ?_⟩ <;> simp [cube]
      by_cases h2 : x + y - z ≥ 1
      · refine ⟨1, 3, 2, 7, by simp, by norm_num, by norm_num, by norm_num, by norm_num,
          1 - y, x + y - z - 1, 1 - x, z, by linarith, by linarith, by linarith, hz, by ring,
          ?_, ?_, ?_⟩ <;> simp [cube] <;> ring
      by_cases h3 : x + z - y ≥ 1
      · refine ⟨1, 4, 5, 7, by simp, by norm_num, by norm_num, by norm_num, by norm_num,
          1 - z, 1 - x, x + z - y - 1, y, by linarith, by linarith, by linarith, hy, by ring,
          ?_, ?_, ?_⟩ <;> simp [cube] <;> ring
      by_cases h4 : y + z - x ≥ 1
      · refine ⟨2, 6, 4, 7, by simp, by norm_num, by norm_num, by norm_num, by norm_num,
          1 - z, y + z - x - 1, 1 - y, x, by linarith, by linarith, by linarith, hx, by ring,
          ?_, ?_, ?_⟩ <;> simp [cube] <;> ring
      have two : (2 : R) ≠ 0 := two_ne_zero
      refine ⟨1, 2, 4, 7, by simp, by norm_num, by norm_num, by norm_num, by norm_num,
        (1 + x - y - z) / 2, (1 + y - x - z) / 2, (1 + z - x - y) / 2, (x + y + z - 1) / 2,
        by linarith, by linarith, by linarith, by linarith, by ring, ?_, ?_, ?_⟩
      · simp [cube]; ring
      · simp [cube]; ring
      · simp [cube]; ring
    | succ r ih =>
      intro x y z hx hx1 hy hy1 hz hz1
      obtain ⟨a, b, c, d, hmem, ha, hb, hc, hd, s, u, v, w, hs, hu, hv, hw, h1, h2, h3, h4⟩ :=
        ih (1 - y) x z (by linarith) (by linarith) hx hx1 hz hz1
      refine ⟨rot a, rot b, rot c, rot d, ?_, rot_lt a ha, rot_lt b hb, rot_lt c hc, rot_lt d hd,
        s, u, v, w, hs, hu, hv, hw, h1, ?_, ?_, ?_⟩
      · rw [← turned_turned, ← turned_one]
        exact List.mem_map.2 ⟨_, hmem, rfl⟩
      · rw [cube_rot a ha, cube_rot b hb, cube_rot c hc, cube_rot d hd]
        exact h3
      · rw [cube_rot a ha, cube_rot b hb, cube_rot c hc, cube_rot d hd]
        push_cast
        linear_combination h1 - h2
      · rw [cube_rot a ha, cube_rot b hb, cube_rot c hc, cube_rot d hd]
        exact h4

/-! ## C168: neighbouring cells -/

instance (A B : List (List ℕ)) : Decidable (SameTriangles A B) := by
  unfold SameTriangles; infer_instance

/-- The tetrahedra of two cubes leave the same triangles on their common side exactly if
one of them is turned an odd number of quarter turns more than the other. -/
theorem conform_iff (T : List (List ℕ)) (hT : initialCorners 3 = some T) (i : ℕ) (hi : i < 3)
    (r s : ℕ) : SameTriangles (sideTriangles i 1 (turned T r)) (sideTriangles i 0 (turned T s)) ↔
      r % 2 ≠ s % 2 := by
  obtain rfl : T = [[1, 2, 4, 7], [0, 1, 2, 4], [1, 3, 2, 7], [1, 4, 5, 7], [2, 6, 4, 7]] := by
    simpa [initialCorners] using hT.symm
  rw [turned_mod _ (by decide) r, turned_mod _ (by decide) s,
    ← Nat.mod_mod_of_dvd r (show 2 ∣ 4 by norm_num), ← Nat.mod_mod_of_dvd s (show 2 ∣ 4 by norm_num)]
  have hr : r % 4 < 4 := Nat.mod_lt _ (by norm_num)
  have hs : s % 4 < 4 := Nat.mod_lt _ (by norm_num)
  generalize r % 4 = q at hr
  generalize s % 4 = p at hs
  revert i q p
  decide +kernel

/-- In two dimensions every side of a square is a side of exactly one of its triangles, so
neighbouring squares always fit together. -/
theorem triangles_conform (T : List (List ℕ)) (hT : initialCorners 2 = some T) (i : ℕ)
    (hi : i < 2) (s : ℕ) (hs : s < 2) (r : ℕ) :
    (((turned T r).map fun t => t.filter (onSide i s)).filter (·.length = 2)).length = 1 := by
  obtain rfl : T = [[0, 1, 2], [1, 3, 2]] := by simpa [initialCorners] using hT.symm
  rw [turned_mod _ (by decide) r]
  have hr : r % 4 < 4 := Nat.mod_lt _ (by norm_num)
  generalize r % 4 = q at hr
  revert i s q
  decide +kernel

theorem sum_set (l : List ℕ) (i a b : ℕ) (h : l[i]? = some a) :
    (l.set i b).sum + a = l.sum + b := by
  induction l generalizing i with
  | nil => simp at h
  | cons x l ih =>
    cases i with
    | zero => simp at h; subst h; simp; omega
    | succ i => have := ih i (by simpa using h); simp; omega

/-- In three dimensions, cells that are neighbours inside the domain fit together
(`r` counts quarter turns as in `triangular`). -/
theorem neighbours_conform_partial (T : List (List ℕ)) (hT : initialCorners 3 = some T)
    (r : List ℕ → ℕ) (ds : List (Dim K)) (hr : ∀ l, IsCell ds l → r l % 2 = l.sum % 2)
    (i : ℕ) (hi : i < 3) (l : List ℕ) (a : ℕ) (ha : l[i]? = some a) (hl : IsCell ds l)
    (hm : IsCell ds (l.set i (a + 1))) :
    SameTriangles (sideTriangles i 1 (turned T (r l)))
      (sideTriangles i 0 (turned T (r (l.set i (a + 1))))) := by
  rw [conform_iff T hT i hi, hr l hl, hr _ hm]
  have := sum_set l i a (a + 1) ha
  omega

/-- Across a periodic boundary they fit together exactly if the number of elements in
this direction is even. -/
theorem periodic_conform_iff (T : List (List ℕ)) (hT : initialCorners 3 = some T)
    (r : List ℕ → ℕ) (ds : List (Dim K)) (hr : ∀ l, IsCell ds l → r l % 2 = l.sum % 2)
    (i : ℕ) (hi : i < 3) (l : List ℕ) (n : ℕ) (hn : 0 < n) (ha : l[i]? = some (n - 1))
    (hl : IsCell ds l) (hm : IsCell ds (l.set i 0)) :
    SameTriangles (sideTriangles i 1 (turned T (r l)))
      (sideTriangles i 0 (turned T (r (l.set i 0)))) ↔ n % 2 = 0 := by
  rw [conform_iff T hT i hi, hr l hl, hr _ hm]
  have := sum_set l i _ 0 ha
  omega

/-! ## Examples -/

/-- Two by three cells, periodic in the first direction. -/
def example2 : List (Dim ℚ) := [⟨2, 0, 1, true⟩, ⟨3, 0, 3, false⟩]

example : ∀ d ∈ example2, 0 < d.n := by decide
example : coordinateIDs example2
    = [[0, 1], [2], [3, 4], [5], [6, 7], [8], [9, 10], [11]] := by decide +kernel
example : elements example2 false
    = some [[0, 2, 3, 5], [2, 1, 5, 4], [3, 5, 6, 8], [5, 4, 8, 7], [6, 8, 9, 11],
        [8, 7, 11, 10]] := by decide +kernel
example : (elements example2 true).map List.length = some 12 := by decide +kernel

end Verif.StructMesh
