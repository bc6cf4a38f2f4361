import Verif.Centaur.Groups
import Mathlib.Tactic.NormNum
import Mathlib.Tactic.Linarith

/-!
# Theorems about reading Centaur meshes
-/

namespace Verif.Centaur

open Verif.RefGeometry

attribute [local irreducible] W dec

/-! ### Groups of records -/

/-- A group that was written with any number of entries per line is read back, whatever the split into
lines is, and the reader stops at the first record behind it; an empty group is one empty record. The
total number of values must be below `2 ^ 32`. -/
theorem groups_read_back {T : Type} (dflt : T) (fileType : Int) (numC per : Nat) (hC : 0 < numC) :
    (∀ es lines more : List (List T), IsLines per es lines → (∀ e ∈ es, e.length = numC) →
      es.length * numC < 2 ^ 32 →
      readGroup dflt fileType numC false es.length per (lines ++ more) =
        some (es.flatten, es.length, more)) ∧
    (∀ more : List (List T), readGroup dflt fileType numC false 0 per ([] :: more) = some ([], 0, more)) :=
  ⟨fun es lines more hl he hW => readGroup_spec dflt fileType numC per es lines more hC
    (by rw [W_pow]; exact hW) hl he,
    fun more => by simp [readGroup]⟩

example : readGroup (0 : Nat) 5 2 false 3 2 [[1, 2, 3, 4], [5, 6], [9]] =
    some ([1, 2, 3, 4, 5, 6], 3, [[9]]) := by decide +kernel

/-- The groups of extra nodes of curved elements give the number of nodes per element in their header and
are read with the known number of elements; the lines are split as for other groups in files of type 5
and are one line otherwise. -/
theorem extra_node_groups_read_back {T : Type} (dflt : T) (fileType : Int) (nExtra per : Nat)
    (hC : 0 < nExtra) (es lines more : List (List T))
    (hl : IsLines (if fileType ≤ 4 then es.length else per) es lines) (he : ∀ e ∈ es, e.length = nExtra)
    (hW : es.length * nExtra < 2 ^ 32) :
    readGroup dflt fileType es.length true nExtra per (lines ++ more) =
      some (es.flatten, nExtra, more) := by
  have hpos : 0 < es.length := List.length_pos_iff.mpr hl.ne_nil
  have hne : es.length * nExtra ≠ 0 := Nat.mul_ne_zero (by omega) (by omega)
  unfold readGroup
  simp only [if_true, Bool.true_and, decide_eq_true_eq]
  rw [if_neg hne, readLines_spec _ nExtra es.length (by rw [W_pow]; exact hW) es lines hl he more 0 _ (by simp) (by simp)]
  simp

example : readGroup (0 : Nat) 5 2 true 3 1 [[1, 2, 3], [4, 5, 6]] = some ([1, 2, 3, 4, 5, 6], 3, []) := by
  decide +kernel

/-- The offset of a line is computed with 32 bits: of a group with more than `2 ^ 33` values (each record
shorter than `2 ^ 32`) no value from number `2 ^ 33` on is stored, although reading succeeds. -/
theorem large_groups_lost {T : Type} (dflt : T) (fileType : Int) (numC total per n : Nat)
    (recs rest : List (List T)) (out : List T) (hr : ∀ r ∈ recs, r.length < 2 ^ 32)
    (hpos : 0 < total * numC)
    (h : readGroup dflt fileType numC false total per recs = some (out, n, rest)) (i : Nat)
    (hi : 2 ^ 33 ≤ i) (hi2 : i < total * numC) : out[i]? = some dflt := by
  unfold readGroup at h
  simp only [Bool.false_eq_true, if_false, Bool.false_and] at h
  rw [if_neg (by omega), Option.map_eq_some_iff] at h
  obtain ⟨p, h1, h2⟩ := h
  obtain ⟨p1, p2⟩ := p
  simp only [Prod.mk.injEq] at h2
  obtain ⟨rfl, _, rfl⟩ := h2
  have hk := (readLines_lost per total numC dflt recs 0 _ _ _ h1
    (by rw [W_pow]; exact hr)).2 i (by
    rw [W_eq]; norm_num at hi ⊢; omega)
  rw [hk, List.getElem?_replicate, if_pos hi2]

/-- Skipping a group skips its records and nothing else: for every property a line per `per` entries. -/
theorem groups_skipped {T : Type} (total per : Nat) (h0 : 0 < total) :
    (∀ (blocks : List (List (List T))) (more : List (List T)),
      (∀ b ∈ blocks, total ≤ b.length * per ∧ (b.length - 1) * per < total) →
      skipGroup blocks.length total per (blocks.flatten ++ more) = some more) ∧
    (∀ (k : Nat) (more : List (List T)), skipGroup k 0 per ([] :: more) = some more) := by
  refine ⟨?_, fun k more => by simp [skipGroup]⟩
  intro blocks more hb
  unfold skipGroup
  rw [if_neg (by omega)]
  have key : ∀ (l : List Nat) (blocks : List (List (List T))), l.length = blocks.length →
      (∀ b ∈ blocks, total ≤ b.length * per ∧ (b.length - 1) * per < total) →
      l.foldlM (fun rs _ => skipLines per total rs 0) (blocks.flatten ++ more) = some more := by
    intro l
    induction l with
    | nil =>
      intro blocks hlen _
      have : blocks = [] := List.length_eq_zero_iff.mp hlen.symm
      subst this
      rfl
    | cons x l ih =>
      intro blocks hlen hb
      cases blocks with
      | nil => simp at hlen
      | cons b blocks =>
        have hbb := hb b (by simp)
        rw [List.foldlM_cons, List.flatten_cons, List.append_assoc,
          skipLines_spec per total b (blocks.flatten ++ more) 0 (by omega) (fun _ => by omega)]
        exact ih blocks (by simpa using hlen) (fun c hc => hb c (by simp [hc]))
  exact key _ blocks (by simp) hb

example : skipGroup 2 3 2 [[1], [2], [3], [4], [(7 : Nat)]] = some [[7]] := by decide +kernel

/-! ### Elements -/

/-- Reading the elements of one type: if the file gives for every element the numbers (from 1) of its
corners in the order `cgns`, the result gives their numbers (from 0) in the order `nodes` of the reference
shape. `f` is the number of the mesh node at a corner. -/
def ReadsAs {d : Nat} (fileType : Int) (elemType : Nat) (cgns nodes : List (Pt d)) : Prop :=
  ∀ (per : Nat) (fs : List (Pt d → Nat)) (lines more : List (List Nat)),
    (∀ f ∈ fs, ∀ p, f p + 1 < 2 ^ 32) → fs.length * cgns.length < 2 ^ 32 →
    IsLines per (fs.map fun f => cgns.map fun p => f p + 1) lines →
    readElements fileType elemType fs.length per (lines ++ more) =
      some (fs.map fun f => nodes.map f, more)

theorem readsAs_of {d : Nat} (fileType : Int) (elemType : Nat) (cgns nodes : List (Pt d))
    (hn : numNodes (decide (dimension fileType = 2)) elemType = some cgns.length) (h0 : 0 < cgns.length)
    (hr : ∀ f : Pt d → Nat, reorder (decide (dimension fileType = 2)) elemType (cgns.map f) =
      some (nodes.map f)) : ReadsAs fileType elemType cgns nodes := by
  intro per fs lines more hf hW hl
  have hlen : ∀ e ∈ (fs.map fun f => cgns.map fun p => f p + 1), e.length = cgns.length := by
    intro e he
    obtain ⟨f, _, rfl⟩ := List.mem_map.mp he
    simp
  have hcount : (fs.map fun f => cgns.map fun p => f p + 1).length = fs.length := by simp
  have hg := readGroup_spec 0 fileType cgns.length per _ lines more h0 (by
    rw [hcount, W_pow]; exact hW) hl hlen
  rw [hcount] at hg
  have ht := toElements_spec (decide (dimension fileType = 2)) elemType cgns.length
    (fs.map fun f => cgns.map fun p => f p + 1) (fs.map fun f => nodes.map f) hlen (by simp) (by
      intro i hi
      have hi' : i < fs.length := by simpa using hi
      have hdec : ((fs.map fun f => cgns.map fun p => f p + 1)[i]).map dec = cgns.map (fs[i]) := by
        rw [List.getElem_map]
        exact map_dec cgns _ (by rw [W_pow]; exact hf _ (List.getElem_mem hi'))
      rw [hdec, hr, List.getElem_map])
  rw [hcount] at ht
  unfold readElements
  simp only
  rw [hn, Option.bind_some, hg, Option.bind_some]
  simp only
  rw [ht]
  rfl

/-- Every element shape of a Centaur file, in two and in three dimensions, is read with its corners in the
order of hpGEM's reference shape. -/
theorem elements_read_in_order :
    (∀ ft : Int, ft ≤ 0 → ReadsAs ft 0 cgnsTriangle triangleG.nodes ∧
      ReadsAs ft 1 cgnsQuadrilateral squareG.nodes) ∧
    (∀ ft : Int, 0 < ft → ReadsAs ft 0 cgnsHexahedron cubeG.nodes ∧ ReadsAs ft 1 cgnsPrism prismG.nodes ∧
      ReadsAs ft 2 cgnsPyramid pyramidG.nodes ∧ ReadsAs ft 3 cgnsTetrahedron tetrahedronG.nodes) := by
  constructor
  · intro ft hft
    have hd : decide (dimension ft = 2) = true := by
      rw [dimension, if_neg (by omega)]; rfl
    refine ⟨readsAs_of _ _ _ _ (by rw [hd]; rfl) (by simp [cgnsTriangle]) (fun f => ?_),
      readsAs_of _ _ _ _ (by rw [hd]; rfl) (by simp [cgnsQuadrilateral]) (fun f => ?_)⟩ <;>
    · rw [hd]; rfl
  · intro ft hft
    have hd : decide (dimension ft = 2) = false := by
      rw [dimension, if_pos (by omega)]; rfl
    refine ⟨readsAs_of _ _ _ _ (by rw [hd]; rfl) (by simp [cgnsHexahedron]) (fun f => ?_),
      readsAs_of _ _ _ _ (by rw [hd]; rfl) (by simp [cgnsPrism]) (fun f => ?_),
      readsAs_of _ _ _ _ (by rw [hd]; rfl) (by simp [cgnsPyramid]) (fun f => ?_),
      readsAs_of _ _ _ _ (by rw [hd]; rfl) (by simp [cgnsTetrahedron]) (fun f => ?_)⟩ <;>
    · rw [hd]; rfl

example : readElements 4 2 2 2 [[11, 12, 13, 14, 15, 1, 2, 3, 4, 5], [8]] =
    some ([[14, 10, 11, 13, 12], [4, 0, 1, 3, 2]], [[8]]) := by decide +kernel

/-- A second order tetrahedron is read with its ten nodes in the order of hpGEM's second order reference
tetrahedron; second order elements of other shapes are rejected. -/
theorem second_order_tetrahedra {α : Type} (f : Pt 3 → α) (pre post : List α) :
    addHigherOrderNodes 3 (cgnsTetrahedron.map f) (pre ++ cgnsTetra10Extra.map f ++ post) pre.length =
        some ((Lattice.curvedTetrahedron 2).map f) ∧
      ∀ ty, ty ≠ 3 → ∀ c e : List α, ∀ o, addHigherOrderNodes ty c e o = none := by
  constructor
  · have hnodes : Lattice.curvedTetrahedron 2 =
        [![0, 0, 0], mid ![0, 0, 0] ![1, 0, 0], ![1, 0, 0], mid ![0, 1, 0] ![0, 0, 0],
          mid ![1, 0, 0] ![0, 1, 0], ![0, 1, 0], mid ![0, 0, 0] ![0, 0, 1], mid ![1, 0, 0] ![0, 0, 1],
          mid ![0, 1, 0] ![0, 0, 1], ![0, 0, 1]] := by
      simp only [Lattice.curvedTetrahedron, List.range, List.range.loop, List.flatMap_cons,
        List.flatMap_nil, List.map_cons, List.map_nil, List.append_nil, List.cons_append,
        List.nil_append, List.cons.injEq, and_true, Nat.reduceAdd, Nat.reduceSub]
      refine ⟨?_, ?_, ?_, ?_, ?_, ?_, ?_, ?_, ?_, ?_⟩ <;>
      · funext i
        fin_cases i <;> simp [mid]
    unfold addHigherOrderNodes
    rw [hnodes, if_pos rfl, List.append_assoc, List.drop_left]
    simp [cgnsTetrahedron, cgnsTetra10Extra]
  · intro ty hty c e o
    unfold addHigherOrderNodes
    rw [if_neg hty]

/-! ### Zones -/

/-- An element of the first type that occurs in the mesh gets the name of the zone whose range contains
it. In particular this is true for all elements of a mesh with one type of elements. -/
theorem zones_of_first_type_partial (is2D : Bool) (counts : Fin 4 → Nat) (starts : List (List Nat))
    (names : List String) (hfit : Fits is2D counts starts) (hne : starts ≠ [])
    (h1 : ∀ s, starts.head? = some s → ∀ x ∈ s, x = 1) (hlen : names.length = starts.length)
    (hord : ∀ t : Fin 4, (t : Nat) < (if is2D then 2 else 4) → Ordered counts starts t) :
    ∃ res, readZones is2D counts starts names = some res ∧
      ∀ (t : Fin 4) (i j : Nat), (∀ u, u < t → counts u = 0) → j < counts t → InZone starts t i j →
        res[j]? = names[i]? := by
  obtain ⟨res, h, _, h2, _⟩ := readZones_ok is2D counts starts names hfit hne h1 hlen hord
  refine ⟨res, h, ?_⟩
  intro t i j h0 hj hz
  have hf : firstOf counts t = 0 := by
    match t with
    | 0 => rfl
    | 1 => exact h0 0 (by decide)
    | 2 => rw [firstOf, h0 0 (by decide), h0 1 (by decide)]
    | 3 => rw [firstOf, h0 0 (by decide), h0 1 (by decide), h0 2 (by decide)]
  have := h2 t i j hj (by rw [hf, Nat.zero_add]; exact hz) (by rw [hf, Nat.zero_add]; exact hj)
  rwa [hf, Nat.zero_add] at this

/-- In a mesh with several types of elements the zones of all but the first type are wrong: with `k`
elements of earlier types in front, element `j` of the type gets the zone of element `k + j` of that type,
and the last `k` elements (all, if there are fewer) get no zone: they stay `"UNSET"`. -/
theorem zones_of_later_types_wrong (is2D : Bool) (counts : Fin 4 → Nat) (starts : List (List Nat))
    (names : List String) (hfit : Fits is2D counts starts) (hne : starts ≠ [])
    (h1 : ∀ s, starts.head? = some s → ∀ x ∈ s, x = 1) (hlen : names.length = starts.length)
    (hord : ∀ t : Fin 4, (t : Nat) < (if is2D then 2 else 4) → Ordered counts starts t) :
    ∃ res, readZones is2D counts starts names = some res ∧
      ∀ (t : Fin 4) (j k : Nat), k = ∑ u, (if u < t then counts u else 0) → j < counts t →
        (∀ i, k + j < counts t → InZone starts t i (k + j) → res[k + j]? = names[i]?) ∧
        (counts t ≤ k + j → res[k + j]? = some "UNSET") ∧
        (0 < k → j + 1 = counts t → res[k + j]? = some "UNSET") := by
  obtain ⟨res, h, _, h2, h3⟩ := readZones_ok is2D counts starts names hfit hne h1 hlen hord
  refine ⟨res, h, ?_⟩
  intro t j k hk hj
  have hf : firstOf counts t = k := by
    rw [hk]
    match t with
    | 0 => simp [firstOf]
    | 1 => simp [firstOf, Fin.sum_univ_four]
    | 2 => simp [firstOf, Fin.sum_univ_four]
    | 3 => simp [firstOf, Fin.sum_univ_four]
  refine ⟨fun i hlt hz => ?_, fun hge => ?_, fun hpos hj2 => ?_⟩
  · have := h2 t i j hj (by rw [hf]; exact hz) (by rw [hf]; exact hlt)
    rwa [hf] at this
  · have := h3 t j hj (by rw [hf]; exact hge)
    rwa [hf] at this
  · have := h3 t j hj (by rw [hf]; omega)
    rwa [hf] at this

/-- Two triangles and four quadrilaterals in two zones, one triangle and two quadrilaterals in each: the
third quadrilateral and the fourth have no zone, the first and the second have the wrong one. -/
example : readZones true ![2, 4, 0, 0] [[1, 1], [2, 3]] ["a", "b"] =
    some ["a", "b", "b", "b", "UNSET", "UNSET"] := by
  have hd : dec 2 = 1 ∧ dec 3 = 2 := by decide +kernel
  simp only [readZones, zoneEnds]
  simp [hd, applyZones, zoneStep, firstOf, fill_step, fill_stop, Function.update]

/-- A file without zones is not handled, unless it is two-dimensional and ends before the zones. -/
theorem no_zones (is2D : Bool) (counts : Fin 4 → Nat) (names : List String) :
    readZones is2D counts [] names = none := rfl

/-- A zone name that does not end with a blank survives being padded with blanks. -/
theorem zone_name_round_trip (s : List Char) (h : s.getLast? ≠ some ' ') (k : Nat) :
    fromFortranString (s ++ List.replicate k ' ') = s := by
  unfold fromFortranString
  rw [List.reverse_append, List.reverse_replicate]
  have h1 : ∀ k, (List.replicate k ' ' ++ s.reverse).dropWhile (fun c => decide (c = ' ')) =
      s.reverse.dropWhile (fun c => decide (c = ' ')) := by
    intro k
    induction k with
    | zero => rfl
    | succ k ih => rw [List.replicate_succ, List.cons_append, List.dropWhile_cons_of_pos (by simp), ih]
  have h2 : s.reverse.dropWhile (fun c => decide (c = ' ')) = s.reverse := by
    cases hr : s.reverse with
    | nil => rfl
    | cons c l =>
      rw [List.dropWhile_cons_of_neg]
      simp only [decide_eq_true_eq]
      rintro rfl
      apply h
      rw [List.getLast?_eq_head?_reverse, hr]
      rfl
  rw [h1, h2, List.reverse_reverse]

example : fromFortranString ['a', ' ', 'b', ' ', ' '] = ['a', ' ', 'b'] := by decide +kernel

/-! ### Periodic connections and file types -/

/-- A node is merged with the partner that the last valid pair gives it; pairs whose second number is zero
are ignored. -/
theorem periodic_pairs (pairs : List (Nat × Nat))
    (hr : ∀ p ∈ pairs, 1 ≤ p.1 ∧ p.1 < 2 ^ 32 ∧ p.2 < 2 ^ 32) (a b : Nat) :
    merges pairs a = some b ↔
      ∃ pre post, pairs = pre ++ (a + 1, b + 1) :: post ∧ ∀ q ∈ post, q.1 = a + 1 → q.2 = 0 := by
  induction pairs using List.reverseRecOn with
  | nil => simp [merges]
  | append_singleton l p ih =>
    have hl : ∀ q ∈ l, 1 ≤ q.1 ∧ q.1 < 2 ^ 32 ∧ q.2 < 2 ^ 32 := fun q hq => hr q (by simp [hq])
    obtain ⟨hp1, hp2, hp3⟩ := hr p (by simp)
    obtain ⟨x, y⟩ := p
    simp only at hp1 hp2 hp3
    have ih := ih hl
    have hstep : merges (l ++ [(x, y)]) =
        if dec y = W - 1 then merges l else Function.update (merges l) (dec x) (some (dec y)) :=
      merges_snoc l x y
    have hdx : dec x = x - 1 := dec_of_pos x hp1 (by rw [W_eq]; norm_num at hp2; omega)
    have hcase : (∃ pre post, l ++ [(x, y)] = pre ++ (a + 1, b + 1) :: post ∧
        ∀ q ∈ post, q.1 = a + 1 → q.2 = 0) ↔
        ((x, y) = (a + 1, b + 1)) ∨ ((x = a + 1 → y = 0) ∧ ∃ pre post,
          l = pre ++ (a + 1, b + 1) :: post ∧ ∀ q ∈ post, q.1 = a + 1 → q.2 = 0) := by
      constructor
      · rintro ⟨pre, post, he, hq⟩
        rcases List.eq_nil_or_concat post with rfl | ⟨post', q, rfl⟩
        · left
          have := List.append_inj' he rfl
          simpa using this.2
        · right
          rw [List.concat_eq_append, ← List.cons_append, ← List.append_assoc] at he
          have hh := List.append_inj' he rfl
          have hq2 : (x, y) = q := by simpa using hh.2
          subst hq2
          refine ⟨fun hx => hq (x, y) (by simp) hx, pre, post', hh.1, fun r hr => hq r (by simp [hr])⟩
      · rintro (he | ⟨hx, pre, post, he, hq⟩)
        · exact ⟨l, [], by rw [he], by simp⟩
        · refine ⟨pre, post ++ [(x, y)], by rw [he]; simp, ?_⟩
          intro q hq' hqa
          rcases List.mem_append.mp hq' with h | h
          · exact hq q h hqa
          · rw [List.mem_singleton] at h; subst h; exact hx hqa
    rw [hstep, hcase]
    by_cases hy : y = 0
    · subst hy
      have hd0 : dec 0 = W - 1 := by decide +kernel
      rw [if_pos hd0, ih]
      constructor
      · intro h; exact Or.inr ⟨fun _ => rfl, h⟩
      · rintro (h | ⟨_, h⟩)
        · simp at h
        · exact h
    · have hdy : dec y = y - 1 := dec_of_pos y (by omega) (by rw [W_eq]; norm_num at hp3; omega)
      rw [if_neg (by rw [hdy, W_eq]; norm_num at hp3; omega), hdx, hdy]
      by_cases hx : x = a + 1
      · subst hx
        rw [Nat.add_sub_cancel, Function.update_self]
        simp only [Option.some.injEq, Prod.mk.injEq, true_and]
        constructor
        · intro h; left; omega
        · rintro (h | ⟨h, _⟩)
          · omega
          · exact absurd (h trivial) hy
      · rw [Function.update_of_ne (by omega), ih]
        constructor
        · intro h; exact Or.inr ⟨fun h' => absurd h' hx, h⟩
        · rintro (h | ⟨_, h⟩)
          · simp at h; exact absurd h.1 hx
          · exact h

example : merges [(1, 5), (2, 6), (2, 0), (1, 7)] 0 = some 6 ∧ merges [(1, 5), (2, 6), (2, 0)] 1 = some 5 := by
  simp [merges, dec, W, Function.update]

/-- The file types that are read to the end: two-dimensional ones, 4 and 5. -/
theorem accepted_file_types (ft : Int) : accepts ft = true ↔ ft ≤ 0 ∨ ft = 4 ∨ ft = 5 := by
  unfold accepts dimension
  by_cases h : ft > 0
  · simp [h]; omega
  · simp [h]; omega

end Verif.Centaur
