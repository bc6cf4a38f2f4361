import Verif.Lattice.Model
import Mathlib.Data.Fin.Tuple.NatAntidiagonal
import Mathlib.Data.List.NatAntidiagonal
import Mathlib.Tactic.Ring
import Mathlib.Tactic.Linarith
import Mathlib.Tactic.FieldSimp
import Mathlib.Tactic.FinCases

set_option linter.all false

namespace Verif
variable {α : Type}

theorem segments_range (segs : List (Nat → α)) (m base : Nat) :
    ((List.range m).flatMap fun i => segs.zipIdx.map fun q => (base + q.2 * m + i, q.1 i)).Perm
    (writesFrom base (segs.flatMap fun f => (List.range m).map f)) := by
  have h := segments_perm segs (List.range m) base
  have e : (List.range m).zipIdx = (List.range m).map fun i => (i, i) := by
    apply List.ext_getElem?
    intro i
    by_cases hi : i < m
    · simp [hi]
    · simp [hi]
  rw [e, List.flatMap_map, List.length_range] at h
  exact h

theorem segments_range2 (segs : List (Nat × Nat → α)) (m base : Nat) :
    ((List.range m).flatMap fun i => (List.range m).flatMap fun j =>
      segs.zipIdx.map fun q => (base + q.2 * (m * m) + (i * m + j), q.1 (i, j))).Perm
    (writesFrom base (segs.flatMap fun f => (List.range m).flatMap fun i =>
      (List.range m).map fun j => f (i, j))) := by
  have h := segments_perm segs ((List.range m).flatMap fun i => (List.range m).map fun j => (i, j)) base
  have key : ∀ (k b : Nat), ((List.range' b k).flatMap fun i => (List.range m).map fun j => (i, j)).zipIdx (b * m) =
      (List.range' b k).flatMap fun i => (List.range m).map fun j => ((i, j), i * m + j) := by
    intro k
    induction k with
    | zero => intro b; simp
    | succ k ih =>
      intro b
      rw [List.range'_succ, List.flatMap_cons, List.flatMap_cons, List.zipIdx_append]
      congr 1
      · apply List.ext_getElem?
        intro j
        by_cases hj : j < m
        · simp [hj]
        · simp [hj]
      · have := ih (b + 1)
        simp only [List.length_map, List.length_range]
        rw [← this]; congr 1; ring
  have e := key m 0
  rw [Nat.zero_mul, ← List.range_eq_range'] at e
  have hlen : ((List.range m).flatMap fun i => (List.range m).map fun j => (i, j)).length = m * m := by
    simp [List.length_flatMap]
  rw [e, hlen] at h
  simp only [List.flatMap_assoc, List.flatMap_map, List.map_flatMap, List.map_map,
    Function.comp_def] at h
  exact h

theorem perm_of_cover {l m : List α} (hm : m.Nodup) (h : ∀ x ∈ m, x ∈ l) (hl : l.length ≤ m.length) :
    l.Perm m :=
  ((List.subperm_of_subset hm h).perm_of_length_le hl).symm

end Verif

namespace Verif.Lattice
open RefGeometry

/-! ## Counting lattice points -/

theorem length_tuple_succ (k n : Nat) :
    (List.Nat.antidiagonalTuple (k + 1) (n + 1)).length =
      (List.Nat.antidiagonalTuple k (n + 1)).length + (List.Nat.antidiagonalTuple (k + 1) n).length := by
  simp only [List.Nat.antidiagonalTuple, List.length_flatMap, List.length_map]
  rw [List.Nat.antidiagonal_succ]
  simp [Function.comp_def]

theorem length_tuple_one (n : Nat) : (List.Nat.antidiagonalTuple 1 n).length = 1 := by
  simp

theorem length_tuple_two (n : Nat) : (List.Nat.antidiagonalTuple 2 n).length = n + 1 := by
  induction n with
  | zero => rfl
  | succ n ih => rw [length_tuple_succ, length_tuple_one, ih]; omega

theorem length_tuple_three (n : Nat) :
    2 * (List.Nat.antidiagonalTuple 3 n).length = (n + 1) * (n + 2) := by
  induction n with
  | zero => rfl
  | succ n ih => rw [length_tuple_succ, length_tuple_two, Nat.mul_add, ih]; ring

theorem length_tuple_four (n : Nat) :
    6 * (List.Nat.antidiagonalTuple 4 n).length = (n + 1) * (n + 2) * (n + 3) := by
  induction n with
  | zero => rfl
  | succ n ih =>
    have := length_tuple_three (n + 1)
    rw [length_tuple_succ, Nat.mul_add, ih]
    linarith

/-! ## Triangle -/

/-- The three sides of a layer. -/
def triEdges (offset : IVec 3) (r : Nat) : List (Nat → IVec 3) :=
  [fun i => offset + ![r - i - 1, i + 1, 0], fun i => offset + ![0, r - i - 1, i + 1],
    fun i => offset + ![i + 1, 0, r - i - 1]]

/-- One layer, in order. -/
def triLayer (offset : IVec 3) (r : Nat) : List (IVec 3) :=
  if r = 0 then [offset + ![0, 0, 0]]
  else [offset + ![r, 0, 0], offset + ![0, r, 0], offset + ![0, 0, r]] ++
    (triEdges offset r).flatMap fun f => (List.range (r - 1)).map f

/-- All layers from `layer` on. -/
def triLayers (order : Nat) : Nat → Nat → List (IVec 3)
  | 0, _ => []
  | fuel + 1, layer =>
    if 3 * layer ≤ order then
      triLayer ![layer, layer, layer] (order - 3 * layer) ++ triLayers order fuel (layer + 1)
    else []

theorem triLayer_length (o : IVec 3) (r : Nat) : (triLayer o r).length = if r = 0 then 1 else 3 * r := by
  unfold triLayer
  split_ifs with h
  · rfl
  · simp [triEdges]; omega

theorem triLoop_spec (order : Nat) : ∀ (fuel layer index : Nat),
    (triLoop order fuel layer index).1.Perm (writesFrom index (triLayers order fuel layer)) ∧
    (triLoop order fuel layer index).2 = index + (triLayers order fuel layer).length := by
  intro fuel
  induction fuel with
  | zero => intro layer index; simp [triLoop, triLayers, writesFrom]
  | succ fuel ih =>
    intro layer index
    unfold triLoop triLayers
    by_cases h : 3 * layer ≤ order
    · simp only [h, if_true]
      by_cases hr : order - 3 * layer = 0
      · have hnext : triLayers order fuel (layer + 1) = [] := by
          cases fuel with
          | zero => rfl
          | succ f => unfold triLayers; rw [if_neg (by omega)]
        simp [hr, hnext, triLayer, writesFrom]
      · obtain ⟨ih1, ih2⟩ := ih (layer + 1) (index + 3 + 3 * (order - 3 * layer - 1))
        simp only [hr, if_false]
        constructor
        · rw [writesFrom_append, triLayer_length, if_neg hr]
          refine List.Perm.append ?_ ?_
          · unfold triLayer
            rw [if_neg hr, writesFrom_append]
            refine List.Perm.append (List.Perm.of_eq (by simp [writesFrom_cons, writesFrom_nil])) ?_
            have := segments_range (triEdges ![layer, layer, layer] (order - 3 * layer))
              (order - 3 * layer - 1) (index + 3)
            simp only [List.length_cons, List.length_nil]
            refine (List.Perm.of_eq ?_).trans this
            apply List.flatMap_congr
            intro i _
            simp [triEdges, Nat.add_right_comm]
          · have e : index + 3 + 3 * (order - 3 * layer - 1) = index + 3 * (order - 3 * layer) := by omega
            rw [← e]; exact ih1
        · rw [ih2, List.length_append, triLayer_length, if_neg hr]; omega
    · simp [h, writesFrom]

theorem triLayers_length (order : Nat) : ∀ (fuel layer : Nat), order < 3 * (layer + fuel) →
    2 * (triLayers order fuel layer).length =
      if 3 * layer ≤ order then (order - 3 * layer + 1) * (order - 3 * layer + 2) else 0 := by
  intro fuel
  induction fuel with
  | zero => intro layer h; simp [triLayers]; omega
  | succ fuel ih =>
    intro layer h
    unfold triLayers
    by_cases hl : 3 * layer ≤ order
    · simp only [hl, if_true, List.length_append, triLayer_length, Nat.mul_add]
      rw [ih (layer + 1) (by omega)]
      obtain ⟨r, hr⟩ : ∃ r, r = order - 3 * layer := ⟨_, rfl⟩
      rw [← hr]
      match r, hr with
      | 0, hr => have hn : ¬ 3 * (layer + 1) ≤ order := by omega
                 rw [if_neg hn]; simp
      | 1, hr => have hn : ¬ 3 * (layer + 1) ≤ order := by omega
                 rw [if_neg hn]; simp
      | 2, hr => have hn : ¬ 3 * (layer + 1) ≤ order := by omega
                 rw [if_neg hn]; simp
      | t + 3, hr =>
        have hn : 3 * (layer + 1) ≤ order := by omega
        have h3 : ¬ t + 3 = 0 := by omega
        rw [if_pos hn]
        have : order - 3 * (layer + 1) = t := by omega
        rw [this, if_neg h3]; ring
    · simp [hl]

theorem mem_triLayer {a b c r l : Nat} (hs : a + b + c = r) (h0 : a = 0 ∨ b = 0 ∨ c = 0) :
    (![l + a, l + b, l + c] : IVec 3) ∈ triLayer ![l, l, l] r := by
  have e : ∀ x y z : Nat, (![l, l, l] + ![x, y, z] : IVec 3) = ![l + x, l + y, l + z] := by
    intro x y z; simp
  unfold triLayer
  by_cases hr : r = 0
  · have ha : a = 0 := by omega
    have hb : b = 0 := by omega
    have hc : c = 0 := by omega
    simp [hr, ha, hb, hc]
  · rw [if_neg hr]
    simp only [e, triEdges, List.mem_append, List.mem_cons, List.not_mem_nil, or_false,
      List.mem_flatMap, exists_eq_or_imp, exists_eq_left, List.mem_map, List.mem_range]
    by_cases hc : c = 0
    · by_cases hb : b = 0
      · left; left; have : a = r := by omega
        simp [hb, hc, this]
      · by_cases ha : a = 0
        · left; right; left; have : b = r := by omega
          simp [ha, hc, this]
        · right; left; refine ⟨b - 1, by omega, ?_⟩
          have h1 : r - (b - 1) - 1 = a := by omega
          have h2 : b - 1 + 1 = b := by omega
          rw [h1, h2, hc]
    · by_cases ha : a = 0
      · by_cases hb : b = 0
        · left; right; right; have : c = r := by omega
          simp [ha, hb, this]
        · right; right; left; refine ⟨c - 1, by omega, ?_⟩
          have h1 : r - (c - 1) - 1 = b := by omega
          have h2 : c - 1 + 1 = c := by omega
          rw [h1, h2, ha]
      · right; right; right; refine ⟨a - 1, by omega, ?_⟩
        have h1 : r - (a - 1) - 1 = c := by omega
        have h2 : a - 1 + 1 = a := by omega
        rw [h1, h2]; have : b = 0 := by omega
        rw [this]

theorem mem_triLayers (order : Nat) : ∀ (fuel layer : Nat), order < 3 * (layer + fuel) →
    ∀ a b c, a + b + c = order → layer ≤ a → layer ≤ b → layer ≤ c →
    (![a, b, c] : IVec 3) ∈ triLayers order fuel layer := by
  intro fuel
  induction fuel with
  | zero => intro layer h a b c hs ha hb hc; omega
  | succ fuel ih =>
    intro layer h a b c hs ha hb hc
    unfold triLayers
    rw [if_pos (by omega)]
    by_cases hz : a = layer ∨ b = layer ∨ c = layer
    · apply List.mem_append_left
      have := mem_triLayer (a := a - layer) (b := b - layer) (c := c - layer) (l := layer)
        (r := order - 3 * layer) (by omega) (by omega)
      rwa [Nat.add_sub_cancel' ha, Nat.add_sub_cancel' hb, Nat.add_sub_cancel' hc] at this
    · apply List.mem_append_right
      exact ih (layer + 1) (by omega) a b c hs (by omega) (by omega) (by omega)

theorem triLayers_count (order : Nat) :
    (triLayers order (order + 1) 0).length = (order + 1) * (order + 2) / 2 := by
  have := triLayers_length order (order + 1) 0 (by omega)
  simp only [Nat.mul_zero, Nat.zero_le, if_true, Nat.sub_zero] at this
  omega

theorem baryTriangle_eq (order : Nat) : baryTriangle order = some (triLayers order (order + 1) 0) := by
  obtain ⟨h1, h2⟩ := triLoop_spec order (order + 1) 0 0
  unfold baryTriangle
  simp only
  rw [Nat.zero_add, triLayers_count] at h2
  rw [if_pos h2]
  exact fill_eq h1 (triLayers_count order)

theorem vec3_eta (p : IVec 3) : p = ![p 0, p 1, p 2] := by
  funext i; fin_cases i <;> rfl

theorem vec4_eta (p : IVec 4) : p = ![p 0, p 1, p 2, p 3] := by
  funext i; fin_cases i <;> rfl

theorem triLayers_perm (order : Nat) :
    (triLayers order (order + 1) 0).Perm (List.Nat.antidiagonalTuple 3 order) := by
  apply perm_of_cover (List.Nat.nodup_antidiagonalTuple 3 order)
  · intro p hp
    rw [List.Nat.mem_antidiagonalTuple, Fin.sum_univ_three] at hp
    rw [vec3_eta p]
    exact mem_triLayers order (order + 1) 0 (by omega) _ _ _ hp (Nat.zero_le _) (Nat.zero_le _) (Nat.zero_le _)
  · have := length_tuple_three order
    rw [triLayers_count]; omega

/-! ## Tetrahedron -/

def tetEdges (offset : IVec 4) (r : Nat) : List (Nat → IVec 4) :=
  [fun i => offset + ![r - (i + 1), i + 1, 0, 0], fun i => offset + ![0, r - (i + 1), i + 1, 0],
    fun i => offset + ![i + 1, 0, r - (i + 1), 0], fun i => offset + ![r - (i + 1), 0, 0, i + 1],
    fun i => offset + ![0, r - (i + 1), 0, i + 1], fun i => offset + ![0, 0, r - (i + 1), i + 1]]

def tetFaces (offset : IVec 4) (r : Nat) : List (IVec 4) :=
  faceMapping.flatMap fun fm => (triLayers r r 1).map fun b => offset + toFace fm b

def tetLayer (offset : IVec 4) (r : Nat) : List (IVec 4) :=
  if r = 0 then [offset + ![0, 0, 0, 0]]
  else [offset + ![r, 0, 0, 0], offset + ![0, r, 0, 0], offset + ![0, 0, r, 0],
      offset + ![0, 0, 0, r]] ++
    ((tetEdges offset r).flatMap fun f => (List.range (r - 1)).map f) ++ tetFaces offset r

def tetLayers (order : Nat) : Nat → Nat → List (IVec 4)
  | 0, _ => []
  | fuel + 1, layer =>
    if 4 * layer ≤ order then
      tetLayer ![layer, layer, layer, layer] (order - 4 * layer) ++ tetLayers order fuel (layer + 1)
    else []

theorem tri_drop (r : Nat) (hr : r ≠ 0) :
    (triLayers r (r + 1) 0).drop (3 * r) = triLayers r r 1 := by
  rw [triLayers, if_pos (by omega), List.drop_append_of_le_length]
  · rw [List.drop_eq_nil_of_le]
    · rfl
    · rw [triLayer_length]; simp [hr]
  · rw [triLayer_length]; simp [hr]

theorem interior_length (r : Nat) (hr : r ≠ 0) :
    2 * (triLayers r r 1).length = (r - 1) * (r - 2) := by
  rw [triLayers_length r r 1 (by omega)]
  by_cases h : 3 ≤ r
  · rw [if_pos (by omega)]
    have e1 : r - 3 * 1 + 1 = r - 2 := by omega
    have e2 : r - 3 * 1 + 2 = r - 1 := by omega
    rw [e1, e2, Nat.mul_comm]
  · rw [if_neg (by omega)]
    have : r = 1 ∨ r = 2 := by omega
    rcases this with rfl | rfl <;> rfl

theorem tetFaces_length (o : IVec 4) (r : Nat) : (tetFaces o r).length = 4 * (triLayers r r 1).length := by
  simp [tetFaces, faceMapping]; omega

theorem tetLayer_length (o : IVec 4) (r : Nat) :
    (tetLayer o r).length = if r = 0 then 1 else 4 + 6 * (r - 1) + 4 * (triLayers r r 1).length := by
  unfold tetLayer
  split_ifs with h
  · rfl
  · simp [tetEdges, tetFaces_length]; omega

theorem faces_eq (offset : IVec 4) (r : Nat) (hr : r ≠ 0) :
    (faceMapping.flatMap fun fm =>
      (List.range ((triLayers r (r + 1) 0).length - 3 * r)).map fun i =>
        offset + toFace fm ((triLayers r (r + 1) 0).getD (i + 3 * r) 0)) = tetFaces offset r := by
  unfold tetFaces
  apply List.flatMap_congr
  intro fm _
  rw [← tri_drop r hr]
  apply List.ext_getElem?
  intro i
  by_cases hi : i < (triLayers r (r + 1) 0).length - 3 * r
  · have : 3 * r + i < (triLayers r (r + 1) 0).length := by omega
    simp [hi, List.getElem?_drop, List.getElem?_eq_getElem this, Nat.add_comm i]
  · rw [List.getElem?_eq_none (by simp; omega), List.getElem?_eq_none (by simp; omega)]

theorem tetLoop_spec (order : Nat) : ∀ (fuel layer index : Nat),
    ∃ w, tetLoop order fuel layer index = some (w, index + (tetLayers order fuel layer).length) ∧
      w.Perm (writesFrom index (tetLayers order fuel layer)) := by
  intro fuel
  induction fuel with
  | zero => intro layer index; exact ⟨[], by simp [tetLoop, tetLayers], by simp [tetLayers, writesFrom]⟩
  | succ fuel ih =>
    intro layer index
    unfold tetLoop tetLayers
    by_cases h : 4 * layer ≤ order
    · simp only [h, if_true]
      by_cases hr : order - 4 * layer = 0
      · have hnext : tetLayers order fuel (layer + 1) = [] := by
          cases fuel with
          | zero => rfl
          | succ f => unfold tetLayers; rw [if_neg (by omega)]
        refine ⟨_, by simp [hr, hnext, tetLayer]; rfl, ?_⟩
        simp [hr, hnext, tetLayer, writesFrom]
      · rw [if_neg hr, baryTriangle_eq]
        simp only [Option.bind_eq_bind, Option.bind_some]
        rw [faces_eq _ _ hr]
        obtain ⟨w, hw1, hw2⟩ := ih (layer + 1) (index + 4 + 6 * (order - 4 * layer - 1) +
          (tetFaces ![layer, layer, layer, layer] (order - 4 * layer)).length)
        rw [hw1]
        simp only [Option.bind_some]
        have hidx : index + (tetLayer ![layer, layer, layer, layer] (order - 4 * layer)).length =
            index + 4 + 6 * (order - 4 * layer - 1) +
              (tetFaces ![layer, layer, layer, layer] (order - 4 * layer)).length := by
          rw [tetLayer_length, if_neg hr, tetFaces_length]; omega
        refine ⟨_, by rw [List.length_append, ← Nat.add_assoc, hidx], ?_⟩
        rw [writesFrom_append, hidx]
        refine List.Perm.append ?_ hw2
        unfold tetLayer
        rw [if_neg hr, writesFrom_append, writesFrom_append]
        refine List.Perm.append (List.Perm.append ?_ ?_) ?_
        · exact List.Perm.of_eq (by simp [writesFrom_cons, writesFrom_nil])
        · have := segments_range (tetEdges ![layer, layer, layer, layer] (order - 4 * layer))
              (order - 4 * layer - 1) (index + 4)
          simp only [List.length_cons, List.length_nil]
          refine (List.Perm.of_eq ?_).trans this
          apply List.flatMap_congr
          intro i _
          simp [tetEdges]
        · apply List.Perm.of_eq
          congr 1
          simp [tetEdges]
          omega
    · exact ⟨[], by simp [h], by simp [h, writesFrom]⟩

theorem tetLayers_length (order : Nat) : ∀ (fuel layer : Nat), order < 4 * (layer + fuel) →
    6 * (tetLayers order fuel layer).length =
      if 4 * layer ≤ order then
        (order - 4 * layer + 1) * (order - 4 * layer + 2) * (order - 4 * layer + 3) else 0 := by
  intro fuel
  induction fuel with
  | zero => intro layer h; simp [tetLayers]; omega
  | succ fuel ih =>
    intro layer h
    unfold tetLayers
    by_cases hl : 4 * layer ≤ order
    · simp only [hl, if_true, List.length_append, tetLayer_length, Nat.mul_add]
      have ih' := ih (layer + 1) (by omega)
      obtain ⟨r, hr⟩ : ∃ r, r = order - 4 * layer := ⟨_, rfl⟩
      rw [← hr]
      rw [ih']
      match r, hr with
      | 0, hr => have hn : ¬ 4 * (layer + 1) ≤ order := by omega
                 rw [if_neg hn]; simp
      | 1, hr => have hn : ¬ 4 * (layer + 1) ≤ order := by omega
                 rw [if_neg hn]; have := interior_length 1 (by omega); simp at this; simp [this]
      | 2, hr => have hn : ¬ 4 * (layer + 1) ≤ order := by omega
                 rw [if_neg hn]; have := interior_length 2 (by omega); simp at this; simp [this]
      | 3, hr =>
        have hn : ¬ 4 * (layer + 1) ≤ order := by omega
        rw [if_neg hn]
        have := interior_length 3 (by omega)
        simp at this; simp; omega
      | t + 4, hr =>
        have hn : 4 * (layer + 1) ≤ order := by omega
        have h4 : ¬ t + 4 = 0 := by omega
        rw [if_pos hn]
        have : order - 4 * (layer + 1) = t := by omega
        have hi := interior_length (t + 4) (by omega)
        have e1 : t + 4 - 1 = t + 3 := by omega
        have e2 : t + 4 - 2 = t + 2 := by omega
        rw [this, if_neg h4, e1]
        rw [e1, e2] at hi
        nlinarith [hi]
    · simp [hl]

theorem mem_interior {a b c r : Nat} (hr : r ≠ 0) (hs : a + b + c = r) (ha : 1 ≤ a) (hb : 1 ≤ b) (hc : 1 ≤ c) :
    (![a, b, c] : IVec 3) ∈ triLayers r r 1 :=
  mem_triLayers r r 1 (by omega) a b c hs ha hb hc

theorem mem_tetLayer {a b c d r l : Nat} (hs : a + b + c + d = r)
    (h0 : a = 0 ∨ b = 0 ∨ c = 0 ∨ d = 0) :
    (![l + a, l + b, l + c, l + d] : IVec 4) ∈ tetLayer ![l, l, l, l] r := by
  have e : ∀ x y z w : Nat, (![l, l, l, l] + ![x, y, z, w] : IVec 4) = ![l + x, l + y, l + z, l + w] := by
    intro x y z w; simp
  have f0 : ∀ x y z : Nat, toFace ![0, 1, 3] ![x, y, z] = ![x, y, 0, z] := by
    intro x y z; funext i; fin_cases i <;> rfl
  have f1 : ∀ x y z : Nat, toFace ![2, 3, 1] ![x, y, z] = ![0, z, x, y] := by
    intro x y z; funext i; fin_cases i <;> rfl
  have f2 : ∀ x y z : Nat, toFace ![0, 3, 2] ![x, y, z] = ![x, 0, z, y] := by
    intro x y z; funext i; fin_cases i <;> rfl
  have f3 : ∀ x y z : Nat, toFace ![0, 2, 1] ![x, y, z] = ![x, z, y, 0] := by
    intro x y z; funext i; fin_cases i <;> rfl
  unfold tetLayer
  by_cases hr : r = 0
  · have ha : a = 0 := by omega
    have hb : b = 0 := by omega
    have hc : c = 0 := by omega
    have hd : d = 0 := by omega
    simp [hr, ha, hb, hc, hd]
  · rw [if_neg hr]
    simp only [e, tetEdges, tetFaces, faceMapping, List.mem_append, List.mem_cons, List.not_mem_nil, or_false,
      List.mem_flatMap, exists_eq_or_imp, exists_eq_left, List.mem_map, List.mem_range]
    by_cases ha : a = 0 <;> by_cases hb : b = 0 <;> by_cases hc : c = 0 <;> by_cases hd : d = 0
    · omega
    · left; left; right; right; right; have : d = r := by omega
      simp [ha, hb, hc, this]
    · left; left; right; right; left; have : c = r := by omega
      simp [ha, hb, hd, this]
    · left; right; right; right; right; right; right
      refine ⟨d - 1, by omega, ?_⟩
      rw [show r - (d - 1 + 1) = c by omega, show d - 1 + 1 = d by omega, ha, hb]
    · left; left; right; left; have : b = r := by omega
      simp [ha, hd, hc, this]
    · left; right; right; right; right; right; left
      refine ⟨d - 1, by omega, ?_⟩
      rw [show r - (d - 1 + 1) = b by omega, show d - 1 + 1 = d by omega, ha, hc]
    · left; right; right; left
      refine ⟨c - 1, by omega, ?_⟩
      rw [show r - (c - 1 + 1) = b by omega, show c - 1 + 1 = c by omega, ha, hd]
    · right; right; left
      refine ⟨![c, d, b], mem_interior hr (by omega) (by omega) (by omega) (by omega), ?_⟩
      rw [f1, e, ha]
    · left; left; left; have : a = r := by omega
      simp [hb, hd, hc, this]
    · left; right; right; right; right; left
      refine ⟨d - 1, by omega, ?_⟩
      rw [show r - (d - 1 + 1) = a by omega, show d - 1 + 1 = d by omega, hb, hc]
    · left; right; right; right; left
      refine ⟨a - 1, by omega, ?_⟩
      rw [show r - (a - 1 + 1) = c by omega, show a - 1 + 1 = a by omega, hb, hd]
    · right; right; right; left
      refine ⟨![a, d, c], mem_interior hr (by omega) (by omega) (by omega) (by omega), ?_⟩
      rw [f2, e, hb]
    · left; right; left
      refine ⟨b - 1, by omega, ?_⟩
      rw [show r - (b - 1 + 1) = a by omega, show b - 1 + 1 = b by omega, hd, hc]
    · right; left
      refine ⟨![a, b, d], mem_interior hr (by omega) (by omega) (by omega) (by omega), ?_⟩
      rw [f0, e, hc]
    · right; right; right; right
      refine ⟨![a, c, b], mem_interior hr (by omega) (by omega) (by omega) (by omega), ?_⟩
      rw [f3, e, hd]
    · omega

theorem mem_tetLayers (order : Nat) : ∀ (fuel layer : Nat), order < 4 * (layer + fuel) →
    ∀ a b c d, a + b + c + d = order → layer ≤ a → layer ≤ b → layer ≤ c → layer ≤ d →
    (![a, b, c, d] : IVec 4) ∈ tetLayers order fuel layer := by
  intro fuel
  induction fuel with
  | zero => intro layer h a b c d hs ha hb hc hd; omega
  | succ fuel ih =>
    intro layer h a b c d hs ha hb hc hd
    unfold tetLayers
    rw [if_pos (by omega)]
    by_cases hz : a = layer ∨ b = layer ∨ c = layer ∨ d = layer
    · apply List.mem_append_left
      have := mem_tetLayer (a := a - layer) (b := b - layer) (c := c - layer) (d := d - layer) (l := layer)
        (r := order - 4 * layer) (by omega) (by omega)
      rwa [Nat.add_sub_cancel' ha, Nat.add_sub_cancel' hb, Nat.add_sub_cancel' hc,
        Nat.add_sub_cancel' hd] at this
    · apply List.mem_append_right
      exact ih (layer + 1) (by omega) a b c d hs (by omega) (by omega) (by omega) (by omega)

theorem tetLayers_count (order : Nat) :
    (tetLayers order (order + 1) 0).length = (order + 1) * (order + 2) * (order + 3) / 6 := by
  have := tetLayers_length order (order + 1) 0 (by omega)
  simp only [Nat.mul_zero, Nat.zero_le, if_true, Nat.sub_zero] at this
  omega

theorem baryTetrahedron_eq (order : Nat) :
    baryTetrahedron order = some (tetLayers order (order + 1) 0) := by
  obtain ⟨w, h1, h2⟩ := tetLoop_spec order (order + 1) 0 0
  unfold baryTetrahedron
  rw [h1, Nat.zero_add, tetLayers_count]
  simp only [Option.bind_eq_bind, Option.bind_some, if_true]
  exact fill_eq h2 (tetLayers_count order)

theorem tetLayers_perm (order : Nat) :
    (tetLayers order (order + 1) 0).Perm (List.Nat.antidiagonalTuple 4 order) := by
  apply perm_of_cover (List.Nat.nodup_antidiagonalTuple 4 order)
  · intro p hp
    rw [List.Nat.mem_antidiagonalTuple, Fin.sum_univ_four] at hp
    rw [vec4_eta p]
    exact mem_tetLayers order (order + 1) 0 (by omega) _ _ _ _ hp (Nat.zero_le _) (Nat.zero_le _)
      (Nat.zero_le _) (Nat.zero_le _)
  · have := length_tuple_four order
    rw [tetLayers_count]; omega

end Verif.Lattice
