import Verif.ElementShape.Model

/-! # Adjacency of the parts of an element shape -/
namespace Verif.ElementShape

/-- What the constructor of a shape is given: vertex `i` has the only node `i`, the whole element has all nodes, no
part repeats a node and all nodes exist. -/
structure Shape.Ok (s : Shape) : Prop where
  pos : 0 < s.dim
  vertex : s.parts 0 = vertices (s.count 0)
  element : s.parts s.dim = [List.range (s.count 0)]
  nodup : ∀ d, ∀ p ∈ s.parts d, p.Nodup
  bound : ∀ d, ∀ p ∈ s.parts d, ∀ n ∈ p, n < s.count 0
  nonempty : ∀ d, ∀ p ∈ s.parts d, p ≠ []
  above : ∀ d, s.dim < d → s.parts d = []

theorem sort_mem (l : List Nat) (x : Nat) : x ∈ sort l ↔ x ∈ l := by
  unfold sort; exact List.mem_insertionSort _

theorem sort_strict (l : List Nat) (h : l.Nodup) : (sort l).Pairwise (· < ·) := by
  unfold sort
  have h1 := List.pairwise_insertionSort (· ≤ ·) l
  have h2 : (l.insertionSort (· ≤ ·)).Nodup := (List.perm_insertionSort _ l).nodup_iff.2 h
  have := h1.and h2
  exact this.imp (fun ⟨a, b⟩ => lt_of_le_of_ne a b)

theorem includes_iff (a b : List Nat) (ha : a.Pairwise (· < ·)) (hb : b.Pairwise (· < ·)) :
    includes a b = true ↔ ∀ x ∈ b, x ∈ a := by
  induction a generalizing b with
  | nil =>
    cases b with
    | nil => simp [includes]
    | cons y ys =>
      simp only [includes, Bool.false_eq_true, false_iff]
      intro h; exact absurd (h y (by simp)) (by simp)
  | cons x xs ih =>
    cases b with
    | nil => simp [includes]
    | cons y ys =>
      rw [List.pairwise_cons] at ha hb
      unfold includes
      split
      · rename_i h
        simp only [Bool.false_eq_true, false_iff]
        intro hall
        rcases List.mem_cons.1 (hall y (by simp)) with h1 | h1
        · omega
        · have := ha.1 y h1; omega
      · split
        · rename_i h1 h2
          rw [ih _ ha.2 (List.pairwise_cons.2 hb)]
          constructor
          · intro h z hz; exact List.mem_cons_of_mem _ (h z hz)
          · intro h z hz
            rcases List.mem_cons.1 (h z hz) with h3 | h3
            · rcases List.mem_cons.1 hz with h4 | h4
              · omega
              · have := hb.1 z h4; omega
            · exact h3
        · rename_i h1 h2
          have hxy : x = y := by omega
          subst hxy
          rw [ih _ ha.2 hb.2]
          constructor
          · intro h z hz
            rcases List.mem_cons.1 hz with h4 | h4
            · simp [h4]
            · exact List.mem_cons_of_mem _ (h z h4)
          · intro h z hz
            rcases List.mem_cons.1 (h z (by simp [hz])) with h3 | h3
            · have := hb.1 z hz; omega
            · exact h3

/-- **C53.** Two parts of different dimensions are adjacent exactly when the nodes of the smaller one are among the
nodes of the larger one. -/
theorem adjacent_iff_nodes (s : Shape) (h : s.Ok) (d t i : Nat) (p : List Nat) (hp : (s.parts d)[i]? = some p)
    (ht : 0 < t) (htd : t ≠ d) :
    ∃ r, s.adjacent d t i = some r ∧
      ∀ j, j ∈ r ↔ ∃ q, (s.parts t)[j]? = some q ∧ if t < d then q ⊆ p else p ⊆ q := by
  refine ⟨connected s d t p, by simp [Shape.adjacent, hp, htd, Nat.pos_iff_ne_zero.1 ht], ?_⟩
  intro j
  simp only [connected, List.mem_filter, List.mem_range, Shape.count]
  have hpn := h.nodup d p (List.mem_of_getElem? hp)
  cases hq : (s.parts t)[j]? with
  | none => simp
  | some q =>
    have hqn := h.nodup t q (List.mem_of_getElem? hq)
    have hj : j < (s.parts t).length := (List.getElem?_eq_some_iff.1 hq).1
    simp only [hj, true_and, Option.some.injEq, exists_eq_left']
    split
    · rw [includes_iff _ _ (sort_strict _ hpn) (sort_strict _ hqn)]
      simp only [sort_mem]; rfl
    · rw [includes_iff _ _ (sort_strict _ hqn) (sort_strict _ hpn)]
      simp only [sort_mem]; rfl

/-- **C53.** The nodes of a part are those the shape was defined with, in that order. -/
theorem adjacent_nodes (s : Shape) (d i : Nat) : s.adjacent d 0 i = (s.parts d)[i]? := by
  simp only [Shape.adjacent]; cases (s.parts d)[i]? <;> simp

/-- **C53.** Adjacency between parts of different dimensions is symmetric. -/
theorem adjacent_symm (s : Shape) (h : s.Ok) (d t i j : Nat) (htd : t ≠ d) (rd rt : List Nat)
    (hi : s.adjacent d t i = some rd) (hj : s.adjacent t d j = some rt) : j ∈ rd ↔ i ∈ rt := by
  have vert : ∀ (k : Nat) (p : List Nat), (s.parts 0)[k]? = some p → p = [k] := by
    intro k p hk
    rw [h.vertex, vertices] at hk
    simp [List.getElem?_map, List.getElem?_range] at hk
    obtain ⟨a, ha, rfl⟩ := hk
    have := List.getElem?_eq_some_iff.1 ha
    simp at this; simp [this.2]
  have key : ∀ (d t i : Nat) (p rd : List Nat), 0 < t → t ≠ d → (s.parts d)[i]? = some p → s.adjacent d t i = some rd →
      ∀ j : Nat, j ∈ rd ↔ ∃ q, (s.parts t)[j]? = some q ∧ if t < d then q ⊆ p else p ⊆ q := by
    intro d t i p rd h0 h1 h2 h3
    obtain ⟨r, hr, hall⟩ := adjacent_iff_nodes s h d t i p h2 h0 h1
    rw [h3] at hr; cases hr; exact hall
  obtain ⟨p, hp⟩ : ∃ p, (s.parts d)[i]? = some p := by
    unfold Shape.adjacent at hi; cases hp : (s.parts d)[i]? <;> simp_all
  obtain ⟨q, hq⟩ : ∃ q, (s.parts t)[j]? = some q := by
    unfold Shape.adjacent at hj; cases hp : (s.parts t)[j]? <;> simp_all
  rcases Nat.eq_zero_or_pos t with ht | ht
  · subst ht
    rw [adjacent_nodes, hp] at hi; cases hi
    have hd : 0 < d := by omega
    have := vert j q hq
    subst this
    rw [key 0 d j [j] rt hd (by omega) hq hj]
    simp [hp]
  · rcases Nat.eq_zero_or_pos d with hd | hd
    · subst hd
      rw [adjacent_nodes, hq] at hj; cases hj
      have := vert i p hp
      subst this
      rw [key 0 t i [i] rd ht (by omega) hp hi]
      simp [hq]
    · rw [key d t i p rd ht htd hp hi, key t d j q rt hd (Ne.symm htd) hq hj]
      simp only [hp, hq, Option.some.injEq, exists_eq_left']
      rcases Nat.lt_or_gt_of_ne htd with h1 | h1
      · have h2 : ¬ d < t := by omega
        simp [h1, h2]
      · have h2 : ¬ t < d := by omega
        simp [h1, h2]

/-- **C53 (finding).** Asked for the parts of its own dimension, part `i` of dimension `d` answers with the single index
`d` instead of `i` — elementShape.h:262 documents "the edge itself". -/
theorem adjacent_self (s : Shape) (d i : Nat) (hd : 0 < d) (hi : i < s.count d) : s.adjacent d d i = some [d] := by
  have : (s.parts d)[i]? = some (s.parts d)[i] := List.getElem?_eq_getElem hi
  simp [Shape.adjacent, this, Nat.pos_iff_ne_zero.1 hd]

/-- The first edge of a triangle is reported to be its second one, and the element itself lies outside the list. -/
example : triangle.adjacent 1 1 0 = some [1] ∧ triangle.adjacent 2 2 0 = some [2] ∧ triangle.count 2 = 1 := by decide

theorem ok_of_list (s : Shape) (h0 : 0 < s.dim) (h : s.parts 0 = vertices (s.count 0)) (h1 : s.parts s.dim = [List.range (s.count 0)])
    (hab : ∀ d, s.dim < d → s.parts d = [])
    (hall : ∀ d ≤ s.dim, ∀ p ∈ s.parts d, p.Nodup ∧ (∀ n ∈ p, n < s.count 0) ∧ p ≠ []) : s.Ok := by
  have get : ∀ d, ∀ p ∈ s.parts d, p.Nodup ∧ (∀ n ∈ p, n < s.count 0) ∧ p ≠ [] := by
    intro d p hp
    by_cases hd : d ≤ s.dim
    · exact hall d hd p hp
    · rw [hab d (by omega)] at hp; cases hp
  exact ⟨h0, h, h1, fun d p hp => (get d p hp).1, fun d p hp => (get d p hp).2.1, fun d p hp => (get d p hp).2.2, hab⟩

/-- **C53.** All shapes the preprocessor knows are well formed. -/
theorem hpgemShapes_ok (d : Nat) : ∀ s ∈ hpgemShapes d, s.Ok ∧ s.dim = d := by
  intro s hs
  have above1 : ∀ n d, 1 < d → (lineShape n).parts d = [] := by
    intro n d hd; match d, hd with | d + 2, _ => rfl
  have above2 : ∀ e n d, 2 < d → (shape2 e n).parts d = [] := by
    intro e n d hd; match d, hd with | d + 3, _ => rfl
  have above3 : ∀ f e n d, 3 < d → (shape3 f e n).parts d = [] := by
    intro f e n d hd; match d, hd with | d + 4, _ => rfl
  match d, hs with
  | 1, hs =>
    simp only [hpgemShapes, List.mem_cons, List.not_mem_nil, or_false] at hs
    rcases hs with rfl | rfl <;>
      exact ⟨ok_of_list _ (by decide) rfl rfl (above1 _) (by decide), rfl⟩
  | 2, hs =>
    simp only [hpgemShapes, List.mem_cons, List.not_mem_nil, or_false] at hs
    rcases hs with rfl | rfl | rfl <;>
      exact ⟨ok_of_list _ (by decide) rfl rfl (above2 _ _) (by decide), rfl⟩
  | 3, hs =>
    simp only [hpgemShapes, List.mem_cons, List.not_mem_nil, or_false] at hs
    rcases hs with rfl | rfl | rfl | rfl | rfl <;>
      exact ⟨ok_of_list _ (by decide) rfl rfl (above3 _ _ _) (by decide +kernel), rfl⟩

/-- The edges at the apex of a pyramid, the faces at its first base edge and the nodes of its base. -/
example : pyramid.adjacent 0 1 0 = some [0, 1, 2, 3] ∧ pyramid.adjacent 1 2 4 = some [0, 3] ∧
    pyramid.adjacent 2 0 0 = some [3, 4, 1, 2] := by decide +kernel

end Verif.ElementShape
