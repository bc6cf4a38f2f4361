import Verif.Refine.MeshLemmas

/-! # The refinement of an element of a mesh uses the nodes of its neighbours -/
namespace Verif.Refine
open Verif.RefGeometry (Pt)

section
variable {V : Type*} [AddCommGroup V] [Module ℝ V]

private theorem mapM_some {α β : Type*} (f : α → Option β) (g : α → β) (l : List α) (h : ∀ x ∈ l, f x = some (g x)) :
    l.mapM f = some (l.map g) := by
  induction l with
  | nil => rfl
  | cons x xs ih =>
    rw [List.mapM_cons, h x (by simp), ih (fun y hy => h y (by simp [hy]))]
    rfl

/-- An element is refined after some of its neighbours: if the neighbours see their common faces in the same order, the
nodes they have made are used again, the missing ones are added, and each sub-element has its nodes where the table says.
What is missing: a neighbour that sees the face in another order (`refine_reversed_face`). -/
theorem refine_element_partial {d : Nat} (n : Name d) (ids : List Nat) (faces : List (Option (List (List Nat)))) (coords : List V)
    (hlen : ids.length = n.table.shape.corners) (hin : ∀ id ∈ ids, id < coords.length) (hfit : Fits n faces)
    (hplace : ∀ pos id : Nat, Shared n faces pos id →
      coords[id]? = nodeAt n (fun i => coords.getD (ids.getD i 0) 0) pos)
    (hcorner : ∀ pos id : Nat, Shared n faces pos id → pos < n.table.shape.corners → ids[pos]? = some id)
    (hone : ∀ pos id id' : Nat, Shared n faces pos id → Shared n faces pos id' → id = id') :
    ∃ kids coords' node, refineElement n ids faces coords = some (kids, coords') ∧
      Refined n ids faces coords kids coords' node := by
  obtain ⟨wnew, wsub, -⟩ := tables_fit n
  set C := n.table.shape.corners with hC
  set M := n.table.numNew with hM
  set P : Nat → V := fun i => coords.getD (ids.getD i 0) 0 with hP
  let W : Nat → Nat → Prop := fun pos id => (pos < C ∧ ids[pos]? = some id) ∨ (C ≤ pos ∧ Shared n faces pos id)
  have hW : ∀ pos i j : Nat, W pos i → W pos j → i = j := by
    rintro pos i j (⟨h, a⟩ | ⟨h, a⟩) (⟨h', b⟩ | ⟨h', b⟩)
    · rw [a] at b; exact Option.some.inj b
    · omega
    · omega
    · exact hone pos i j a b
  have hSW : ∀ pos id : Nat, Shared n faces pos id → W pos id := by
    intro pos id h
    by_cases hp : pos < C
    · exact Or.inl ⟨hp, hcorner pos id h hp⟩
    · exact Or.inr ⟨by omega, h⟩
  let slots0 : List (Option Nat) := ids.map some ++ List.replicate M none
  have hl0 : slots0.length = C + M := by simp [slots0, hlen]
  have h0lt : ∀ (pos : Nat), pos < C → slots0[pos]? = (ids[pos]?).map some := by
    intro pos h
    simp only [slots0]
    rw [List.getElem?_append_left (by simpa [hlen] using h), List.getElem?_map]
  have h0ge : ∀ (pos : Nat), C ≤ pos → pos < C + M → slots0[pos]? = some none := by
    intro pos h h'
    simp only [slots0]
    rw [List.getElem?_append_right (by simpa [hlen] using h), List.getElem?_replicate, if_pos (by simp [hlen]; omega)]
  have h0 : ∀ pos id : Nat, slots0[pos]? = some (some id) → W pos id := by
    intro pos id h
    by_cases hp : pos < C
    · rw [h0lt pos hp] at h
      cases hi : ids[pos]? with
      | none => rw [hi] at h; cases h
      | some v =>
        rw [hi] at h
        obtain rfl := Option.some.inj (Option.some.inj h)
        exact Or.inl ⟨hp, hi⟩
    · by_cases hp' : pos < C + M
      · rw [h0ge pos (by omega) hp'] at h; cases h
      · rw [List.getElem?_eq_none (by omega)] at h; cases h
  obtain ⟨s1, e1, f1, g1⟩ := putFaces_ok hW n (C + M) faces 0 slots0 hl0 h0 (by
    intro i subs hi
    rw [Nat.zero_add]
    obtain ⟨m, hm, hx⟩ := hfit i subs hi
    refine ⟨m, hm, fun h => ?_⟩
    obtain ⟨l, hl, hx⟩ := hx h
    refine ⟨l, hl, fun j sub hj => ?_⟩
    obtain ⟨lj, hlj, hx⟩ := hx j sub hj
    refine ⟨lj, hlj, fun k id hk => ?_⟩
    obtain ⟨hk', -⟩ := List.getElem?_eq_some_iff.mp hk
    obtain ⟨a, pos, ha, hp, hlt⟩ := hx k hk'
    exact ⟨a, pos, ha, hp, hlt, hSW pos id ⟨i, j, k, subs, sub, m, l, lj, a, hi, hj, hk, hm, h, hl, hlj, ha, hp⟩⟩)
  have hl1 : s1.length = C + M := f1.length.trans hl0
  have hs1 : ∀ pos id : Nat, Shared n faces pos id → s1[pos]? = some (some id) := by
    rintro pos id ⟨i, j, k, subs, sub, m, l, lj, a, hi, hj, hk, hm, h, hl, hlj, ha, hp⟩
    exact g1 i subs m l sub lj j k id a pos hi (by simpa using hm) h (by simpa using hl) hj hlj hk ha hp
  have hnone : ∀ pos : Nat, C ≤ pos → pos < C + M → (∀ id, ¬Shared n faces pos id) → s1[pos]? = some none := by
    intro pos h h' hno
    cases hh : s1[pos]? with
    | none => rw [List.getElem?_eq_none_iff] at hh; omega
    | some o =>
      cases o with
      | none => rfl
      | some id =>
        rcases f1.right pos id hh with ⟨a, -⟩ | ⟨-, b⟩
        · omega
        · exact absurd b (hno id)
  obtain ⟨s2, more, e2, k1, k2, k3, k4, k5⟩ := addNodes_ok (n.table.shape.place P) n.table.newNodes C s1 coords (by rw [hl1, wnew])
  have hold : ∀ i < C, ∃ id, ids[i]? = some id ∧ s2[i]? = some (some id) := by
    intro i hi
    have hi' : ids[i]? = some (ids[i]'(by omega)) := List.getElem?_eq_getElem _
    exact ⟨_, hi', k2 i _ (f1.keep i _ (by rw [h0lt i hi, hi']; rfl))⟩
  have hnew : ∀ pos, C ≤ pos → pos < C + M → (∀ id, ¬Shared n faces pos id) → ∃ id : Nat, s2[pos]? = some (some id) ∧
      coords.length ≤ id ∧ (coords ++ more)[id]? = nodeAt n P pos := by
    intro pos h h' hno
    have hq : n.table.newNodes[pos - C]? = some (n.table.newNodes[pos - C]'(by omega)) := List.getElem?_eq_getElem _
    obtain ⟨id, a, b, c⟩ := k4 (pos - C) _ hq (by rw [show C + (pos - C) = pos by omega]; exact hnone pos h h' hno)
    rw [show C + (pos - C) = pos by omega] at a
    refine ⟨id, a, b, ?_⟩
    rw [c, nodeAt, if_neg (by omega), ← hC, hq]
    rfl
  have hfull : ∀ pos < C + M, ∃ id, s2[pos]? = some (some id) := by
    intro pos h
    by_cases hp : pos < C
    · obtain ⟨id, -, b⟩ := hold pos hp; exact ⟨id, b⟩
    · by_cases hs : ∃ id, Shared n faces pos id
      · obtain ⟨id, b⟩ := hs; exact ⟨id, k2 _ _ (hs1 pos id b)⟩
      · obtain ⟨id, b, -⟩ := hnew pos (by omega) h (fun id b => hs ⟨id, b⟩)
        exact ⟨id, b⟩
  let node : Nat → Nat := fun pos => ((s2[pos]?).join).getD 0
  have hnode : ∀ pos id : Nat, s2[pos]? = some (some id) → node pos = id := by
    intro pos id h; simp [node, h]
  have happ : ∀ id : Nat, id < coords.length → (coords ++ more)[id]? = coords[id]? := fun id h => List.getElem?_append_left h
  have hkids : ∀ s < n.table.numSubs, ∃ l, n.table.subNodes s = some l ∧
      ((n.table.subNodes s).bind fun l => l.mapM fun k => (s2[k]?).join) = some (l.map node) := by
    intro s hs
    obtain ⟨sh, l, -, hl, -, hk⟩ := wsub s hs
    refine ⟨l, hl, ?_⟩
    rw [hl, Option.bind_some]
    refine mapM_some _ _ _ fun k hkk => ?_
    obtain ⟨id, h⟩ := hfull k (hk k hkk)
    rw [hnode k id h, h]; rfl
  have hall : (List.range n.table.numSubs).mapM (fun s => (n.table.subNodes s).bind fun l => l.mapM fun k => (s2[k]?).join) =
      some ((List.range n.table.numSubs).map fun s => ((n.table.subNodes s).getD []).map node) := by
    refine mapM_some _ _ _ fun s hs => ?_
    obtain ⟨l, hl, h⟩ := hkids s (List.mem_range.mp hs)
    rw [h, hl]; rfl
  refine ⟨(List.range n.table.numSubs).map fun s => ((n.table.subNodes s).getD []).map node, coords ++ more, node, ?_, ?_⟩
  · simp only [refineElement]
    rw [show putFaces n faces 0 (ids.map some ++ List.replicate n.table.numNew none) = some s1 from e1, Option.bind_some]
    show Option.map _ _ = _
    rw [e2, hall]; rfl
  · refine ⟨?_, ?_, ?_, ?_, List.prefix_append _ _, ?_, by simp, ?_⟩
    · intro i hi
      obtain ⟨id, a, b⟩ := hold i hi
      rw [a, hnode i id b]
    · intro pos id h
      exact hnode pos id (k2 _ _ (hs1 pos id h))
    · intro pos h h' hno
      obtain ⟨id, a, b, -⟩ := hnew pos h h' hno
      rw [hnode pos id a]; exact b
    · intro pos pos' h h' h'' hno hno'
      obtain ⟨id, a, -⟩ := hnew pos h (by omega) hno
      obtain ⟨id', a', -⟩ := hnew pos' (by omega) h'' hno'
      have b := hnone pos h (by omega) hno
      have b' := hnone pos' (by omega) h'' hno'
      rw [hnode pos id a, hnode pos' id' a']
      rw [show pos = C + (pos - C) by omega] at a b
      rw [show pos' = C + (pos' - C) by omega] at a' b'
      exact (k5 (pos - C) (pos' - C) id id' (by omega) (by omega) b b' a a').ne
    · intro pos hp
      by_cases hc : pos < C
      · obtain ⟨id, a, b⟩ := hold pos hc
        have hlt := hin id (List.mem_of_getElem? a)
        rw [hnode pos id b, happ id hlt, nodeAt, if_pos hc]
        simp only [hP, List.getD_eq_getElem?_getD, a, Option.getD_some]
        rw [List.getElem?_eq_getElem hlt]; rfl
      · by_cases hs : ∃ id, Shared n faces pos id
        · obtain ⟨id, b⟩ := hs
          rw [hnode pos id (k2 _ _ (hs1 pos id b)), ← hplace pos id b]
          refine happ id ?_
          have := hplace pos id b
          rw [nodeAt, if_neg (by omega), ← hC, List.getElem?_eq_getElem (show pos - C < n.table.newNodes.length by omega)] at this
          obtain ⟨h, -⟩ := List.getElem?_eq_some_iff.mp this
          exact h
        · obtain ⟨id, b, -, c⟩ := hnew pos (by omega) hp (fun id b => hs ⟨id, b⟩)
          rw [hnode pos id b, c]
    · intro s hs
      obtain ⟨l, hl, -⟩ := hkids s hs
      rw [List.getElem?_map, List.getElem?_range hs, Option.map_some, hl]; rfl

/-- A neighbour that sees the right face of a square from top to bottom has made the node `m` in the middle of it. When the
square is divided into a lower and an upper part, the two right corners are exchanged: the lower part has the nodes `a`, `e`
at the bottom, though the square has `a`, `b` there. -/
theorem refine_reversed_face (a b c e m : Nat) (coords : List V) :
    refineElement .square2 [a, b, c, e] [none, none, some [[e, m], [m, b]], none] coords =
      some ([[a, e, coords.length, m], [coords.length, m, c, b]],
        coords ++ [Shape.place .square (fun i => coords.getD ([a, b, c, e].getD i 0) 0) ![-1, 0]]) ∧
    refineElement .square2 [a, b, c, e] [none, none, some [[b, m], [m, e]], none] coords =
      some ([[a, b, coords.length, m], [coords.length, m, c, e]],
        coords ++ [Shape.place .square (fun i => coords.getD ([a, b, c, e].getD i 0) 0) ![-1, 0]]) :=
  ⟨rfl, rfl⟩

end

private theorem shared_case (pos id : Nat) (h : Shared .square2 [none, none, some [[1, 4], [4, 3]], none] pos id) :
    (pos = 1 ∧ id = 1) ∨ (pos = 5 ∧ id = 4) ∨ (pos = 3 ∧ id = 3) := by
  obtain ⟨i, j, k, subs, sub, m, l, lj, a, hi, hj, hk, hm, -, hl, hlj, ha, hp⟩ := h
  match i, hi, hm, hl with
  | i + 3, hi, _, _ => rcases i with _ | i <;> simp at hi
  | 2, hi, hm, hl =>
    obtain rfl : [[1, 4], [4, 3]] = subs := by simpa using hi
    obtain rfl : Name.line1 = m := by simpa [Name.table, Refine.square2] using hm
    obtain rfl : [1, 3, 5] = l := by simpa [Name.table, Refine.square2] using hl
    match j, hj, hlj with
    | 0, hj, hlj =>
      obtain rfl : [1, 4] = sub := by simpa using hj
      obtain rfl : [0, 2] = lj := by simpa [Name.table, Refine.line1] using hlj
      match k, hk, ha with
      | 0, hk, ha => simp at hk ha; subst hk ha; simp at hp; omega
      | 1, hk, ha => simp at hk ha; subst hk ha; simp at hp; omega
    | 1, hj, hlj =>
      obtain rfl : [4, 3] = sub := by simpa using hj
      obtain rfl : [2, 1] = lj := by simpa [Name.table, Refine.line1] using hlj
      match k, hk, ha with
      | 0, hk, ha => simp at hk ha; subst hk ha; simp at hp; omega
      | 1, hk, ha => simp at hk ha; subst hk ha; simp at hp; omega

/-- A case of `refine_element_partial`: the unit square is divided into a lower and an upper part, after the square to the
right of it has made the node 4 in the middle of their common edge. -/
example : ∃ kids coords' node, refineElement .square2 [0, 1, 2, 3] [none, none, some [[1, 4], [4, 3]], none]
      ([![0, 0], ![1, 0], ![0, 1], ![1, 1], ![1, 1 / 2]] : List (Pt 2)) = some (kids, coords') ∧
    Refined .square2 [0, 1, 2, 3] [none, none, some [[1, 4], [4, 3]], none]
      ([![0, 0], ![1, 0], ![0, 1], ![1, 1], ![1, 1 / 2]] : List (Pt 2)) kids coords' node := by
  refine refine_element_partial _ _ _ _ rfl (by decide) ?_ ?_ ?_ ?_
  · intro i subs hi
    match i, hi with
    | i + 3, hi => rcases i with _ | i <;> simp at hi
    | 2, hi =>
      obtain rfl : [[1, 4], [4, 3]] = subs := by simpa using hi
      refine ⟨.line1, rfl, fun _ => ⟨[1, 3, 5], rfl, fun j sub hj => ?_⟩⟩
      match j, hj with
      | 0, hj =>
        obtain rfl : [1, 4] = sub := by simpa using hj
        refine ⟨[0, 2], rfl, fun k hk => ?_⟩
        match k, hk with
        | 0, _ => exact ⟨0, 1, rfl, rfl, by decide⟩
        | 1, _ => exact ⟨2, 5, rfl, rfl, by decide⟩
      | 1, hj =>
        obtain rfl : [4, 3] = sub := by simpa using hj
        refine ⟨[2, 1], rfl, fun k hk => ?_⟩
        match k, hk with
        | 0, _ => exact ⟨2, 5, rfl, rfl, by decide⟩
        | 1, _ => exact ⟨1, 3, rfl, rfl, by decide⟩
  · intro pos id h
    rcases shared_case pos id h with ⟨rfl, rfl⟩ | ⟨rfl, rfl⟩ | ⟨rfl, rfl⟩
    · rfl
    · simp only [nodeAt, Name.table, Refine.square2, Shape.corners, Shape.place]
      norm_num [PhysMap.transform, PhysMap.square, PhysMap.reinit2]
    · rfl
  · intro pos id h hp
    rcases shared_case pos id h with ⟨rfl, rfl⟩ | ⟨rfl, rfl⟩ | ⟨rfl, rfl⟩
    · rfl
    · exact absurd hp (by decide)
    · rfl
  · intro pos id id' h h'
    have := shared_case pos id h
    have := shared_case pos id' h'
    omega

end Verif.Refine
