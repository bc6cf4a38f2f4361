import Verif.PreMesh.LemmasShare
import Verif.PreMesh.Props

/-! # Elements are joined along parts with the same nodes -/
namespace Verif.PreMesh
open Verif.ElementShape

variable {P : Type}

/-- The calls of a mesh reader (MeshFactory.h:79-152): nodes, coordinates, then elements. -/
def reader (n : Nat) (coords : List (Nat × P)) (els : List (List Nat × String)) : List (Op P) :=
  .addNodes n :: (coords.map fun c => .addNodeCoordinate c.1 c.2) ++ els.map fun e => .addElement e.1 e.2

theorem conforming_prefix (dim : Nat) (a b : List (Shape × List Nat)) (h : Conforming dim (a ++ b)) : Conforming dim a :=
  ⟨fun x hx => h.1 x (List.mem_append_left _ hx), fun d h0 h1 x hx y hy =>
    h.2 d h0 h1 x (List.mem_append_left _ hx) y (List.mem_append_left _ hy)⟩

theorem run_append (shapes : List Shape) (dim : Nat) (a b : List (Op P)) : ∀ m : Mesh P,
    run shapes dim m (a ++ b) = (run shapes dim m a).bind fun m' => run shapes dim m' b := by
  induction a with
  | nil => intro m; rfl
  | cons op a ih =>
    intro m
    simp only [List.cons_append, run, Option.bind_eq_bind]
    cases step shapes dim m op with
    | none => rfl
    | some m1 => simp only [Option.bind_some]; exact ih m1

theorem addNodes_spec (n : Nat) : ∀ m : Mesh P, (addNodes m n).elems = m.elems ∧ (addNodes m n).coords = m.coords ∧
    ((addNodes m n).ents 0).length = (m.ents 0).length + n := by
  induction n with
  | zero => intro m; simp [addNodes]
  | succ n ih =>
    intro m
    obtain ⟨h1, h2, h3⟩ := ih (addNode m)
    refine ⟨h1, h2, ?_⟩
    rw [addNodes, h3]; simp [addNode, newEntity, upd_self]; omega

theorem run_coords (shapes : List Shape) (dim : Nat) (coords : List (Nat × P)) : ∀ m : Mesh P,
    run shapes dim m (coords.map fun c => Op.addNodeCoordinate c.1 c.2) =
      some { m with coords := m.coords ++ coords.map fun c => ⟨some c.1, c.2⟩ } := by
  induction coords with
  | nil => intro m; simp [run]
  | cons c coords ih =>
    intro m
    simp only [List.map_cons, run, step, Option.bind_eq_bind, Option.bind_some]
    rw [ih]; simp [addNodeCoordinate]

/-- **C54.** A reader that hands over elements that fit together always succeeds, and parts of elements are the same
entity of the mesh exactly when they have the same nodes. The coordinates are those of the reader. -/
theorem reader_shared (shapes : List Shape) (dim : Nat) (hdim : 0 < dim) (hsh : ShapesOk shapes dim) (n : Nat)
    (coords : List (Nat × P)) (hcoords : ∀ c ∈ coords, c.1 < n) (els : List (List Nat × String))
    (given : List (Shape × List Nat)) (hlen : given.length = els.length)
    (hgiven : ∀ (i : Nat) (x : List Nat × String) (g : Shape × List Nat), els[i]? = some x → given[i]? = some g →
      findGeometry shapes x.1.length = some g.1 ∧ x.1.mapM (fun c => (coords[c]?).map Prod.fst) = some g.2)
    (hc : Conforming dim given) :
    ∃ m, run shapes dim Mesh.empty (reader n coords els) = some m ∧ Consistent shapes dim m ∧ Shared dim m ∧
      elemNodes m = given ∧ m.coords = coords.map (fun c => ⟨some c.1, c.2⟩) ∧ (m.ents 0).length = n := by
  obtain ⟨s1, s2, s3⟩ := addNodes_spec n (Mesh.empty : Mesh P)
  have key : ∀ k, k ≤ els.length → ∃ m, run shapes dim Mesh.empty (reader n coords (els.take k)) = some m ∧ Shared dim m ∧
      elemNodes m = given.take k ∧ m.coords = coords.map (fun c => ⟨some c.1, c.2⟩) ∧ (m.ents 0).length = n := by
    intro k
    induction k with
    | zero =>
      intro _
      refine ⟨⟨(addNodes (Mesh.empty : Mesh P) n).elems, coords.map (fun c => ⟨some c.1, c.2⟩), (addNodes (Mesh.empty : Mesh P) n).ents,
        (addNodes (Mesh.empty : Mesh P) n).zones⟩, ?_, ?_, ?_, ?_, ?_⟩
      · simp only [reader, List.take_zero, List.map_nil, List.append_nil, run, step, Option.bind_eq_bind, Option.bind_some]
        rw [run_coords, s2]; simp [Mesh.empty]
      · intro d _ _ e e' el el' i i' k k' ns ns' h
        simp only [s1] at h
        simp [Mesh.empty] at h
      · simp only [elemNodes, s1, List.take_zero]; rfl
      · rfl
      · simpa [Mesh.empty] using s3
    | succ k ih =>
      intro hk
      obtain ⟨m, h1, h2, h3, h4, h5⟩ := ih (by omega)
      have hx := List.getElem?_eq_getElem (show k < els.length by omega)
      have hg := List.getElem?_eq_getElem (show k < given.length by omega)
      obtain ⟨a1, a2⟩ := hgiven k _ _ hx hg
      have hcon := run_consistent shapes dim hdim _ m h1
      have hnodes : els[k].1.mapM (fun c => (m.coords[c]?).bind (·.node)) = some given[k].2 := by
        rw [← a2, h4]
        apply mapM_eq
        intro c _
        rw [List.getElem?_map]
        cases coords[c]? <;> simp
      have htake : given.take (k + 1) = given.take k ++ [given[k]] := by rw [List.take_add_one, hg]; rfl
      obtain ⟨m', g1, g2, g3⟩ := addElement_share shapes dim hdim hsh m hcon h2 els[k].1 els[k].2 given[k].2 given[k].1 hnodes
        (by
          intro x hx
          have hin : ∀ c ∈ els[k].1, ∃ y, (coords[c]?).map Prod.fst = some y := by
            intro c hc'
            cases hcc : (coords[c]?).map Prod.fst with
            | some y => exact ⟨y, rfl⟩
            | none =>
              exfalso
              have hnone : ∀ l : List Nat, c ∈ l → l.mapM (fun c => (coords[c]?).map Prod.fst) = none := by
                intro l
                induction l with
                | nil => intro h; cases h
                | cons a l ihl =>
                  intro h
                  rw [List.mapM_cons]
                  rcases List.mem_cons.1 h with rfl | h6
                  · simp [hcc]
                  · rw [ihl h6]; cases Option.map Prod.fst coords[a]? <;> rfl
              rw [hnone _ hc'] at a2; cases a2
          obtain ⟨r, b1, _, _, b4⟩ := mapM_get (fun c => (coords[c]?).map Prod.fst) els[k].1 hin
          rw [a2] at b1; cases b1
          obtain ⟨c, _, hc2⟩ := (b4 x).1 hx
          rw [Option.map_eq_some_iff] at hc2
          obtain ⟨y, hy, rfl⟩ := hc2
          rw [h5]; exact hcoords y (List.mem_of_getElem? hy))
        a1 (by
          rw [h3, ← htake]
          exact conforming_prefix dim _ (given.drop (k + 1)) (by rw [List.take_append_drop]; exact hc))
      refine ⟨m', ?_, g2, by rw [g3, h3, htake], ?_, ?_⟩
      · have : reader n coords (els.take (k + 1)) = reader n coords (els.take k) ++ [.addElement els[k].1 els[k].2] := by
          simp only [reader]
          rw [List.take_add_one, hx, List.map_append, ← List.append_assoc]; rfl
        rw [this, run_append, h1]
        simp [run, step, g1]
      · obtain ⟨el, _, _, _, c1, _⟩ := addElement_spec shapes dim hdim m m' _ _ hcon g1
        rw [c1, h4]
      · obtain ⟨el, _, _, _, _, c1, _⟩ := addElement_spec shapes dim hdim m m' _ _ hcon g1
        rw [c1, h5]
  obtain ⟨m, h1, h2, h3, h4⟩ := key els.length (Nat.le_refl _)
  rw [List.take_length] at h1
  refine ⟨m, h1, run_consistent shapes dim hdim _ m h1, h2, ?_, h4⟩
  rw [h3, ← hlen, List.take_length]

/-- **C54.** The elements connected to an entity are those that have a part with its nodes. -/
theorem shared_elements (shapes : List Shape) (dim : Nat) (m : Mesh P) (hcon : Consistent shapes dim m) (hs : Shared dim m)
    (d : Nat) (hd : 0 < d) (hdd : d < dim) (e i k : Nat) (el : Elem) (ns : List Nat) (he : m.elems[e]? = some el)
    (hk : (el.inc d)[i]? = some k) (hns : partNodes el.shape (el.inc 0) d i = some ns) :
    ∃ ent, (m.ents d)[k]? = some ent ∧ ∀ (e' i' : Nat) (el' : Elem) (ns' : List Nat), m.elems[e']? = some el' →
      partNodes el'.shape (el'.inc 0) d i' = some ns' → ((e', i') ∈ ent.inc ↔ ∀ n, n ∈ ns ↔ n ∈ ns') := by
  obtain ⟨ent, h1, h2⟩ := (hcon.both d hdd e i k).1 ⟨el, he, hk⟩
  refine ⟨ent, h1, ?_⟩
  intro e' i' el' ns' he' hns'
  have hlt : i' < (el'.inc d).length := by
    rw [(hcon.full el' (List.mem_of_getElem? he')).2 d hdd]
    unfold partNodes at hns'
    cases hp : (el'.shape.parts d)[i']? with
    | none => simp [hp] at hns'
    | some p => exact (List.getElem?_eq_some_iff.1 hp).1
  have hk' := List.getElem?_eq_getElem hlt
  have := hs d hd hdd e e' el el' i i' k _ ns ns' he he' hk hk' hns hns'
  rw [← this]
  constructor
  · intro hmem
    obtain ⟨el2, a1, a2⟩ := (hcon.both d hdd e' i' k).2 ⟨ent, h1, hmem⟩
    rw [he'] at a1; cases a1
    rw [hk'] at a2; cases a2; rfl
  · intro heq
    obtain ⟨ent2, a1, a2⟩ := (hcon.both d hdd e' i' k).1 ⟨el', he', by rw [hk', heq]⟩
    rw [h1] at a1; cases a1; exact a2

theorem apart_of_pairwise (s : Shape) (d : Nat) (h : (s.parts d).Pairwise (fun p q => ¬ p ⊆ q ∧ ¬ q ⊆ p)) (i j : Nat)
    (p q : List Nat) (hi : (s.parts d)[i]? = some p) (hj : (s.parts d)[j]? = some q) (hs : p ⊆ q) : i = j := by
  rw [List.pairwise_iff_getElem] at h
  obtain ⟨hi1, hi2⟩ := List.getElem?_eq_some_iff.1 hi
  obtain ⟨hj1, hj2⟩ := List.getElem?_eq_some_iff.1 hj
  rcases Nat.lt_trichotomy i j with h1 | h1 | h1
  · have := (h i j hi1 hj1 h1).1
    rw [hi2, hj2] at this; exact absurd hs this
  · exact h1
  · have := (h j i hj1 hi1 h1).2
    rw [hi2, hj2] at this; exact absurd hs this

/-- **C54.** The shapes of the preprocessor meet the conditions. -/
theorem hpgemShapes_shapesOk (dim : Nat) : ShapesOk (hpgemShapes dim) dim := by
  have hok := hpgemShapes_ok dim
  refine ⟨fun s hs => (hok s hs).2, fun s hs => ?_, ?_⟩
  · have h := (hok s hs).1
    exact ⟨h.pos, h.vertex, h.element, fun d p hp => ⟨h.nodup d p hp, h.bound d p hp, h.nonempty d p hp⟩, h.above⟩
  · intro s hs d i j p q hi hj hsub
    refine apart_of_pairwise s d ?_ i j p q hi hj hsub
    by_cases hd : d ≤ dim
    · match dim, hs with
      | 1, hs =>
        simp only [hpgemShapes, List.mem_cons, List.not_mem_nil, or_false] at hs
        rcases hs with rfl | rfl <;> (clear hi hj; revert d; decide +kernel)
      | 2, hs =>
        simp only [hpgemShapes, List.mem_cons, List.not_mem_nil, or_false] at hs
        rcases hs with rfl | rfl | rfl <;> (clear hi hj; revert d; decide +kernel)
      | 3, hs =>
        simp only [hpgemShapes, List.mem_cons, List.not_mem_nil, or_false] at hs
        rcases hs with rfl | rfl | rfl | rfl | rfl <;> (clear hi hj; revert d; decide +kernel)
    · rw [(hok s hs).1.above d (by rw [(hok s hs).2]; omega)]
      exact List.Pairwise.nil

theorem mapM_inj {α β : Type} (f : α → Option β) (l : List α) : ∀ r : List β, l.mapM f = some r → l.Nodup →
    (∀ a ∈ l, ∀ b ∈ l, f a = f b → a = b) → r.length = l.length ∧ r.Nodup ∧ ∀ y ∈ r, ∃ x ∈ l, f x = some y := by
  induction l with
  | nil => intro r h _ _; simp at h; subst h; simp
  | cons a l ih =>
    intro r h hnd hinj
    simp only [List.mapM_cons, Option.bind_eq_bind, Option.bind_eq_some_iff, Option.pure_def, Option.some.injEq] at h
    obtain ⟨y, hy, r', hr', rfl⟩ := h
    rw [List.nodup_cons] at hnd
    obtain ⟨h1, h2, h3⟩ := ih r' hr' hnd.2 (fun x hx z hz => hinj x (by simp [hx]) z (by simp [hz]))
    refine ⟨by simp [h1], ?_, ?_⟩
    · rw [List.nodup_cons]
      refine ⟨fun hc => ?_, h2⟩
      obtain ⟨x, hx, hfx⟩ := h3 y hc
      have := hinj a (by simp) x (by simp [hx]) (hy.trans hfx.symm)
      exact hnd.1 (this ▸ hx)
    · intro z hz
      rcases List.mem_cons.1 hz with rfl | hz
      · exact ⟨a, by simp, hy⟩
      · obtain ⟨x, hx, hfx⟩ := h3 z hz
        exact ⟨x, by simp [hx], hfx⟩

/-- **C54.** Elements without repeated nodes always fit together when all parts of one dimension have the same number of
nodes, as in meshes of triangles, of squares, of tetrahedra or of cubes. -/
theorem conforming_of_size (dim : Nat) (els : List (Shape × List Nat)) (size : Nat → Nat)
    (hnd : ∀ x ∈ els, x.2.Nodup) (hsize : ∀ x ∈ els, ∀ d, 0 < d → d < dim → ∀ p ∈ x.1.parts d, p.length = size d ∧ p.Nodup) :
    Conforming dim els := by
  refine ⟨hnd, ?_⟩
  intro d h0 h1 x hx y hy i j ns ns' hi hj hs
  have key : ∀ x ∈ els, ∀ (i : Nat) (ns : List Nat), partNodes x.1 x.2 d i = some ns → ns.length = size d ∧ ns.Nodup := by
    intro x hx i ns hi
    unfold partNodes at hi
    cases hp : (x.1.parts d)[i]? with
    | none => simp [hp] at hi
    | some p =>
      simp only [hp, Option.bind_eq_bind, Option.bind_some] at hi
      obtain ⟨a1, a2⟩ := hsize x hx d h0 h1 p (List.mem_of_getElem? hp)
      have hin : ∀ l ∈ p, ∃ v, x.2[l]? = some v := by
        intro l hl
        cases hv : x.2[l]? with
        | some v => exact ⟨v, rfl⟩
        | none =>
          exfalso
          have hnone : ∀ q : List Nat, l ∈ q → q.mapM (fun l => x.2[l]?) = none := by
            intro q
            induction q with
            | nil => intro h; cases h
            | cons a q ih =>
              intro h
              rw [List.mapM_cons]
              rcases List.mem_cons.1 h with rfl | h2
              · simp [hv]
              · rw [ih h2]; cases x.2[a]? <;> rfl
          rw [hnone p hl] at hi; cases hi
      obtain ⟨b1, b2, _⟩ := mapM_inj (fun l => x.2[l]?) p ns hi a2 (by
        intro a ha b hb hab
        obtain ⟨v, hv⟩ := hin a ha
        exact (List.getElem?_inj (List.getElem?_eq_some_iff.1 hv).1 (hnd x hx)).1 hab)
      exact ⟨by omega, b2⟩
  obtain ⟨a1, a2⟩ := key x hx i ns hi
  obtain ⟨b1, b2⟩ := key y hy j ns' hj
  have hp := (List.subperm_of_subset a2 hs).perm_of_length_le (by omega)
  exact hp.symm.subset

/-- The hypotheses of `reader_shared` for a square of two triangles. -/
example : Conforming 2 [(triangle, [0, 1, 2]), (triangle, [1, 3, 2])] := by
  apply conforming_of_size 2 _ (fun _ => 2) (by decide)
  intro x hx d h0 h1
  have hd : d = 1 := by omega
  subst hd
  simp only [List.mem_cons, List.not_mem_nil, or_false] at hx
  rcases hx with rfl | rfl <;> decide

/-- Without the condition parts of different size are confused: the triangular face of a tetrahedron on three corners of
the base of a pyramid becomes the base itself. -/
example : (run (hpgemShapes 3) 3 Mesh.empty (reader 6 ((List.range 6).map fun i => (i, ())) [([0, 1, 2, 3, 4], ""), ([1, 2, 3, 5], "")])).map
    (fun m => m.elems.map (fun el => el.inc 2)) = some [[0, 1, 2, 3, 4], [5, 6, 0, 7]] := by decide +kernel

end Verif.PreMesh
