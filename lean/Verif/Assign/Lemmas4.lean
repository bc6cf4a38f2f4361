import Verif.Assign.Lemmas3

set_option linter.all false
namespace Verif.Assign
open Verif.Basis Verif.ElementData

theorem valid_iff (st : St) : st.Valid ↔ ∀ e u p i, st.pos e u p = some i → i < st.coll.length := by
  constructor
  · intro h e u p i hp
    simp only [St.pos, posOf, Option.bind_eq_some_iff, Option.join_eq_some_iff] at hp
    obtain ⟨b, hb, l, hl, hi⟩ := hp
    exact h b (List.mem_of_getElem? hb) l (List.mem_of_getElem? hl) i (List.mem_of_getElem? hi)
  · intro h b hb l hl i hi
    obtain ⟨e, he⟩ := List.mem_iff_getElem?.1 hb
    obtain ⟨u, hu⟩ := List.mem_iff_getElem?.1 hl
    obtain ⟨p, hp⟩ := List.mem_iff_getElem?.1 hi
    exact h e u p i (by simp [St.pos, posOf, he, hu, hp])

theorem run_valid {m : Mesh} {us : List Nat} (cs : List Call) {st st' : St} (h : run m us cs st = some st')
    (hv : st.Valid) : st'.Valid := by
  induction cs generalizing st with
  | nil => cases h; exact hv
  | cons c cs ih =>
    simp only [run, Option.bind_eq_some_iff] at h
    obtain ⟨s, hs, h⟩ := h
    refine ih h ?_
    obtain ⟨a1, a2, a3, a4⟩ := exec_spec hs
    rw [valid_iff] at hv ⊢
    intro e u p i hp
    rw [a3] at hp
    rw [a1]
    split at hp
    · rename_i hu
      rcases hh : hit m e p c with _ | x
      · rw [hh] at hp; exact hv e u p i (by simpa using hp)
      · rw [hh] at hp
        simp only [Option.some_or, Option.some.injEq] at hp
        subst hp
        exact exec_hit_lt (by rintro rfl; simp at hu) hs hh
    · exact hv e u p i hp

theorem place_face (el : Elem) (f p : Nat) : el.place (.face f) = some p ↔ f < el.faces ∧ p = 1 + f := by
  simp only [Elem.place]; split <;> simp_all <;> omega

theorem place_edge (el : Elem) (f p : Nat) : el.place (.edge f) = some p ↔ f < el.edges ∧ p = 1 + el.faces + f := by
  simp only [Elem.place]; split <;> simp_all <;> omega

theorem place_node (el : Elem) (f p : Nat) :
    el.place (.node f) = some p ↔ f < el.nodes ∧ p = 1 + el.faces + el.edges + f := by
  simp only [Elem.place]; split <;> simp_all <;> omega

variable {m : Mesh} {coll : List FSet} {ix : Index} {order : Nat}

/-- the sets of an element in the collection -/
structure At (order : Nat) (coll : List FSet) (ix : Index) (el : Elem) (s : Sets) (a : Nat) : Prop where
  ix : ix el.kind = some (a, s.faces.length, s.edges.length)
  sets : conforming order el.kind = some s
  blk : ∀ j x, (block s)[j]? = some x → coll[a + j]? = some x

theorem At.interior {el : Elem} {s : Sets} {a : Nat} (h : At order coll ix el s a) : coll[a]? = some s.interior :=
  h.blk 0 _ rfl

theorem At.face {el : Elem} {s : Sets} {a : Nat} (h : At order coll ix el s a) (j : Nat) (x : FSet)
    (hx : s.faces[j]? = some x) : coll[a + 1 + j]? = some x := by
  have := h.blk (j + 1) x (by
    simp only [block, List.getElem?_cons_succ, List.append_assoc]
    rw [List.getElem?_append_left (List.getElem?_eq_some_iff.1 hx).1, hx])
  rw [← this]; congr 1; omega

theorem At.edge {el : Elem} {s : Sets} {a : Nat} (h : At order coll ix el s a) (j : Nat) (x : FSet)
    (hx : s.edges[j]? = some x) : coll[a + s.faces.length + 1 + j]? = some x := by
  have := h.blk (s.faces.length + j + 1) x (by
    simp only [block, List.getElem?_cons_succ, List.append_assoc]
    rw [List.getElem?_append_right (by omega), Nat.add_sub_cancel_left,
      List.getElem?_append_left (List.getElem?_eq_some_iff.1 hx).1, hx])
  rw [← this]; congr 1; omega

theorem At.node {el : Elem} {s : Sets} {a : Nat} (h : At order coll ix el s a) (j : Nat) (x : FSet)
    (hx : s.nodes[j]? = some x) : coll[a + s.faces.length + s.edges.length + 1 + j]? = some x := by
  have := h.blk (s.faces.length + s.edges.length + j + 1) x (by
    simp only [block, List.getElem?_cons_succ]
    rw [List.getElem?_append_right (by simp)]
    rw [← hx]; congr 1; simp)
  rw [← this]; congr 1; omega

theorem At.mem_face {el : Elem} {s : Sets} {a : Nat} (h : At order coll ix el s a) (o f v : Nat) :
    v ∈ matching coll (a + 1) s.faces.length o f ↔
      ∃ j x, v = a + 1 + j ∧ s.faces[j]? = some x ∧ x.aim = some (o, f) :=
  mem_matching rfl h.face

theorem At.mem_edge {el : Elem} {s : Sets} {a : Nat} (h : At order coll ix el s a) (o f v : Nat) :
    v ∈ matching coll (a + s.faces.length + 1) s.edges.length o f ↔
      ∃ j x, v = a + s.faces.length + 1 + j ∧ s.edges[j]? = some x ∧ x.aim = some (o, f) :=
  mem_matching rfl h.edge

theorem At.face_unique {el : Elem} {s : Sets} {a : Nat} (h : At order coll ix el s a) {o f v w : Nat}
    (hv : v ∈ matching coll (a + 1) s.faces.length o f) (hw : w ∈ matching coll (a + 1) s.faces.length o f) : v = w := by
  obtain ⟨j, x, rfl, hx, ax⟩ := (h.mem_face o f v).1 hv
  obtain ⟨k, y, rfl, hy, ay⟩ := (h.mem_face o f w).1 hw
  rw [eq_of_aim (faces_nodup h.sets) hx hy (ax.trans ay.symm)]

theorem At.edge_unique {el : Elem} {s : Sets} {a : Nat} (h : At order coll ix el s a) {o f v w : Nat}
    (hv : v ∈ matching coll (a + s.faces.length + 1) s.edges.length o f)
    (hw : w ∈ matching coll (a + s.faces.length + 1) s.edges.length o f) : v = w := by
  obtain ⟨j, x, rfl, hx, ax⟩ := (h.mem_edge o f v).1 hv
  obtain ⟨k, y, rfl, hy, ay⟩ := (h.mem_edge o f w).1 hw
  rw [eq_of_aim (edges_nodup h.sets) hx hy (ax.trans ay.symm)]

theorem side_eq (hS : m.Sound) {r r' : Side} (h : r ∈ m.sides) (h' : r' ∈ m.sides) (he : r.elem = r'.elem)
    (hn : r.num = r'.num) : r = r' :=
  List.inj_on_of_nodup_map hS.sides h h' (by simp [he, hn])

theorem edge_eq (hS : m.Sound) {r r' : Side} (h : r ∈ m.edges.flatten) (h' : r' ∈ m.edges.flatten)
    (he : r.elem = r'.elem) (hn : r.num = r'.num) : r = r' :=
  List.inj_on_of_nodup_map hS.edges h h' (by simp [he, hn])

theorem corner_eq (hS : m.Sound) {r r' : Corner} (h : r ∈ m.nodes.flatten) (h' : r' ∈ m.nodes.flatten)
    (he : r.elem = r'.elem) (hn : r.num = r'.num) : r = r' :=
  List.inj_on_of_nodup_map hS.corners h h' (by simp [he, hn])

theorem real_of (hS : m.Sound) {n : List Corner} (hn : n ∈ m.nodes) {c : Corner} (hc : c ∈ n) {t : Nat}
    (ht : c.topological = some t) : Real n := by
  rcases (hS.node n hn).2 with h | h
  · rw [h c hc] at ht; cases ht
  · cases n with
    | nil => simp at hc
    | cons d l =>
      refine ⟨d, rfl, ?_⟩
      rw [Option.isSome_iff_ne_none]
      exact h d (by simp)

theorem hits_unique (hS : m.Sound) {cs : List Call} (hcs : allCalls m coll ix = some cs) {e p : Nat} {el : Elem}
    (hel : m.elems[e]? = some el) {s : Sets} {a : Nat} (hA : At order coll ix el s a) {v w : Nat}
    (hv : ∃ c ∈ cs, hit m e p c = some v) (hw : ∃ c ∈ cs, hit m e p c = some w) : v = w := by
  rw [all_hits hcs hel hA.ix] at hv hw
  rcases hv with ⟨r, hr, re, rp, rm⟩ | ⟨r, hr, re, rp, rm⟩ | ⟨-, n, hn, -, r, hr, re, rp, t, ht, rfl⟩
  · rw [place_face] at rp
    rcases hw with ⟨r', hr', re', rp', rm'⟩ | ⟨r', hr', re', rp', rm'⟩ | ⟨-, n', hn', -, r', hr', re', rp', t', ht', rfl⟩
    · rw [place_face] at rp'
      obtain rfl := side_eq hS hr hr' (re.trans re'.symm) (by omega)
      exact hA.face_unique rm rm'
    · rw [place_edge] at rp'; omega
    · rw [place_node] at rp'; omega
  · rw [place_edge] at rp
    rcases hw with ⟨r', hr', re', rp', rm'⟩ | ⟨r', hr', re', rp', rm'⟩ | ⟨-, n', hn', -, r', hr', re', rp', t', ht', rfl⟩
    · rw [place_face] at rp'; omega
    · rw [place_edge] at rp'
      obtain rfl := edge_eq hS hr hr' (re.trans re'.symm) (by omega)
      exact hA.edge_unique rm rm'
    · rw [place_node] at rp'; omega
  · rw [place_node] at rp
    rcases hw with ⟨r', hr', re', rp', rm'⟩ | ⟨r', hr', re', rp', rm'⟩ | ⟨-, n', hn', -, r', hr', re', rp', t', ht', rfl⟩
    · rw [place_face] at rp'; omega
    · rw [place_edge] at rp'; omega
    · rw [place_node] at rp'
      obtain rfl := corner_eq hS (List.mem_flatten.2 ⟨n, hn, hr⟩) (List.mem_flatten.2 ⟨n', hn', hr'⟩)
        (re.trans re'.symm) (by omega)
      rw [ht] at ht'; cases ht'; rfl

/-- what is at a place in the end -/
theorem pos_final (hS : m.Sound) {us : List Nat} {cs : List Call} (hcs : allCalls m coll ix = some cs) {st st' : St}
    (hrun : run m us cs st = some st') {e : Nat} {el : Elem}
    (hel : m.elems[e]? = some el) {s : Sets} {a : Nat} (hA : At order coll ix el s a) {u : Nat} (hu : u ∈ us)
    (h0 : ∀ p, st.pos e u p = if p = 0 then some a else none) (p v : Nat) :
    st'.pos e u p = some v ↔ (∃ c ∈ cs, hit m e p c = some v) ∨ (p = 0 ∧ v = a) := by
  obtain ⟨-, -, h3, -⟩ := run_spec cs hrun
  by_cases hx : ∃ x, ∃ c ∈ cs, hit m e p c = some x
  · obtain ⟨x, hx⟩ := hx
    have hall : ∀ c ∈ cs, hit m e p c = none ∨ hit m e p c = some x := by
      intro c hc
      rcases hh : hit m e p c with _ | y
      · exact Or.inl rfl
      · exact Or.inr (by rw [hits_unique hS hcs hel hA ⟨c, hc, hh⟩ hx])
    rw [((h3 e p x hall u).1 ⟨hu, hx⟩)]
    constructor
    · rintro h; cases h; exact Or.inl hx
    · rintro (h | ⟨rfl, -⟩)
      · rw [hits_unique hS hcs hel hA h hx]
      · rw [all_hits hcs hel hA.ix] at hx
        rcases hx with ⟨r, hr, re, rp, rm⟩ | ⟨r, hr, re, rp, rm⟩ | ⟨-, n, hn, -, r, hr, re, rp, t, ht, rfl⟩
        · rw [place_face] at rp; omega
        · rw [place_edge] at rp; omega
        · rw [place_node] at rp; omega
  · have hall : ∀ c ∈ cs, hit m e p c = none ∨ hit m e p c = some 0 := by
      intro c hc
      rcases hh : hit m e p c with _ | y
      · exact Or.inl rfl
      · exact absurd ⟨y, c, hc, hh⟩ hx
    rw [(h3 e p 0 hall u).2 (fun h => hx ⟨0, h.2⟩), h0]
    constructor
    · intro h
      split at h
      · cases h; rename_i hp; exact Or.inr ⟨hp, rfl⟩
      · cases h
    · rintro (h | ⟨rfl, rfl⟩)
      · exact absurd ⟨v, h⟩ hx
      · rfl

theorem conforms_of (hS : m.Sound) {us : List Nat} {cs : List Call} (hcs : allCalls m coll ix = some cs) {st st' : St}
    (hrun : run m us cs st = some st') (hcoll : st.coll = coll) {e : Nat} {el : Elem}
    (hel : m.elems[e]? = some el) {s : Sets} {a : Nat} (hA : At order coll ix el s a) {u : Nat} (hu : u ∈ us)
    (h0 : ∀ p, st.pos e u p = if p = 0 then some a else none) : Conforms m order st' e u el s := by
  have hc : st'.coll = coll := (run_spec cs hrun).1.trans hcoll
  have key : ∀ p x, st'.content e u p = some x ↔
      ∃ v, ((∃ c ∈ cs, hit m e p c = some v) ∨ (p = 0 ∧ v = a)) ∧ coll[v]? = some x := by
    intro p x
    rw [content_eq, Option.bind_eq_some_iff, hc]
    simp only [pos_final hS hcs hrun hel hA hu h0]
  refine ⟨?_, ?_, ?_, ?_, ?_⟩
  · exact (key 0 _).2 ⟨a, Or.inr ⟨rfl, rfl⟩, hA.interior⟩
  · intro r hr re x
    rw [key]
    constructor
    · rintro ⟨v, hv | ⟨h, -⟩, hx⟩
      · rw [all_hits hcs hel hA.ix] at hv
        rcases hv with ⟨r', hr', re', rp, rm⟩ | ⟨r', hr', re', rp, rm⟩ | ⟨-, n, hn, -, r', hr', re', rp, t, ht, rfl⟩
        · rw [place_face] at rp
          obtain rfl := side_eq hS hr hr' (re.trans re'.symm) (by omega)
          obtain ⟨j, y, rfl, hy, ay⟩ := (hA.mem_face _ _ _).1 rm
          rw [hA.face j y hy] at hx; cases hx
          exact ⟨List.mem_of_getElem? hy, ay⟩
        · rw [place_edge] at rp
          obtain ⟨el', h1, h2⟩ := hS.side r hr
          rw [re, hel] at h1; cases h1; omega
        · rw [place_node] at rp
          obtain ⟨el', h1, h2⟩ := hS.side r hr
          rw [re, hel] at h1; cases h1; omega
      · omega
    · rintro ⟨hx, ax⟩
      obtain ⟨j, hj⟩ := List.mem_iff_getElem?.1 hx
      obtain ⟨el', h1, h2⟩ := hS.side r hr
      rw [re, hel] at h1; cases h1
      exact ⟨a + 1 + j, Or.inl ((all_hits hcs hel hA.ix _).2 (Or.inl ⟨r, hr, re, (place_face ..).2 ⟨h2, rfl⟩,
        (hA.mem_face _ _ _).2 ⟨j, x, rfl, hj, ax⟩⟩)), hA.face j x hj⟩
  · intro r hr re x
    rw [key]
    constructor
    · rintro ⟨v, hv | ⟨h, -⟩, hx⟩
      · rw [all_hits hcs hel hA.ix] at hv
        obtain ⟨el', h1, h2⟩ := hS.edge r hr
        rw [re, hel] at h1; cases h1
        rcases hv with ⟨r', hr', re', rp, rm⟩ | ⟨r', hr', re', rp, rm⟩ | ⟨-, n, hn, -, r', hr', re', rp, t, ht, rfl⟩
        · rw [place_face] at rp; omega
        · rw [place_edge] at rp
          obtain rfl := edge_eq hS hr hr' (re.trans re'.symm) (by omega)
          obtain ⟨j, y, rfl, hy, ay⟩ := (hA.mem_edge _ _ _).1 rm
          rw [hA.edge j y hy] at hx; cases hx
          exact ⟨List.mem_of_getElem? hy, ay⟩
        · rw [place_node] at rp; omega
      · omega
    · rintro ⟨hx, ax⟩
      obtain ⟨j, hj⟩ := List.mem_iff_getElem?.1 hx
      obtain ⟨el', h1, h2⟩ := hS.edge r hr
      rw [re, hel] at h1; cases h1
      exact ⟨a + s.faces.length + 1 + j, Or.inl ((all_hits hcs hel hA.ix _).2 (Or.inr (Or.inl ⟨r, hr, re,
        (place_edge ..).2 ⟨h2, rfl⟩, (hA.mem_edge _ _ _).2 ⟨j, x, rfl, hj, ax⟩⟩))), hA.edge j x hj⟩
  · intro hd r hr re t ht x
    obtain ⟨el', h1, h2, h3⟩ := hS.corner r hr
    rw [re, hel] at h1; cases h1
    have hlt : t < s.nodes.length := by
      rw [(nodes_table hA.sets).1 ?_]
      · exact h3 t ht
      · intro hk
        have := hS.dims el (List.mem_of_getElem? hel)
        rw [hk] at this
        simp only [Kind.dim] at this
        omega
    rw [key]
    constructor
    · rintro ⟨v, hv | ⟨h, -⟩, hx⟩
      · rw [all_hits hcs hel hA.ix] at hv
        rcases hv with ⟨r', hr', re', rp, rm⟩ | ⟨r', hr', re', rp, rm⟩ | ⟨-, n, hn, -, r', hr', re', rp, t', ht', rfl⟩
        · rw [place_face] at rp; omega
        · rw [place_edge] at rp; omega
        · rw [place_node] at rp
          obtain rfl := corner_eq hS hr (List.mem_flatten.2 ⟨n, hn, hr'⟩) (re.trans re'.symm) (by omega)
          rw [ht] at ht'; cases ht'
          rw [hA.node t _ (List.getElem?_eq_getElem hlt)] at hx
          rw [← hx]; exact List.getElem?_eq_getElem hlt
      · omega
    · intro hx
      obtain ⟨n, hn, hrn⟩ := List.mem_flatten.1 hr
      exact ⟨a + s.faces.length + s.edges.length + 1 + t, Or.inl ((all_hits hcs hel hA.ix _).2 (Or.inr (Or.inr ⟨hd, n, hn,
        real_of hS hn hrn ht, r, hrn, re, (place_node ..).2 ⟨h2, rfl⟩, t, ht, rfl⟩))), hA.node t x hx⟩
  · intro p x hx
    obtain ⟨v, hv | ⟨h, -⟩, -⟩ := (key p x).1 hx
    · rw [all_hits hcs hel hA.ix] at hv
      rcases hv with ⟨r, hr, re, rp, rm⟩ | ⟨r, hr, re, rp, rm⟩ | ⟨hd, n, hn, -, r, hr, re, rp, t, ht, rfl⟩
      · rw [place_face] at rp
        exact Or.inr (Or.inl ⟨r, hr, re, rp.2⟩)
      · rw [place_edge] at rp
        exact Or.inr (Or.inr (Or.inl ⟨r, hr, re, rp.2⟩))
      · rw [place_node] at rp
        exact Or.inr (Or.inr (Or.inr ⟨r, List.mem_flatten.2 ⟨n, hn, hr⟩, re, by simp [ht], hd, rp.2⟩))
    · exact Or.inl h

end Verif.Assign
