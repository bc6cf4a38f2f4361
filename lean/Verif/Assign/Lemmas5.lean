import Verif.Assign.Lemmas4

set_option linter.all false
namespace Verif.Assign
open Verif.Basis Verif.ElementData

variable {m : Mesh} {coll : List FSet} {ix : Index} {order : Nat}

theorem sizeAt_of {x : FSet} {v : Nat} (h : coll[v]? = some x) : sizeAt coll v = x.fns.length := by
  simp [sizeAt, h]

/-- every element has its sets in the collection -/
def AllAt (m : Mesh) (order : Nat) (coll : List FSet) (ix : Index) : Prop :=
  ∀ (e : Nat) (el : Elem), m.elems[e]? = some el → ∃ s a, At order coll ix el s a

theorem AllAt.lookup (h : AllAt m order coll ix) {e a nf ne : Nat} (hl : lookupKind m ix e = some (a, nf, ne)) :
    ∃ el s, m.elems[e]? = some el ∧ At order coll ix el s a ∧ nf = s.faces.length ∧ ne = s.edges.length := by
  simp only [lookupKind, Option.map_eq_some_iff] at hl
  obtain ⟨el, hel, hk⟩ := hl
  obtain ⟨s, b, hA⟩ := h e el hel
  rw [hA.ix] at hk
  simp only [Option.getD_some, Prod.mk.injEq] at hk
  obtain ⟨rfl, rfl, rfl⟩ := hk
  exact ⟨el, s, hel, hA, rfl, rfl⟩

theorem At.lookup {e : Nat} {el : Elem} (hel : m.elems[e]? = some el) {s : Sets} {a : Nat} (hA : At order coll ix el s a) :
    lookupKind m ix e = some (a, s.faces.length, s.edges.length) := by
  simp [lookupKind, hel, hA.ix]

theorem At.congr {el : Elem} {s t : Sets} {a b : Nat} (h : At order coll ix el s a) (h' : At order coll ix el t b) :
    s = t ∧ a = b := by
  have h1 := h.sets; rw [h'.sets] at h1
  have h2 := h.ix; rw [h'.ix] at h2
  simp only [Option.some.injEq, Prod.mk.injEq] at h1 h2
  exact ⟨h1.symm, h2.1.symm⟩

/-- a number in the end, when all calls agree -/
theorem count_final {us : List Nat} {cs : List Call} {st st' : St} (hrun : run m us cs st = some st') {u : Nat}
    (hu : u ∈ us) (part : Part) (i n : Nat) (hall : ∀ k, (∃ c ∈ cs, hitCount part i c = some k) → k = n) :
    ((∃ k, ∃ c ∈ cs, hitCount part i c = some k) → st'.count part i u = some n) ∧
    ((¬ ∃ k, ∃ c ∈ cs, hitCount part i c = some k) → st'.count part i u = st.count part i u) := by
  obtain ⟨-, -, -, h4⟩ := run_spec cs hrun
  have h := h4 part i n (fun c hc => by
    rcases hh : hitCount part i c with _ | k
    · exact Or.inl rfl
    · exact Or.inr (by rw [hall k ⟨c, hc, hh⟩])) u
  refine ⟨fun ⟨k, hk⟩ => h.1 ⟨hu, ?_⟩, fun hn => h.2 (fun hh => hn ⟨n, hh.2⟩)⟩
  rw [← hall k hk]; exact hk

theorem face_count (hAll : AllAt m order coll ix) {us : List Nat} {cs : List Call} (hcs : allCalls m coll ix = some cs)
    {st st' : St} (hrun : run m us cs st = some st') {u : Nat} (hu : u ∈ us) {i : Nat} {f : (Nat × Nat) × Option Side}
    (hf : m.faces[i]? = some f) {el : Elem} (hel : m.elems[f.1.1]? = some el) {sh : FaceShape}
    (hsh : el.kind.faceShape f.1.2 = some sh) (h0 : st.count .face i u = some 0) :
    st'.count .face i u = some (sh.size order) := by
  obtain ⟨s, a, hA⟩ := hAll _ _ hel
  have hall : ∀ k, (∃ c ∈ cs, hitCount .face i c = some k) → k = sh.size order := by
    intro k hk
    rw [all_counts hcs] at hk
    obtain ⟨g, hg, b, nf, ne, hb, x, hx, rfl⟩ := hk
    rw [hf] at hg; cases hg
    rw [hA.lookup hel] at hb; cases hb
    obtain ⟨j, y, rfl, hy, ay⟩ := (hA.mem_face _ _ _).1 hx
    rw [sizeAt_of (hA.face j y hy)]
    exact face_size hA.sets (List.mem_of_getElem? hy) ay hsh
  obtain ⟨c1, c2⟩ := count_final hrun hu .face i _ hall
  by_cases hk : el.kind = .pyramid
  · have ho : order = 1 := by
      have := hA.sets; rw [hk] at this; exact pyramid_order this
    rw [c2, h0]
    · subst ho
      rw [hk] at hsh
      simp only [Kind.faceShape] at hsh
      split at hsh
      · cases hsh; rfl
      · split at hsh
        · cases hsh; rfl
        · cases hsh
    · rintro ⟨k, hk'⟩
      rw [all_counts hcs] at hk'
      obtain ⟨g, hg, b, nf, ne, hb, x, hx, rfl⟩ := hk'
      rw [hf] at hg; cases hg
      rw [hA.lookup hel] at hb; cases hb
      obtain ⟨j, y, rfl, hy, ay⟩ := (hA.mem_face _ _ _).1 hx
      exact ((face_mem_iff hA.sets _ _).1 ⟨y, List.mem_of_getElem? hy, ay⟩).1 hk
  · refine c1 ?_
    obtain ⟨y, hy, ay⟩ := (face_mem_iff hA.sets 0 f.1.2).2 ⟨hk, sh, hsh, by cases sh <;> decide⟩
    obtain ⟨j, hj⟩ := List.mem_iff_getElem?.1 hy
    exact ⟨sizeAt coll (a + 1 + j), (all_counts hcs .face i _).2 ⟨f, hf, _, _, _, hA.lookup hel, a + 1 + j,
      (hA.mem_face _ _ _).2 ⟨j, y, rfl, hj, ay⟩, rfl⟩⟩

theorem edge_count (hAll : AllAt m order coll ix) {us : List Nat} {cs : List Call} (hcs : allCalls m coll ix = some cs)
    {st st' : St} (hrun : run m us cs st = some st') {u : Nat} (hu : u ∈ us) {i : Nat} {l : List Side}
    (hl : m.edges[i]? = some l) {r : Side} (hr : r ∈ l) {el : Elem} (hel : m.elems[r.elem]? = some el)
    (hnum : r.num < el.kind.numEdges) (ho : r.orient < 2) (h0 : st.count .edge i u = some 0) :
    st'.count .edge i u = some (order - 1) := by
  obtain ⟨s, a, hA⟩ := hAll _ _ hel
  have hall : ∀ k, (∃ c ∈ cs, hitCount .edge i c = some k) → k = order - 1 := by
    intro k hk
    rw [all_counts hcs] at hk
    obtain ⟨g, hg, r', hr', b, nf, ne, hb, x, hx, rfl⟩ := hk
    obtain ⟨el', s', hel', hA', rfl, rfl⟩ := hAll.lookup hb
    obtain ⟨j, y, rfl, hy, ay⟩ := (hA'.mem_edge _ _ _).1 hx
    rw [sizeAt_of (hA'.edge j y hy)]
    exact (edges_table hA'.sets).2 y (List.mem_of_getElem? hy)
  obtain ⟨c1, c2⟩ := count_final hrun hu .edge i _ hall
  by_cases hex : ∃ k, ∃ c ∈ cs, hitCount .edge i c = some k
  · exact c1 hex
  · rw [c2 hex, h0]
    by_cases hk : el.kind = .pyramid
    · have ho : order = 1 := by
        have := hA.sets; rw [hk] at this; exact pyramid_order this
      simp [ho]
    · exfalso
      obtain ⟨y, hy, ay⟩ := (edge_mem_iff hA.sets r.orient r.num).2 ⟨hk, hnum, ho⟩
      obtain ⟨j, hj⟩ := List.mem_iff_getElem?.1 hy
      exact hex ⟨_, (all_counts hcs .edge i _).2 ⟨l, hl, r, hr, _, _, _, hA.lookup hel, a + s.faces.length + 1 + j,
        (hA.mem_edge _ _ _).2 ⟨j, y, rfl, hj, ay⟩, rfl⟩⟩

theorem node_count (hS : m.Sound) (hAll : AllAt m order coll ix) {us : List Nat} {cs : List Call}
    (hcs : allCalls m coll ix = some cs)
    {st st' : St} (hrun : run m us cs st = some st') {u : Nat} (hu : u ∈ us) {i : Nat} {l : List Corner}
    (hl : m.nodes[i]? = some l) (hd : m.dim > 1) {r : Corner} (hr : r ∈ l) {t : Nat} (ht : r.topological = some t) :
    st'.count .node i u = some 1 := by
  have hlm := List.mem_of_getElem? hl
  have hall : ∀ k, (∃ c ∈ cs, hitCount .node i c = some k) → k = 1 := by
    intro k hk
    rw [all_counts hcs] at hk
    obtain ⟨g, hg, -, -, r', hr', b, nf, ne, hb, t', ht', rfl⟩ := hk
    rw [hl] at hg; cases hg
    obtain ⟨el', s', hel', hA', rfl, rfl⟩ := hAll.lookup hb
    obtain ⟨el2, h1, h2, h3⟩ := hS.corner r' (List.mem_flatten.2 ⟨l, hlm, hr'⟩)
    rw [hel'] at h1; cases h1
    have hlt : t' < s'.nodes.length := by
      rw [(nodes_table hA'.sets).1 ?_]
      · exact h3 t' ht'
      · intro hk
        have := hS.dims _ (List.mem_of_getElem? hel')
        rw [hk] at this
        simp only [Kind.dim] at this
        omega
    rw [sizeAt_of (hA'.node t' _ (List.getElem?_eq_getElem hlt))]
    exact (nodes_table hA'.sets).2 _ (List.getElem_mem hlt)
  obtain ⟨c1, -⟩ := count_final hrun hu .node i _ hall
  refine c1 ?_
  obtain ⟨el, h1, -⟩ := hS.corner r (List.mem_flatten.2 ⟨l, hlm, hr⟩)
  obtain ⟨s, a, hA⟩ := hAll _ _ h1
  exact ⟨_, (all_counts hcs .node i _).2 ⟨l, hl, hd, real_of hS hlm hr ht, r, hr, _, _, _, hA.lookup h1, t, ht, rfl⟩⟩

/-! ### The whole call -/

/-- the steps of a successful call -/
theorem assign_steps (hS : m.Sound) {us : List Nat} {st st' : St} (F : Fits m st)
    (h : assign m us order st = some st') : order ≠ 0 ∧ ∃ coll ix cs st1, AllAt m order coll ix ∧
      allCalls m coll ix = some cs ∧ run m us cs st1 = some st' ∧ st1.coll = coll ∧ st1.counts = st.counts ∧
      (∃ l, coll = st.coll ++ l) ∧ Fits m st1 ∧ (st.Valid → st1.Valid) ∧
      (∀ u ∉ us, ∀ e p, st1.pos e u p = st.pos e u p) ∧
      ∀ u ∈ us, ∀ e el s a, m.elems[e]? = some el → At order coll ix el s a → ∀ p,
        st1.pos e u p = if p = 0 then some a else none := by
  unfold assign at h
  split at h
  · cases h
  rename_i ho
  simp only [Option.bind_eq_some_iff] at h
  obtain ⟨⟨coll, ix, ps⟩, hg, els, hels, cs, hcs, hrun⟩ := h
  obtain ⟨h1, h2, h3, h4, h5⟩ := gather_spec m.elems (by intro k a nf ne h; cases h) hg
  obtain ⟨s1, s2, s3⟩ := setDefaults_spec hels
  have hAll : AllAt m order coll ix := by
    intro e el hel
    obtain ⟨a, nf, ne, hk, -⟩ := h5 e el hel
    obtain ⟨s, g1, rfl, rfl, g4⟩ := h2 _ _ _ _ hk
    exact ⟨s, a, ⟨hk, g1, g4⟩⟩
  have hpos : ∀ (u e p : Nat), (∃ b x b', st.elems[e]? = some b ∧ ps[e]? = some x ∧ els[e]? = some b' ∧
      setDefault (sizesOf coll) x us b = some b') ∨ (st.elems[e]? = none ∧ els[e]? = none) := by
    intro u e p
    rcases hb : st.elems[e]? with _ | b
    · refine Or.inr ⟨rfl, ?_⟩
      rw [List.getElem?_eq_none_iff] at hb ⊢
      omega
    · obtain ⟨x, b', e1, e2, e3⟩ := s3 e b hb
      exact Or.inl ⟨b, x, b', rfl, e1, e2, e3⟩
  have hother : ∀ u ∉ us, ∀ e p, (St.pos ⟨coll, els, st.counts⟩ e u p) = st.pos e u p := by
    intro u hu e p
    unfold St.pos
    rcases hpos u e p with ⟨b, x, b', e1, -, e2, e3⟩ | ⟨e1, e2⟩
    · simp only [e1, e2, Option.bind_some, (setDefault_spec us e3).2, if_neg hu]
    · simp [e1, e2]
  have hmine : ∀ u ∈ us, ∀ e el s a, m.elems[e]? = some el → At order coll ix el s a → ∀ p,
        (St.pos ⟨coll, els, st.counts⟩ e u p) = if p = 0 then some a else none := by
    intro u hu e el s a hel hA p
    unfold St.pos
    rcases hpos u e p with ⟨b, x, b', e1, e4, e2, e3⟩ | ⟨e1, e2⟩
    · simp only [e2, Option.bind_some, (setDefault_spec us e3).2, if_pos hu]
      obtain ⟨a', nf, ne, hk, hp⟩ := h5 e el hel
      rw [e4] at hp; cases hp
      have := hA.ix; rw [hk] at this; cases this; rfl
    · rw [List.getElem?_eq_none_iff, F.elems] at e1
      have := (List.getElem?_eq_some_iff.1 hel).1
      omega
  refine ⟨ho, coll, ix, cs, ⟨coll, els, st.counts⟩, hAll, hcs, hrun, rfl, rfl, h1, ⟨?_, ?_, F.parts, F.part⟩, ?_, hother, hmine⟩
  · exact s2.trans F.elems
  · intro b hb
    obtain ⟨e, he⟩ := List.mem_iff_getElem?.1 hb
    rcases hpos 0 e 0 with ⟨b0, x, b', e1, -, e2, e3⟩ | ⟨e1, e2⟩
    · simp only at he
      rw [he] at e2; cases e2
      rw [(setDefault_spec us e3).1]; exact F.unknowns b0 (List.mem_of_getElem? e1)
    · simp only at he; rw [he] at e2; cases e2
  · intro hv
    rw [valid_iff] at hv ⊢
    intro e u p i hp
    by_cases hu : u ∈ us
    · rcases hel : m.elems[e]? with _ | el
      · have : st.elems[e]? = none := by
          rw [List.getElem?_eq_none_iff] at hel ⊢; rw [F.elems]; exact hel
        have h' : els[e]? = none := by
          rw [List.getElem?_eq_none_iff] at this ⊢; omega
        simp [St.pos, h'] at hp
      · obtain ⟨s, a, hA⟩ := hAll e el hel
        rw [hmine u hu e el s a hel hA] at hp
        split at hp
        · cases hp; exact (List.getElem?_eq_some_iff.1 hA.interior).1
        · cases hp
    · rw [hother u hu] at hp
      have := hv e u p i hp
      obtain ⟨l, rfl⟩ := h1
      simp; omega

theorem content_append {st st' : St} (hv : st.Valid) (hc : ∃ l, st'.coll = st.coll ++ l) {e u p : Nat}
    (hp : st'.pos e u p = st.pos e u p) : st'.content e u p = st.content e u p := by
  rw [content_eq, content_eq, hp]
  rcases h : st.pos e u p with _ | i
  · rfl
  · obtain ⟨l, hl⟩ := hc
    have := (valid_iff st).1 hv e u p i h
    simp only [Option.bind_some, hl]
    rw [List.getElem?_append_left this]

/-- the steps of `clear` -/
theorem clear_steps {st st' : St} (F : Fits m st) (h : clear m st = some st') :
    st'.coll = [] ∧ Fits m st' ∧ (∀ e u p, st'.pos e u p = none) ∧
      ∀ part, (part = .node → m.dim > 1) → ∀ i u, i < m.number part → u < m.unknowns → st'.count part i u = some 0 := by
  simp only [clear, Option.bind_eq_some_iff, Option.map_eq_some_iff] at h
  obtain ⟨els, h1, fs, h2, es, h3, ns, h4, rfl⟩ := h
  obtain ⟨a1, a2⟩ := forAll_spec h1
  have hlist : ∀ {l l' : List (List Nat)}, forAll (countAll 0 (List.range m.unknowns)) l = some l' →
      (∀ x ∈ l, x.length = m.unknowns) → (∀ x ∈ l', x.length = m.unknowns) ∧
      ∀ i u, i < l.length → u < m.unknowns → (l'[i]?).bind (fun y => y[u]?) = some 0 := by
    intro l l' hl hx
    obtain ⟨b1, b2⟩ := forAll_spec hl
    refine ⟨fun x hx' => ?_, fun i u hi hu => ?_⟩
    · obtain ⟨i, hi⟩ := List.mem_iff_getElem?.1 hx'
      have hi' : i < l.length := by rw [← b1]; exact (List.getElem?_eq_some_iff.1 hi).1
      obtain ⟨c, hc, hcc⟩ := b2 i _ (List.getElem?_eq_getElem hi')
      rw [hi] at hc; cases hc
      rw [(countAll_spec _ hcc).1]; exact hx _ (List.getElem_mem hi')
    · obtain ⟨c, hc, hcc⟩ := b2 i _ (List.getElem?_eq_getElem hi)
      simp [hc, (countAll_spec _ hcc).2, hu]
  have hF := hlist h2 (F.part .face)
  have hE := hlist h3 (F.part .edge)
  have hN : (∀ x ∈ ns, x.length = m.unknowns) ∧ ns.length = (st.counts .node).length ∧
      (m.dim > 1 → ∀ i u, i < (st.counts .node).length → u < m.unknowns → (ns[i]?).bind (fun y => y[u]?) = some 0) := by
    split at h4
    · exact ⟨(hlist h4 (F.part .node)).1, (forAll_spec h4).1, fun _ => (hlist h4 (F.part .node)).2⟩
    · cases h4
      rename_i hd
      exact ⟨F.part .node, rfl, fun h => absurd h hd⟩
  have hpos : ∀ (e : Nat) b', els[e]? = some b' → ∃ b, st.elems[e]? = some b ∧ clearAll (List.range m.unknowns) b = some b' := by
    intro e b' he
    have he' : e < st.elems.length := by rw [← a1]; exact (List.getElem?_eq_some_iff.1 he).1
    obtain ⟨c, hc, hcc⟩ := a2 e _ (List.getElem?_eq_getElem he')
    rw [he] at hc; cases hc
    exact ⟨_, List.getElem?_eq_getElem he', hcc⟩
  refine ⟨rfl, ⟨a1.trans F.elems, ?_, ?_, ?_⟩, ?_, ?_⟩
  · intro b hb
    obtain ⟨e, he⟩ := List.mem_iff_getElem?.1 hb
    obtain ⟨b0, e1, e2⟩ := hpos e b he
    rw [(clearAll_spec _ e2).1]; exact F.unknowns b0 (List.mem_of_getElem? e1)
  · intro part
    cases part
    · exact (forAll_spec h2).1.trans (F.parts .face)
    · exact (forAll_spec h3).1.trans (F.parts .edge)
    · exact hN.2.1.trans (F.parts .node)
  · intro part
    cases part
    · exact hF.1
    · exact hE.1
    · exact hN.1
  · intro e u p
    unfold St.pos
    rcases he : els[e]? with _ | b
    · simp
    · simp only [Option.bind_some]
      obtain ⟨b0, e1, e2⟩ := hpos e b he
      obtain ⟨c1, c2⟩ := clearAll_spec _ e2
      by_cases hu : u < m.unknowns
      · rw [c2, if_pos (by simpa using hu)]
      · have : b.positions[u]? = none := by
          rw [List.getElem?_eq_none_iff, c1, F.unknowns b0 (List.mem_of_getElem? e1)]; omega
        simp [posOf, this]
  · intro part hp i u hi hu
    cases part
    · exact hF.2 i u (by rw [F.parts]; exact hi) hu
    · exact hE.2 i u (by rw [F.parts]; exact hi) hu
    · exact hN.2.2 (hp rfl) i u (by rw [F.parts]; exact hi) hu

theorem clearMesh_defined {st : St} (F : Fits m st) : ∃ st', clear m st = some st' := by
  have hc : ∀ part, ∃ l, forAll (countAll 0 (List.range m.unknowns)) (st.counts part) = some l := fun part =>
    forAll_defined _ _ fun x hx => countAll_defined 0 _ x (fun u hu => by rw [F.part part x hx]; simpa using hu)
  obtain ⟨els, h1⟩ := forAll_defined (clearAll (List.range m.unknowns)) st.elems fun b hb =>
    clearAll_defined _ b (fun u hu => by rw [F.unknowns b hb]; simpa using hu)
  obtain ⟨fs, h2⟩ := hc .face
  obtain ⟨es, h3⟩ := hc .edge
  obtain ⟨ns, h4⟩ := hc .node
  by_cases hd : m.dim > 1
  · exact ⟨_, by simp [clear, h1, h2, h3, h4, hd]; rfl⟩
  · exact ⟨_, by simp [clear, h1, h2, h3, hd]; rfl⟩

theorem clear_valid {st : St} (h : ∀ e u p, st.pos e u p = none) : st.Valid := by
  rw [valid_iff]; intro e u p i hp; rw [h] at hp; cases hp

/-! ### When the call succeeds -/

theorem assign_defined (hS : m.Sound) {us : List Nat} (hu : ∀ u ∈ us, u < m.unknowns) {st : St} (F : Fits m st)
    (ho : order ≠ 0) (hk : ∀ el ∈ m.elems, (conforming order el.kind).isSome) : ∃ st', assign m us order st = some st' := by
  obtain ⟨⟨coll, ix, ps⟩, hg⟩ := gather_defined m.elems st.coll (fun _ => none) hk
  obtain ⟨h1, h2, h3, h4, h5⟩ := gather_spec m.elems (by intro k a nf ne h; cases h) hg
  have hAll : AllAt m order coll ix := by
    intro e el hel
    obtain ⟨a, nf, ne, hk, -⟩ := h5 e el hel
    obtain ⟨s, g1, rfl, rfl, g4⟩ := h2 _ _ _ _ hk
    exact ⟨s, a, ⟨hk, g1, g4⟩⟩
  obtain ⟨els, hels⟩ := setDefaults_defined us (sizesOf coll) ps st.elems (h4.trans F.elems.symm) (by
      intro x hx
      obtain ⟨e, he⟩ := List.mem_iff_getElem?.1 hx
      have hlt : e < m.elems.length := by rw [← h4]; exact (List.getElem?_eq_some_iff.1 he).1
      obtain ⟨a, nf, ne, hka, hp⟩ := h5 e _ (List.getElem?_eq_getElem hlt)
      rw [he] at hp; cases hp
      obtain ⟨s, a', hA⟩ := hAll e _ (List.getElem?_eq_getElem hlt)
      have := hA.ix; rw [hka] at this; cases this
      simpa [sizesOf] using (List.getElem?_eq_some_iff.1 hA.interior).1)
    (fun b hb u h => by rw [F.unknowns b hb]; exact hu u h)
  have hlook : ∀ e el, m.elems[e]? = some el → ∃ s a, At order coll ix el s a ∧
      lookupKind m ix e = some (a, s.faces.length, s.edges.length) := by
    intro e el hel
    obtain ⟨s, a, hA⟩ := hAll e el hel
    exact ⟨s, a, hA, hA.lookup hel⟩
  have hcorner : ∀ n ∈ m.nodes, ∀ c ∈ n, ∀ t, c.topological = some t → m.dim > 1 → ∀ s a el, m.elems[c.elem]? = some el →
      At order coll ix el s a → a + s.faces.length + s.edges.length + 1 + t < coll.length := by
    intro n hn c hc t ht hd s a el hel hA
    obtain ⟨el', e1, e2, e3⟩ := hS.corner c (List.mem_flatten.2 ⟨n, hn, hc⟩)
    rw [hel] at e1; cases e1
    have hlt : t < s.nodes.length := by
      rw [(nodes_table hA.sets).1 ?_]
      · exact e3 t ht
      · intro hk
        have := hS.dims _ (List.mem_of_getElem? hel)
        rw [hk] at this
        simp only [Kind.dim] at this
        omega
    exact (List.getElem?_eq_some_iff.1 (hA.node t _ (List.getElem?_eq_getElem hlt))).1
  obtain ⟨A, hA⟩ := collect_defined (fun p : ((Nat × Nat) × Option Side) × Nat => faceCalls m coll ix p.2 p.1) m.faces.zipIdx (by
    rintro ⟨f, i⟩ hf
    have hfm := List.mem_of_getElem? (List.mem_zipIdx_iff_getElem?.1 hf)
    obtain ⟨el, e1, -⟩ := hS.side ⟨f.1.1, f.1.2, 0⟩ (List.mem_flatMap.2 ⟨f, hfm, by simp⟩)
    obtain ⟨s, a, -, hl⟩ := hlook _ _ e1
    rcases hr : f.2 with _ | r
    · exact ⟨_, by simp only [faceCalls, hl, Option.bind_some, hr]; rfl⟩
    · obtain ⟨el', e1', -⟩ := hS.side r (List.mem_flatMap.2 ⟨f, hfm, by simp [hr]⟩)
      obtain ⟨s', a', -, hl'⟩ := hlook _ _ e1'
      exact ⟨_, by simp only [faceCalls, hl, Option.bind_some, hr, hl', Option.map_some]; rfl⟩)
  obtain ⟨B, hB⟩ := collect_defined (fun p : List Side × Nat => collect (edgeCalls m coll ix p.2) p.1) m.edges.zipIdx (by
    rintro ⟨l, i⟩ hl
    have hlm := List.mem_of_getElem? (List.mem_zipIdx_iff_getElem?.1 hl)
    refine collect_defined _ _ fun r hr => ?_
    obtain ⟨el, e1, -⟩ := hS.edge r (List.mem_flatten.2 ⟨l, hlm, hr⟩)
    obtain ⟨s, a, -, hl⟩ := hlook _ _ e1
    exact ⟨_, by simp only [edgeCalls, hl, Option.map_some]; rfl⟩)
  obtain ⟨C, hC⟩ := collect_defined (fun p : List Corner × Nat => nodeCalls m coll ix p.2 p.1) m.nodes.zipIdx (by
    rintro ⟨n, i⟩ hn
    have hnm := List.mem_of_getElem? (List.mem_zipIdx_iff_getElem?.1 hn)
    simp only [nodeCalls]
    split
    · rename_i hd
      obtain ⟨hne, hor⟩ := hS.node n hnm
      cases n with
      | nil => exact absurd rfl hne
      | cons c l =>
        simp only [List.head?_cons]
        split
        · exact ⟨_, rfl⟩
        · rename_i ht
          refine collect_defined _ _ fun r hr => ?_
          rcases hor with h | h
          · rw [h c (by simp)] at ht; simp at ht
          · obtain ⟨t, htt⟩ := Option.ne_none_iff_exists'.1 (h r hr)
            obtain ⟨el, e1, -⟩ := hS.corner r (List.mem_flatten.2 ⟨_, hnm, hr⟩)
            obtain ⟨s, a, hA, hl⟩ := hlook _ _ e1
            exact ⟨_, by
              simp only [cornerCalls, hl, htt, Option.bind_some]
              rw [if_pos (hcorner _ hnm r hr t htt hd s a el e1 hA)]⟩
    · exact ⟨_, rfl⟩)
  have hcs : allCalls m coll ix = some (A ++ B ++ C) := by simp [allCalls, hA, hB, hC]
  have F1 : Fits m ⟨coll, els, st.counts⟩ := by
    obtain ⟨s1, s2, s3⟩ := setDefaults_spec hels
    refine ⟨s2.trans F.elems, fun b hb => ?_, F.parts, F.part⟩
    obtain ⟨e, he⟩ := List.mem_iff_getElem?.1 hb
    have hlt : e < st.elems.length := by rw [← s2]; exact (List.getElem?_eq_some_iff.1 he).1
    obtain ⟨x, b', -, e2, e3⟩ := s3 e _ (List.getElem?_eq_getElem hlt)
    simp only at he
    rw [he] at e2; cases e2
    rw [(setDefault_spec us e3).1]; exact F.unknowns _ (List.getElem_mem hlt)
  obtain ⟨st', hrun⟩ := run_defined (us := us) (A ++ B ++ C) ⟨coll, els, st.counts⟩ F1 hu (by
    intro c hc
    cases c with
    | put e s x =>
      have hmem : e < m.elems.length ∧ ∃ el p, m.elems[e]? = some el ∧ el.place s = some p := by
        rcases List.mem_append.1 hc with hc | hc
        · rcases List.mem_append.1 hc with hc | hc
          · obtain ⟨⟨f, i⟩, hf, y, hy, hcy⟩ := (mem_collect hA _).1 hc
            have hfm := List.mem_of_getElem? (List.mem_zipIdx_iff_getElem?.1 hf)
            have : ∃ r ∈ (⟨f.1.1, f.1.2, 0⟩ : Side) :: f.2.toList, r.elem = e ∧ s = .face r.num := by
              simp only [faceCalls, Option.bind_eq_some_iff] at hy
              obtain ⟨⟨b, mf, me⟩, hb, hy⟩ := hy
              rcases hr : f.2 with _ | r
              · rw [hr] at hy
                simp only [Option.some.injEq] at hy; subst hy
                simp only [List.mem_flatMap, List.mem_cons, List.not_mem_nil, or_false, Call.put.injEq, reduceCtorEq] at hcy
                obtain ⟨z, -, rfl, rfl, -⟩ := hcy
                exact ⟨⟨f.1.1, f.1.2, 0⟩, by simp, rfl, rfl⟩
              · rw [hr] at hy
                simp only [Option.map_eq_some_iff] at hy
                obtain ⟨w, hw, rfl⟩ := hy
                simp only [List.mem_append, List.mem_flatMap, List.mem_map, List.mem_cons, List.not_mem_nil, or_false,
                  Call.put.injEq, reduceCtorEq] at hcy
                rcases hcy with ⟨z, -, rfl, rfl, -⟩ | ⟨z, -, rfl, rfl, -⟩
                · exact ⟨⟨f.1.1, f.1.2, 0⟩, by simp, rfl, rfl⟩
                · exact ⟨r, by simp, rfl, rfl⟩
            obtain ⟨r, hr, rfl, rfl⟩ := this
            obtain ⟨el, e1, e2⟩ := hS.side r (List.mem_flatMap.2 ⟨f, hfm, hr⟩)
            exact ⟨(List.getElem?_eq_some_iff.1 e1).1, el, _, e1, (place_face ..).2 ⟨e2, rfl⟩⟩
          · obtain ⟨⟨l, i⟩, hl, y, hy, hcy⟩ := (mem_collect hB _).1 hc
            obtain ⟨r, hr, z, hz, hcz⟩ := (mem_collect hy _).1 hcy
            have hlm := List.mem_of_getElem? (List.mem_zipIdx_iff_getElem?.1 hl)
            simp only [edgeCalls, Option.map_eq_some_iff] at hz
            obtain ⟨w, hw, rfl⟩ := hz
            simp only [List.mem_flatMap, List.mem_cons, List.not_mem_nil, or_false, Call.put.injEq, reduceCtorEq] at hcz
            obtain ⟨z, -, rfl, rfl, -⟩ := hcz
            obtain ⟨el, e1, e2⟩ := hS.edge r (List.mem_flatten.2 ⟨l, hlm, hr⟩)
            exact ⟨(List.getElem?_eq_some_iff.1 e1).1, el, _, e1, (place_edge ..).2 ⟨e2, rfl⟩⟩
        · obtain ⟨⟨n, i⟩, hn, y, hy, hcy⟩ := (mem_collect hC _).1 hc
          have hnm := List.mem_of_getElem? (List.mem_zipIdx_iff_getElem?.1 hn)
          simp only [nodeCalls] at hy
          split at hy
          · split at hy
            · cases hy
            · split at hy
              · cases hy; simp at hcy
              · obtain ⟨r, hr, z, hz, hcz⟩ := (mem_collect hy _).1 hcy
                simp only [cornerCalls, Option.bind_eq_some_iff] at hz
                obtain ⟨⟨b, mf, me⟩, hw, t, ht, hz⟩ := hz
                simp only at hz
                split at hz
                · cases hz
                  simp only [List.mem_cons, List.not_mem_nil, or_false, Call.put.injEq, reduceCtorEq] at hcz
                  obtain ⟨rfl, rfl, -⟩ := hcz
                  obtain ⟨el, e1, e2, -⟩ := hS.corner r (List.mem_flatten.2 ⟨n, hnm, hr⟩)
                  exact ⟨(List.getElem?_eq_some_iff.1 e1).1, el, _, e1, (place_node ..).2 ⟨e2, rfl⟩⟩
                · cases hz
          · cases hy; simp at hcy
      obtain ⟨-, el, p, hel, hp⟩ := hmem
      refine ⟨?_, el, p, hel, hp⟩
      obtain ⟨s', a, hAt⟩ := hAll e el hel
      have := (all_hits hcs hel hAt.ix x).1 ⟨_, hc, (hit_put hel _ _ _ _).2 ⟨rfl, hp, rfl⟩⟩
      rcases this with ⟨r, hr, re, rp, rm⟩ | ⟨r, hr, re, rp, rm⟩ | ⟨hd, n, hn, -, r, hr, re, rp, t, ht, rfl⟩
      · obtain ⟨j, y, rfl, hy, -⟩ := (hAt.mem_face _ _ _).1 rm
        exact (List.getElem?_eq_some_iff.1 (hAt.face j y hy)).1
      · obtain ⟨j, y, rfl, hy, -⟩ := (hAt.mem_edge _ _ _).1 rm
        exact (List.getElem?_eq_some_iff.1 (hAt.edge j y hy)).1
      · exact hcorner n hn r hr t ht hd s' a el (by rw [re]; exact hel) hAt
    | count part i n =>
      have := (all_counts hcs part i n).1 ⟨_, hc, (hc_count ..).2 ⟨rfl, rfl, rfl⟩⟩
      cases part
      · obtain ⟨f, hf, -⟩ := this
        exact (List.getElem?_eq_some_iff.1 hf).1
      · obtain ⟨f, hf, -⟩ := this
        exact (List.getElem?_eq_some_iff.1 hf).1
      · obtain ⟨f, hf, -⟩ := this
        exact (List.getElem?_eq_some_iff.1 hf).1)
  exact ⟨st', by simp only [assign, if_neg ho, hg, Option.bind_some, hels, hcs]; exact hrun⟩

theorem assign_needs {us : List Nat} {st st' : St} (h : assign m us order st = some st') :
    order ≠ 0 ∧ ∀ el ∈ m.elems, (conforming order el.kind).isSome := by
  unfold assign at h
  split at h
  · cases h
  rename_i ho
  simp only [Option.bind_eq_some_iff] at h
  obtain ⟨r, hg, -⟩ := h
  exact ⟨ho, gather_fails _ _ _ (by simp) ⟨r, hg⟩⟩

/-! ### Discontinuous functions -/

theorem gatherDG_spec (es : List Elem) {coll coll' : List FSet} {ix : Kind → Option Nat} {ps : List Nat}
    (hg : ∀ k a, ix k = some a → ∃ s, discontinuous order k = some s ∧ coll[a]? = some s)
    (h : gatherDG order es coll ix = some (coll', ps)) :
    (∃ l, coll' = coll ++ l) ∧ ps.length = es.length ∧
    ∀ (i : Nat) (el : Elem), es[i]? = some el → ∃ a s, ps[i]? = some a ∧ discontinuous order el.kind = some s ∧
      coll'[a]? = some s := by
  induction es generalizing coll ix coll' ps with
  | nil =>
    simp only [gatherDG, Option.some.injEq, Prod.mk.injEq] at h
    obtain ⟨rfl, rfl⟩ := h
    exact ⟨⟨[], by simp⟩, rfl, by simp⟩
  | cons e es ih =>
    simp only [gatherDG] at h
    rcases hk : ix e.kind with _ | a
    · rw [hk] at h
      simp only [Option.bind_eq_some_iff, Option.map_eq_some_iff] at h
      obtain ⟨s, hs, ⟨c, l⟩, hc, he⟩ := h
      simp only [Prod.mk.injEq] at he
      obtain ⟨rfl, rfl⟩ := he
      obtain ⟨⟨l', h1⟩, h2, h3⟩ := ih (by
        intro k a hka
        by_cases hke : k = e.kind
        · subst hke
          rw [Function.update_self] at hka
          cases hka
          exact ⟨s, hs, by simp⟩
        · rw [Function.update_of_ne hke] at hka
          obtain ⟨t, t1, t2⟩ := hg k a hka
          exact ⟨t, t1, by rw [List.getElem?_append_left (List.getElem?_eq_some_iff.1 t2).1, t2]⟩) hc
      refine ⟨⟨[s] ++ l', by rw [h1]; simp⟩, by simp [h2], fun i el hi => ?_⟩
      cases i with
      | zero =>
        simp only [List.getElem?_cons_zero, Option.some.injEq] at hi
        subst hi
        exact ⟨coll.length, s, rfl, hs, by rw [h1]; simp⟩
      | succ i => simpa using h3 i el (by simpa using hi)
    · rw [hk] at h
      simp only [Option.map_eq_some_iff] at h
      obtain ⟨⟨c, l⟩, hc, he⟩ := h
      simp only [Prod.mk.injEq] at he
      obtain ⟨rfl, rfl⟩ := he
      obtain ⟨⟨l', h1⟩, h2, h3⟩ := ih hg hc
      refine ⟨⟨l', h1⟩, by simp [h2], fun i el hi => ?_⟩
      cases i with
      | zero =>
        simp only [List.getElem?_cons_zero, Option.some.injEq] at hi
        subst hi
        obtain ⟨t, t1, t2⟩ := hg _ a hk
        exact ⟨a, t, rfl, t1, by rw [h1, List.getElem?_append_left (List.getElem?_eq_some_iff.1 t2).1, t2]⟩
      | succ i => simpa using h3 i el (by simpa using hi)

theorem dg_steps {us : List Nat} {st st' : St} (F : Fits m st) (h : assignDG m us order st = some st') :
    Fits m st' ∧ (st.Valid → st'.Valid) ∧
    (∀ (e : Nat) (el : Elem), m.elems[e]? = some el → ∀ u ∈ us, ∃ s, discontinuous order el.kind = some s ∧
      st'.content e u 0 = some s ∧ ∀ p, p ≠ 0 → st'.content e u p = none) ∧
    (∀ u ∉ us, ∀ e p, st'.pos e u p = st.pos e u p) ∧ (∃ l, st'.coll = st.coll ++ l) ∧ st'.counts = st.counts := by
  simp only [assignDG, Option.bind_eq_some_iff, Option.map_eq_some_iff] at h
  obtain ⟨⟨coll, ps⟩, hg, els, hels, rfl⟩ := h
  obtain ⟨h1, h2, h3⟩ := gatherDG_spec m.elems (by intro k a h; cases h) hg
  obtain ⟨s1, s2, s3⟩ := setDefaults_spec hels
  have hpos : ∀ (e : Nat), (∃ b x b', st.elems[e]? = some b ∧ ps[e]? = some x ∧ els[e]? = some b' ∧
      setDefault (sizesOf coll) x us b = some b') ∨ (st.elems[e]? = none ∧ els[e]? = none) := by
    intro e
    rcases hb : st.elems[e]? with _ | b
    · refine Or.inr ⟨rfl, ?_⟩
      rw [List.getElem?_eq_none_iff] at hb ⊢
      omega
    · obtain ⟨x, b', e1, e2, e3⟩ := s3 e b hb
      exact Or.inl ⟨b, x, b', rfl, e1, e2, e3⟩
  have hother : ∀ u ∉ us, ∀ e p, (St.pos ⟨coll, els, st.counts⟩ e u p) = st.pos e u p := by
    intro u hu e p
    unfold St.pos
    rcases hpos e with ⟨b, x, b', e1, -, e2, e3⟩ | ⟨e1, e2⟩
    · simp only [e1, e2, Option.bind_some, (setDefault_spec us e3).2, if_neg hu]
    · simp [e1, e2]
  have hmine : ∀ u ∈ us, ∀ e el, m.elems[e]? = some el → ∃ a s, discontinuous order el.kind = some s ∧ coll[a]? = some s ∧
      ∀ p, (St.pos ⟨coll, els, st.counts⟩ e u p) = if p = 0 then some a else none := by
    intro u hu e el hel
    obtain ⟨a, s, p1, p2, p3⟩ := h3 e el hel
    refine ⟨a, s, p2, p3, fun p => ?_⟩
    unfold St.pos
    rcases hpos e with ⟨b, x, b', e1, e4, e2, e3⟩ | ⟨e1, e2⟩
    · simp only [e2, Option.bind_some, (setDefault_spec us e3).2, if_pos hu]
      rw [e4] at p1; cases p1; rfl
    · rw [List.getElem?_eq_none_iff, F.elems] at e1
      have := (List.getElem?_eq_some_iff.1 hel).1
      omega
  refine ⟨⟨s2.trans F.elems, ?_, F.parts, F.part⟩, ?_, ?_, hother, h1, rfl⟩
  · intro b hb
    obtain ⟨e, he⟩ := List.mem_iff_getElem?.1 hb
    rcases hpos e with ⟨b0, x, b', e1, -, e2, e3⟩ | ⟨e1, e2⟩
    · simp only at he
      rw [he] at e2; cases e2
      rw [(setDefault_spec us e3).1]; exact F.unknowns b0 (List.mem_of_getElem? e1)
    · simp only at he; rw [he] at e2; cases e2
  · intro hv
    rw [valid_iff] at hv ⊢
    intro e u p i hp
    by_cases hu : u ∈ us
    · rcases hel : m.elems[e]? with _ | el
      · have : st.elems[e]? = none := by
          rw [List.getElem?_eq_none_iff] at hel ⊢; rw [F.elems]; exact hel
        have h' : els[e]? = none := by
          rw [List.getElem?_eq_none_iff] at this ⊢; omega
        simp [St.pos, h'] at hp
      · obtain ⟨a, s, p1, p2, p3⟩ := hmine u hu e el hel
        rw [p3] at hp
        split at hp
        · cases hp; exact (List.getElem?_eq_some_iff.1 p2).1
        · cases hp
    · rw [hother u hu] at hp
      have := hv e u p i hp
      obtain ⟨l, rfl⟩ := h1
      simp; omega
  · intro e el hel u hu
    obtain ⟨a, s, p1, p2, p3⟩ := hmine u hu e el hel
    refine ⟨s, p1, ?_, fun p hp => ?_⟩
    · rw [content_eq, p3]; exact p2
    · rw [content_eq, p3, if_neg hp]; rfl

end Verif.Assign
