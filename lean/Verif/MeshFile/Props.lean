import Verif.MeshFile.LemmasDescribe
import Verif.PreMesh.PropsShare

/-! # The mesh file between preprocessor and solver -/
namespace Verif.MeshFile
open Verif.PreMesh Verif.ElementShape

variable {R : Type} [LinearOrder R]

/-- **C40, C56.** Writing a mesh for any number of partitions succeeds. Reading the file succeeds on every process, and the process then
knows exactly its part of the mesh: its own elements and all elements that share a node with them, with their zones,
owners, nodes and coordinates, the elements to send and receive, and the faces, edges and nodes of these elements.
This holds for every test of periodicity in the constructor of a face. -/
theorem read_write (shapes : List Shape) (dim : Nat) (hdim : dim ≤ 3) (m : Mesh (List R)) (parts : List Nat) (count : Nat)
    (h : Writable shapes dim m parts count)
    (hface : 1 < dim → ∀ f ∈ m.ents (dim - 1), 0 < f.inc.length ∧ f.inc.length < 3) :
    ∃ file, write dim m parts count = some file ∧ ∀ rank < count, ∀ periodic,
      ∃ L, read dim count rank periodic file = some L ∧ Describes dim m parts rank periodic L := by
  obtain ⟨counts, hc, _, _⟩ := counts_spec h
  refine ⟨_, write_eq h hdim counts hc, ?_⟩
  intro rank hr periodic
  obtain ⟨ns, es, fs, ed, hns, hes, hfs, hed, hread⟩ := read_stages h hdim hface counts hc hr periodic
  rw [hread]
  have hp := h.dimPos
  have hnode : ns.nodes = (below (m.ents 0).length (EntityPresent m parts rank 0)).map (· + offset dim) := by
    rw [hns.nodes, below_ents _ _ _ rank fun i => (psOf_spec h i).2 rank]
  by_cases h1 : dim = 1
  · -- the faces are the nodes
    subst h1
    have hoff : offset 1 = 1 := rfl
    rw [hoff] at hns hnode
    have hgetNode : ∀ (n : Nat) (id : Nat), ns.nodes[n]? = some id → ∃ g ent, id = g + 1 ∧ (m.ents 0)[g]? = some ent ∧
        EntityPresent m parts rank 0 g := by
      intro n id hn
      rw [hns.nodes, List.getElem?_map, Option.map_eq_some_iff] at hn
      obtain ⟨g, hg, rfl⟩ := hn
      have := List.mem_of_getElem? hg
      rw [List.mem_filter, List.mem_range] at this
      obtain ⟨ent, hent⟩ := get_of_lt this.1
      exact ⟨g, ent, rfl, hent, ((psOf_spec h g).2 rank).1 (by simpa using this.2)⟩
    have hx : ∀ x ∈ ns.nodes.zipIdx.map (fun (id, n) => (id, elemsOf es.elems n)), ∃ n g ent, ns.nodes[n]? = some (g + 1) ∧
        (m.ents 0)[g]? = some ent ∧ EntityPresent m parts rank 0 g ∧ x = (g + 1, elemsOf es.elems n) := by
      intro x hx
      rw [List.mem_map] at hx
      obtain ⟨⟨id, n⟩, hn, rfl⟩ := hx
      have hn' : ns.nodes[n]? = some id := by simpa using List.mem_zipIdx_iff_getElem?.1 hn
      obtain ⟨g, ent, rfl, hent, hpr⟩ := hgetNode n id hn'
      exact ⟨n, g, ent, hn', hent, hpr, rfl⟩
    have hfst : (ns.nodes.zipIdx.map (fun (id, n) => (id, elemsOf es.elems n))).map Prod.fst = ns.nodes := by
      rw [List.map_map]
      exact (List.map_congr_left fun a _ => rfl).trans (List.zipIdx_map_fst 0 ns.nodes)
    obtain ⟨faces, f1, f2, f3⟩ := facesOfNodes_spec (periodic es.elems) (ns.nodes.zipIdx.map fun (id, n) => (id, elemsOf es.elems n)) 0
      (by
        intro x hxm
        obtain ⟨n, g, ent, a1, a2, a3, rfl⟩ := hx x hxm
        obtain ⟨ent', q, b1, b2, b3⟩ := a3
        rw [a2] at b1
        cases b1
        obtain ⟨k, hk, _⟩ := (elemsOf_spec h hes hns a1 a2).2 q b2 b3
        exact List.ne_nil_of_mem hk)
      (by
        rw [hfst, hns.nodes, List.pairwise_map]
        exact (List.pairwise_lt_range.filter _).imp fun hab => by omega)
      (by
        intro x hxm
        obtain ⟨n, g, ent, _, _, _, rfl⟩ := hx x hxm
        simp)
    rw [hfst] at f2
    refine ⟨_, by simp only [allFaces, if_true, f1, Option.bind_some]; rfl, ?_⟩
    have hfaces : ∀ f ∈ faces, ∃ ent, (m.ents 0)[f.id - 1]? = some ent ∧
        IsPoint m parts rank (fun k => (es.elems[k]?).map LElem.id) (relabel (es.pull.map Prod.snd) f) ent.inc ∧
        ∀ r, f.right = some r → f.type = if periodic es.elems f.left r then .periodic else .internal := by
      intro f hf
      obtain ⟨x, hxm, hid, hcase⟩ := f3 f hf
      obtain ⟨n, g, ent, a1, a2, a3, rfl⟩ := hx x hxm
      obtain ⟨c1, c2⟩ := elemsOf_spec h hes hns a1 a2
      obtain ⟨r1, r2, r3⟩ := relabel_id (es.pull.map Prod.snd) f
      have hnd := elemsOf_nodup es.elems n
      refine ⟨ent, by rw [hid]; exact a2, ?_, ?_⟩
      · rcases hcase with ⟨d1, d2, d3⟩ | ⟨r, t, d1, d2, d3⟩
        · simp only at d1
          rw [relabel_none _ f d2]
          refine ⟨c1 _ (by simp [d1]), ?_, by simp [d2]⟩
          intro _
          refine ⟨d3, ?_⟩
          intro q hq hpq
          obtain ⟨k, hk, hk'⟩ := c2 q hq hpq
          rw [d1, List.mem_singleton] at hk
          rw [← hk]
          exact ⟨hk', rfl⟩
        · simp only at d1
          refine ⟨by rw [r2]; exact c1 _ (by simp [d1]), by rw [r3, d2]; simp, ?_⟩
          intro r' hr'
          rw [r3, d2] at hr'
          cases hr'
          rw [r2]
          refine ⟨?_, c1 r (by simp [d1])⟩
          rw [d1] at hnd
          simp at hnd
          exact fun hc => hnd.1.1 hc.symm
      · intro r hr
        rcases hcase with ⟨d1, d2, d3⟩ | ⟨r', t, d1, d2, d3⟩
        · rw [d2] at hr; simp at hr
        · rw [d2] at hr; cases hr; exact d3
    refine { zones := rfl, elems := ?_, elem := ?_, coord := coord_spec h hes hns, nodes := hnode, push := push_spec h hes, pull := pull_spec h hes,
             faces := by omega, face := by omega, kind := ?_, points := ?_, point := ?_, edges := by omega, edge := by omega }
    · rw [below_here h]; exact ids_eq hes
    · intro le hle; exact elem_spec h hes hns hle
    · intro f hf r hr el er hel her
      obtain ⟨g, hg, rfl⟩ := List.mem_map.1 hf
      obtain ⟨r1, r2, r3⟩ := relabel_id (es.pull.map Prod.snd) g
      rw [r2] at hel ⊢
      rw [r3] at hr
      obtain ⟨_, _, _, ht⟩ := hfaces g hg
      exact kind_spec h hes hr (ht r hr) hel her
    · intro _
      rw [← f2, List.map_map]
      exact List.map_congr_left fun f _ => (relabel_id _ f).1
    · intro _ f hf
      obtain ⟨g, hg, rfl⟩ := List.mem_map.1 hf
      obtain ⟨ent, c1, c2, _⟩ := hfaces g hg
      rw [(relabel_id _ g).1]
      exact ⟨ent, c1, c2⟩
  · refine ⟨_, by simp only [allFaces, if_neg h1, Option.bind_some]; rfl, ?_⟩
    have hfs' := hfs (by omega)
    have hget : ∀ f ∈ fs.1, ∃ ent, (m.ents (dim - 1))[f.id]? = some ent ∧ makeFace (periodic es.elems) es f.id ent.inc = some f := by
      intro f hf
      have hm : f.id ∈ fs.1.map LFace.id := List.mem_map.2 ⟨f, hf, rfl⟩
      rw [hfs'.ids, List.mem_filter, List.mem_range] at hm
      obtain ⟨ent, hent⟩ := get_of_lt hm.1
      refine ⟨ent, hent, ?_⟩
      have := hfs'.made f hf
      simpa [incOf, hent] using this
    refine { zones := rfl, elems := ?_, elem := ?_, coord := coord_spec h hes hns, nodes := hnode, push := push_spec h hes, pull := pull_spec h hes,
             faces := ?_, face := ?_, kind := ?_, points := by omega, point := by omega, edges := ?_, edge := ?_ }
    · rw [below_here h]; exact ids_eq hes
    · intro le hle; exact elem_spec h hes hns hle
    · intro _
      rw [below_ents _ _ _ rank fun i => (epOf_spec h (by omega) i).2 rank, ← hfs'.ids, List.map_map]
      exact List.map_congr_left fun f _ => (relabel_id _ f).1
    · intro _ f hf
      obtain ⟨g, hg, rfl⟩ := List.mem_map.1 hf
      obtain ⟨ent, hent, hmk⟩ := hget g hg
      rw [(relabel_id _ g).1]
      exact ⟨ent, hent, face_spec h hes (by omega) hent hmk _⟩
    · intro f hf r hr el er hel her
      obtain ⟨g, hg, rfl⟩ := List.mem_map.1 hf
      obtain ⟨r1, r2, r3⟩ := relabel_id (es.pull.map Prod.snd) g
      rw [r2] at hel ⊢
      rw [r3] at hr
      obtain ⟨ent, hent, hmk⟩ := hget g hg
      refine kind_spec h hes hr ?_ hel her
      rcases makeFace_spec hmk with ⟨hn, _⟩ | ⟨hn, _⟩ | ⟨e, i, e', i', r', _, hr', _, _, _, _, ht⟩
      · rw [hn] at hr; simp at hr
      · rw [hn] at hr; simp at hr
      · rw [hr'] at hr; cases hr; exact ht
    · intro h3
      rw [below_ents _ _ _ rank fun i => (epOf_spec h (by omega) i).2 rank, ← (hed h3).ids]
    · intro h3 g hg
      have hm : g.id ∈ ed.1.map LEdge.id := List.mem_map.2 ⟨g, hg, rfl⟩
      rw [(hed h3).ids, List.mem_filter, List.mem_range] at hm
      obtain ⟨ent, hent⟩ := get_of_lt hm.1
      refine ⟨ent, hent, ?_⟩
      rw [(hed h3).made g hg]
      simp only [incOf, hent, Option.map_some, Option.getD_some]
      exact edge_spec h hes (by omega) hent

/-- **C40.** The line of an element names its owner and, each once, exactly the other partitions with an element that shares a
node with it. The line of a node names, each once, exactly the partitions that know one of its elements, so each partition
named by an element is named by all its nodes. -/
theorem lines_partitions (shapes : List Shape) (dim : Nat) (m : Mesh (List R)) (parts : List Nat) (count : Nat)
    (h : Writable shapes dim m parts count) (e : Nat) (el : Elem) (he : m.elems[e]? = some el) :
    ∃ (own : Nat) (shadow : List Nat) (before zone : List (Tok R)), elementLines m parts el =
        some (.nat (el.inc 0).length :: before ++ .nat own :: .nat shadow.length :: shadow.map .nat ++ .eol :: zone) ∧
      before.length = 2 * (el.inc 0).length ∧ parts[e]? = some own ∧ shadow.Nodup ∧
      (∀ p, p ∈ shadow ↔ p ≠ own ∧ ∃ e', Touch m e e' ∧ parts[e']? = some p) ∧
      ∀ n ∈ el.inc 0, ∃ (ent : Entity) (ps : List Nat) (rest : List (Tok R)), (m.ents 0)[n]? = some ent ∧
        nodeLines m parts ent = some (.nat ps.length :: ps.map .nat ++ .eol :: rest) ∧ ps.Nodup ∧
        (∀ p, p ∈ ps ↔ ∃ q ∈ ent.inc, Present m parts p q.1) ∧ own ∈ ps ∧ ∀ p ∈ shadow, p ∈ ps := by
  obtain ⟨own, hown, _⟩ := parts_get h he
  obtain ⟨sh, s1, s2, s3⟩ := shadowPartitions_spec h he hown
  obtain ⟨line, hline⟩ : ∃ line, elementLines m parts el = some line :=
    Option.isSome_iff_exists.1 ((mapM_get (elems_toks h)).2 e el he).2
  have hid : el.id = e := h.cons.elemId e el he
  simp only [elementLines, Option.bind_eq_bind, Option.bind_eq_some_iff, hid] at hline
  obtain ⟨ns, hns, own', ho, sh', hs', hl⟩ := hline
  rw [hown] at ho; cases ho
  rw [s1] at hs'; cases hs'
  refine ⟨own, sh, ns.flatten, [.nat el.zone, .eol], ?_, ?_, hown, s2, ?_, ?_⟩
  · simp only [elementLines, Option.bind_eq_bind, hid, hns, hown, s1, Option.bind_some]
  · have hlen : ∀ (l : List Nat) (ns : List (List (Tok R))), (l.mapM fun n => (coordinateIndex m n e).bind fun i => some [.nat n, .nat i]) = some ns →
        ns.flatten.length = 2 * l.length := by
      intro l
      induction l with
      | nil => intro ns hns; simp at hns; subst hns; rfl
      | cons a l ih =>
        intro ns hns
        simp only [List.mapM_cons, Option.bind_eq_bind, Option.bind_eq_some_iff, Option.pure_def, Option.some.injEq] at hns
        obtain ⟨x, ⟨i, _, rfl⟩, xs, hxs, rfl⟩ := hns
        have := ih xs hxs
        simp only [List.flatten_cons, List.length_append, List.length_cons, List.length_nil]
        omega
    exact hlen _ _ hns
  · intro p
    exact s3 p
  · intro n hn
    obtain ⟨i, hi⟩ := List.getElem?_of_mem hn
    obtain ⟨ent, g1, g2⟩ := listed_node h h.dimPos he hi
    obtain ⟨ps, p1, p2, p3⟩ := nodePartitions_spec h g1
    obtain ⟨line, hline⟩ : ∃ line, nodeLines m parts ent = some line :=
      Option.isSome_iff_exists.1 ((mapM_get (nodes_toks h)).2 n ent g1).2
    simp only [nodeLines, Option.bind_eq_bind, Option.bind_eq_some_iff, p1, Option.some.injEq, exists_eq_left'] at hline
    obtain ⟨cs, hcs, rfl⟩ := hline
    have hmem : ∀ p, p ∈ ps ↔ ∃ q ∈ ent.inc, Present m parts p q.1 := by
      intro p
      rw [p3]
      constructor
      · rintro ⟨ent', q, a, b, c⟩
        rw [g1] at a; cases a
        exact ⟨q, b, c⟩
      · rintro ⟨q, b, c⟩
        exact ⟨ent, q, g1, b, c⟩
    refine ⟨ent, ps, .nat cs.length :: cs.flatten.map .real ++ [.eol], g1, ?_, p2, hmem, (hmem own).2 ⟨(e, i), g2, present_self h he hown⟩, ?_⟩
    · simp only [nodeLines, Option.bind_eq_bind, p1, hcs, Option.bind_some]
      simp only [List.cons_append, List.append_assoc]
    · intro p hp
      exact (hmem p).2 ⟨(e, i), g2, ((s3 p).1 hp).2⟩

/-- **C40.** No count is more than the number of nodes, so the counts fit in the space that is left for them
(`Counts.counts_fit`). -/
theorem counts_le (shapes : List Shape) (dim : Nat) (m : Mesh (List R)) (parts : List Nat) (count : Nat)
    (h : Writable shapes dim m parts count) :
    ∃ counts, partitionData m parts count = some counts ∧ counts.length = count ∧ ∀ c ∈ counts, c ≤ (m.ents 0).length := by
  obtain ⟨counts, h1, h2, h3⟩ := counts_spec h
  refine ⟨counts, h1, h2, ?_⟩
  intro c hc
  obtain ⟨i, hi⟩ := List.getElem?_of_mem hc
  have := h3 i (by rw [← h2]; exact lt_of_get hi)
  rw [hi] at this
  cases this
  exact Nat.le_trans (List.length_filter_le _ _) (by simp)

/-- **C40.** The lists of elements that process `p` sends to process `q` and that process `q` receives from process `p` are
the same, in the same order. -/
theorem push_pull (dim : Nat) (m : Mesh (List R)) (parts : List Nat) (p q : Nat) (hpq : p ≠ q)
    (periodic periodic' : List LElem → Nat × Nat → Nat × Nat → Bool)
    (L L' : Local R) (h : Describes dim m parts p periodic L) (h' : Describes dim m parts q periodic' L') :
    (L.push.filter fun x => decide (x.1 = q)).map (fun x => (L.elems[x.2]?).map LElem.id) =
    (L'.pull.filter fun x => decide (x.1 = p)).map (fun x => (L'.elems[x.2]?).map LElem.id) := by
  rw [h.push q, h'.pull p]
  congr 1
  unfold below
  apply List.filter_congr
  intro e _
  simp [hpq, Ne.symm hpq]

/-- **C40.** Every element has exactly one process that knows it as its own. -/
theorem own_unique (shapes : List Shape) (dim : Nat) (m : Mesh (List R)) (parts : List Nat) (count : Nat)
    (h : Writable shapes dim m parts count) (periodic : Nat → List LElem → Nat × Nat → Nat × Nat → Bool) (L : Nat → Local R)
    (hL : ∀ rank < count, Describes dim m parts rank (periodic rank) (L rank)) (e : Nat) (he : e < m.elems.length) :
    ∃ p, (p < count ∧ ∃ le ∈ (L p).elems, le.id = e ∧ le.owner = p) ∧
      ∀ q, q < count → (∃ le ∈ (L q).elems, le.id = e ∧ le.owner = q) → q = p := by
  obtain ⟨el, hel⟩ := get_of_lt he
  obtain ⟨p, hp, hlt⟩ := parts_get h hel
  refine ⟨p, ⟨hlt, ?_⟩, ?_⟩
  · have hm : e ∈ (L p).elems.map LElem.id := by
      rw [(hL p hlt).elems]
      unfold below
      rw [List.mem_filter]
      exact ⟨List.mem_range.2 he, by simpa using present_self h hel hp⟩
    obtain ⟨le, hle, hid⟩ := List.mem_map.1 hm
    refine ⟨le, hle, hid, ?_⟩
    obtain ⟨_, _, _, ho, _⟩ := (hL p hlt).elem le hle
    rw [hid, hp] at ho
    exact (Option.some.inj ho).symm
  · rintro q hq ⟨le, hle, hid, hown⟩
    obtain ⟨_, _, _, ho, _⟩ := (hL q hq).elem le hle
    rw [hid, hp] at ho
    rw [← hown]
    exact (Option.some.inj ho).symm

/-- Elements of one face share a node. -/
def FacesTouch (dim : Nat) (m : Mesh (List R)) : Prop :=
  ∀ f ∈ m.ents (dim - 1), ∀ q ∈ f.inc, ∀ q' ∈ f.inc, Touch m q.1 q'.1

/-- Elements of one face share a node if parts are the same entity exactly when they have the same nodes. -/
theorem shared_facesTouch (shapes : List Shape) (dim : Nat) (hdim : 1 < dim) (hsh : ShapesOk shapes dim) (m : Mesh (List R))
    (h : Consistent shapes dim m) (hs : Shared dim m) : FacesTouch dim m := by
  intro f hf q hq q' hq'
  obtain ⟨k, hk⟩ := List.getElem?_of_mem hf
  obtain ⟨el, he, hi⟩ := (h.both (dim - 1) (by omega) q.1 q.2 k).2 ⟨f, hk, hq⟩
  obtain ⟨el', he', hi'⟩ := (h.both (dim - 1) (by omega) q'.1 q'.2 k).2 ⟨f, hk, hq'⟩
  have parts : ∀ (el : Elem) (e i : Nat), m.elems[e]? = some el → (el.inc (dim - 1))[i]? = some k →
      ∃ ns, partNodes el.shape (el.inc 0) (dim - 1) i = some ns ∧ ns ≠ [] ∧ ∀ n ∈ ns, n ∈ el.inc 0 := by
    intro el e i he hi
    have hfull := h.full el (List.mem_of_getElem? he)
    have hlt : i < (el.shape.parts (dim - 1)).length := by
      have := lt_of_get hi
      rw [hfull.2 (dim - 1) (by omega)] at this
      exact this
    obtain ⟨p, hp⟩ := get_of_lt hlt
    obtain ⟨_, _, _, hok, _⟩ := hsh.ok _ hfull.1
    obtain ⟨_, hb, hne⟩ := hok (dim - 1) p (List.mem_of_getElem? hp)
    have hnodes : (el.inc 0).length = el.shape.count 0 := hfull.2 0 (by omega)
    obtain ⟨ns, hns⟩ : ∃ ns, p.mapM (fun l => (el.inc 0)[l]?) = some ns := by
      apply Option.isSome_iff_exists.1
      apply mapM_isSome
      intro l hl
      have := hb l hl
      rw [List.getElem?_eq_getElem (by omega)]
      rfl
    refine ⟨ns, by simp [partNodes, hp, hns], ?_, ?_⟩
    · obtain ⟨g1, _⟩ := mapM_get hns
      intro hc
      rw [hc] at g1
      exact hne (List.length_eq_zero_iff.1 g1.symm)
    · intro n hn
      obtain ⟨g1, g2⟩ := mapM_get hns
      obtain ⟨j, hj⟩ := List.getElem?_of_mem hn
      obtain ⟨l, hl⟩ := get_of_lt (show j < p.length by rw [← g1]; exact lt_of_get hj)
      have := (g2 j l hl).1
      rw [hj] at this
      exact List.mem_of_getElem? this.symm
  obtain ⟨ns, a1, a2, a3⟩ := parts el q.1 q.2 he hi
  obtain ⟨ns', b1, b2, b3⟩ := parts el' q'.1 q'.2 he' hi'
  have := (hs (dim - 1) (by omega) (by omega) q.1 q'.1 el el' q.2 q'.2 k k ns ns' he he' hi hi' a1 b1).1 rfl
  obtain ⟨n, hn⟩ := List.exists_mem_of_ne_nil _ a2
  exact ⟨el, el', n, he, he', a3 n hn, b3 n ((this n).1 hn)⟩

/-- **C40.** A process knows both elements of every face of its own elements that is not on the boundary of the mesh. -/
theorem own_faces_complete (dim : Nat) (hdim : 1 < dim) (m : Mesh (List R)) (parts : List Nat) (rank : Nat)
    (periodic : List LElem → Nat × Nat → Nat × Nat → Bool) (L : Local R) (h : Describes dim m parts rank periodic L)
    (ht : FacesTouch dim m) (f : LFace) (hf : f ∈ L.faces) (hr : f.right = none) (le : LElem) (hle : L.elems[f.left.1]? = some le)
    (hown : le.owner = rank) : f.type = .wall ∧ ∃ ent e i, (m.ents (dim - 1))[f.id]? = some ent ∧ ent.inc = [(e, i)] := by
  obtain ⟨ent, hent, hface⟩ := h.face hdim f hf
  obtain ⟨_, _, _, ho, _⟩ := h.elem le (List.mem_of_getElem? hle)
  rw [hown] at ho
  have htouch := ht ent (List.mem_of_getElem? hent)
  generalize hinc : ent.inc = inc at hface
  rw [hinc] at htouch
  have hid : ∀ e, (L.elems[f.left.1]?).map LElem.id = some e → le.id = e := by
    intro e he
    rw [hle] at he
    exact Option.some.inj he
  cases hface with
  | wall e i _ _ _ htype => exact ⟨htype, ent, e, i, hent, hinc⟩
  | first e i e' i' h1 _ _ _ h5 =>
    exfalso
    obtain ⟨el', el, n, t1, t2, t3, t4⟩ := htouch (e', i') (by simp) (e, i) (by simp)
    exact h5 ⟨e, ⟨el', el, n, t1, t2, t3, t4⟩, by rw [← hid e h1]; exact ho⟩
  | second e i e' i' h1 _ _ _ h5 =>
    exfalso
    obtain ⟨el', el, n, t1, t2, t3, t4⟩ := htouch (e, i) (by simp) (e', i') (by simp)
    exact h5 ⟨e', ⟨el', el, n, t1, t2, t3, t4⟩, by rw [← hid e' h1]; exact ho⟩
  | both e i e' i' b _ _ h3 _ => rw [hr] at h3; simp at h3

/-! ## Examples and findings -/

set_option synthInstance.maxSize 2000
set_option synthInstance.maxHeartbeats 200000

/-- A mesh of line elements with the given nodes of the elements and coordinates (node and position) of the elements. -/
def lines (nodes : Nat) (coords : List (Nat × Nat)) (elems : List (List Nat)) : Option (Mesh (List Nat)) :=
  run (hpgemShapes 1) 1 Mesh.empty (.addNodes nodes :: coords.map (fun c => .addNodeCoordinate c.1 [c.2]) ++ elems.map fun e => .addElement e "")

/-- Three elements in a row. -/
def row : Option (Mesh (List Nat)) := lines 4 [(0, 0), (1, 1), (2, 2), (3, 3)] [[0, 1], [1, 2], [2, 3]]

/-- Two triangles, each on its own partition. -/
def pair : Option (Mesh (List Nat)) :=
  run (hpgemShapes 2) 2 Mesh.empty
    [.addNodes 4, .addNodeCoordinate 0 [0, 0], .addNodeCoordinate 1 [1, 0], .addNodeCoordinate 2 [0, 1], .addNodeCoordinate 3 [1, 1],
      .addElement [0, 1, 2] "left", .addElement [1, 3, 2] "right"]

/-- Tests for the hypotheses of `read_write` that can be computed. -/
def writableTest (dim : Nat) (m : Mesh (List Nat)) (parts : List Nat) (count : Nat) : Bool :=
  m.elems.all (fun el => el.inc 0 ≠ [] ∧ (el.inc 0).Nodup) && decide (parts.length = m.elems.length) && parts.all (· < count) &&
    m.coords.all (fun co => co.pos.length = dim) && (m.ents (dim - 1)).all fun f => 0 < f.inc.length ∧ f.inc.length < 3

theorem writable_of_test (dim : Nat) (hdim : 0 < dim) (m : Mesh (List Nat)) (ops : List (Op (List Nat))) (parts : List Nat) (count : Nat)
    (hm : run (hpgemShapes dim) dim Mesh.empty ops = some m) (h : writableTest dim m parts count = true) :
    Writable (hpgemShapes dim) dim m parts count ∧ ∀ f ∈ m.ents (dim - 1), 0 < f.inc.length ∧ f.inc.length < 3 := by
  simp only [writableTest, Bool.and_eq_true, List.all_eq_true, decide_eq_true_eq] at h
  obtain ⟨⟨⟨⟨h1, h2⟩, h3⟩, h4⟩, h5⟩ := h
  exact ⟨⟨hdim, run_consistent _ _ hdim _ m hm, fun el hel => (h1 el hel).1, fun el hel => (h1 el hel).2, h2, h3, h4⟩, h5⟩

/-- The hypotheses of `read_write` for two triangles on two partitions, and what process 0 knows: its own triangle, that of
process 1, one inner face and four outer faces. -/
example : ∃ m, pair = some m ∧ Writable (hpgemShapes 2) 2 m [0, 1] 2 ∧ (∀ f ∈ m.ents (2 - 1), 0 < f.inc.length ∧ f.inc.length < 3) ∧
    ((write 2 m [0, 1] 2).bind (read 2 2 0 fun _ _ _ => false)).map (fun L => (L.elems.map fun e => (e.id, e.owner, e.coords), L.push, L.pull,
        L.faces.map fun f => (f.left, f.right, f.type))) =
      some ([(0, 0, [0, 1, 2]), (1, 1, [1, 3, 2])], [(1, 0)], [(1, 1)],
        [((0, 0), none, .wall), ((0, 1), none, .wall), ((0, 2), some (1, 1), .subdomain), ((1, 0), none, .wall), ((1, 2), none, .wall)]) := by
  have h : pair.any (fun m => writableTest 2 m [0, 1] 2 &&
    decide (((write 2 m [0, 1] 2).bind (read 2 2 0 fun _ _ _ => false)).map (fun L => (L.elems.map fun e => (e.id, e.owner, e.coords), L.push, L.pull,
        L.faces.map fun f => (f.left, f.right, f.type))) =
      some ([(0, 0, [0, 1, 2]), (1, 1, [1, 3, 2])], [(1, 0)], [(1, 1)],
        [((0, 0), none, .wall), ((0, 1), none, .wall), ((0, 2), some (1, 1), .subdomain), ((1, 0), none, .wall), ((1, 2), none, .wall)]))) = true := by
    decide +kernel
  cases hm : pair with
  | none => rw [hm] at h; simp at h
  | some m =>
    rw [hm] at h
    simp only [Option.any_some, Bool.and_eq_true, decide_eq_true_eq] at h
    obtain ⟨h1, h2⟩ := h
    obtain ⟨h3, h4⟩ := writable_of_test 2 (by decide) m _ [0, 1] 2 hm h1
    exact ⟨m, rfl, h3, h4, h2⟩

/-- In one dimension the last node of the elements of other processes is a wall for a process although the mesh goes on
there: node 2 of three elements in a row, on the process of the first element. -/
theorem points_of_others_are_walls : row.bind (fun m => ((write 1 m [0, 1, 1] 2).bind (read 1 2 0 fun _ _ _ => false)).map fun L =>
      (L.elems.map (·.id), L.faces.map fun f => (f.id, f.type), (m.ents 0)[2]?.map (·.inc))) =
    some ([0, 1], [(1, .wall), (2, .subdomain), (3, .wall)], some [(1, 1), (2, 0)]) := by
  decide +kernel

/-- A face between two elements of other processes is marked as periodic although it is not: node 2 of a ring of three
elements, on the process of the first element. -/
theorem faces_of_others_are_periodic : (lines 3 [(0, 0), (1, 1), (2, 2)] [[0, 1], [1, 2], [2, 0]]).bind (fun m =>
      ((write 1 m [0, 1, 1] 2).bind (read 1 2 0 fun _ _ _ => false)).map fun L =>
      (L.elems.map fun e => (e.id, e.owner), L.faces.map fun f => (f.id, f.left, f.right, f.type))) =
    some ([(0, 0), (1, 1), (2, 1)], [(1, (0, 0), some (2, 1), .subdomain), (2, (0, 1), some (1, 0), .subdomain),
      (3, (1, 1), some (2, 0), .periodicSubdomain)]) := by
  decide +kernel

/-- Without the hypothesis that no element meets itself in a node the coordinates are lost: an element from 0 to 7 whose
ends are one node, as in a periodic mesh of one element, is read as an element from 0 to 0. -/
theorem repeated_node_loses_coordinate : (lines 1 [(0, 0), (0, 7)] [[0, 1]]).bind (fun m =>
      ((write 1 m [0] 1).bind (read 1 1 0 fun _ _ _ => false)).map fun L =>
      (m.elems.map fun el => el.coords.map fun c => m.coords[c]?.map (·.pos), L.elems.map fun e => e.coords.map fun c => L.coords[c]?)) =
    some ([[some [0], some [7]]], [[some [0], some [0]]]) := by
  decide +kernel

/-- A mesh with a face of three elements can be written but not read. -/
theorem three_elements_at_face : (run (hpgemShapes 2) 2 Mesh.empty
      [.addNodes 5, .addNodeCoordinate 0 [0, 0], .addNodeCoordinate 1 [1, 0], .addNodeCoordinate 2 [0, 1], .addNodeCoordinate 3 [1, 1],
        .addNodeCoordinate 4 [2, 2], .addElement [0, 1, 2] "", .addElement [0, 1, 3] "", .addElement [0, 1, 4] ""]).map (fun m =>
      ((write 2 m [0, 0, 0] 1).isSome, ((write 2 m [0, 0, 0] 1).bind (read 2 1 0 fun _ _ _ => false)).isSome)) = some (true, false) := by
  decide +kernel

end Verif.MeshFile
