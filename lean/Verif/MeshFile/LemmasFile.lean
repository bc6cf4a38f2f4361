import Verif.MeshFile.LemmasAll

/-! # Helper lemmas: reading the whole file -/
set_option linter.all false
namespace Verif.MeshFile
open Verif.PreMesh Verif.ElementShape

variable {R : Type} [LinearOrder R] {shapes : List Shape} {dim : Nat} {m : Mesh (List R)} {parts : List Nat} {count : Nat}

/-- The counts of the other entities. -/
def otherNats (m : Mesh (List R)) : Nat → List Nat
  | 0 => []
  | d + 1 => (m.ents (d + 1)).length :: otherNats m d

theorem otherCounts_eq (m : Mesh (List R)) (d : Nat) : otherCounts m d = (otherNats m d).map Tok.nat := by
  induction d with
  | zero => rfl
  | succ d ih => simp [otherCounts, otherNats, ih]

theorem otherNats_length (m : Mesh (List R)) (d : Nat) : (otherNats m d).length = d := by
  induction d with
  | zero => rfl
  | succ d ih => simp [otherNats, ih]

def nodeBody (m : Mesh (List R)) (parts : List Nat) : List (Tok R) :=
  ((List.range (m.ents 0).length).map fun i => nodeToks (psOf m parts i) (csOf m i)).flatten

def elemBody (m : Mesh (List R)) (parts : List Nat) : List (Tok R) :=
  ((List.range m.elems.length).map fun i =>
      elemToks ((dataOf m parts).ns i) ((dataOf m parts).own i) ((dataOf m parts).sh i) ((dataOf m parts).zone i)).flatten

def entBody (m : Mesh (List R)) (parts : List Nat) (d : Nat) : List (Tok R) :=
  ((List.range (m.ents d).length).map fun i => entToks (incOf m d i) (epOf m parts d i)).flatten

/-- The file after the header. -/
def bodyToks (m : Mesh (List R)) (parts : List Nat) (others : List (Tok R)) : List (Tok R) :=
  .word "nodes" :: .eol :: (nodeBody m parts ++ .word "elements" :: .eol :: (elemBody m parts ++ others))

def fileToks (dim count : Nat) (m : Mesh (List R)) (counts : List Nat) (body : List (Tok R)) : List (Tok R) :=
  .word "mesh" :: .nat 2 :: .eol :: .nat (m.ents 0).length :: .nat m.elems.length :: .nat dim :: ((otherNats m (dim - 1)).map Tok.nat ++
    .eol :: .nat count :: (counts.map .nat ++ .eol :: .word "zones" :: .eol :: .nat m.zones.length :: .eol ::
      ((m.zones.map fun z => [.word z, .eol]).flatten ++ body)))

theorem readInfo_toks (dim count : Nat) (m : Mesh (List R)) (counts : List Nat) (hc : counts.length = count) (body : List (Tok R)) :
    readInfo (fileToks dim count m counts body) =
      some (⟨(m.ents 0).length, m.elems.length, dim, otherNats m (dim - 1), counts, m.zones⟩, body) := by
  have h1 := readNats_map (otherNats m (dim - 1)) (.eol :: .nat count :: (counts.map .nat ++ .eol :: .word "zones" :: .eol :: .nat m.zones.length :: .eol ::
      ((m.zones.map fun z => [.word z, .eol]).flatten ++ body)))
  rw [otherNats_length] at h1
  have h2 := readNats_map counts (.eol :: .word "zones" :: .eol :: .nat m.zones.length :: .eol ::
      ((m.zones.map fun z => [.word z, .eol]).flatten ++ body))
  rw [hc] at h2
  unfold readInfo fileToks
  simp only [readNat_nat, readNat_eol, Option.bind_eq_bind, Option.bind_some, h1, h2, ignoreLine_eol, readZones_map]

/-- The part of the file with the faces and edges. -/
def othersToks (m : Mesh (List R)) (parts : List Nat) (dim : Nat) : List (Tok R) :=
  if dim = 2 then .word "codim1" :: .eol :: entBody m parts 1
  else if dim = 3 then .word "codim1" :: .eol :: (entBody m parts 2 ++ .word "codim2" :: .eol :: entBody m parts 1)
  else []

theorem otherLines_eq (h : Writable shapes dim m parts count) (hdim : dim ≤ 3) :
    otherLines m parts dim (dim - 1) = some (othersToks m parts dim) := by
  have hp := h.dimPos
  obtain rfl | rfl | rfl : dim = 1 ∨ dim = 2 ∨ dim = 3 := by omega
  · rfl
  · have h1 := ents_toks h (d := 1) (by omega)
    simp only [show (2 : Nat) - 1 = 0 + 1 from rfl, otherLines, h1, Option.bind_eq_bind, Option.bind_some, othersToks]
    simp [entBody]
    decide
  · have h1 := ents_toks h (d := 1) (by omega)
    have h2 := ents_toks h (d := 2) (by omega)
    simp only [show (3 : Nat) - 1 = 0 + 1 + 1 from rfl, otherLines, h1, h2, Option.bind_eq_bind, Option.bind_some, othersToks]
    simp [entBody]
    decide

theorem write_eq (h : Writable shapes dim m parts count) (hdim : dim ≤ 3) (counts : List Nat) (hc : partitionData m parts count = some counts) :
    write dim m parts count = some (fileToks dim count m counts (bodyToks m parts (othersToks m parts dim))) := by
  unfold write
  simp only [hc, nodes_toks h, elems_toks h, otherLines_eq h hdim, Option.bind_eq_bind, Option.bind_some, otherCounts_eq]
  simp [fileToks, bodyToks, nodeBody, elemBody]

theorem actualAt_present (h : Writable shapes dim m parts count) {rank : Nat} {ns : NodeState R} {es : ElemState}
    (hes : ElemInv (dataOf m parts) rank ns m.elems.length es) {e : Nat} {el : Elem} (he : m.elems[e]? = some el) :
    (Present m parts rank e → actualAt es e = some (rankOf ((dataOf m parts).here rank) e)) ∧
    (¬ Present m parts rank e → actualAt es e = none) := by
  have h1 := hes.actual e (lt_of_get he)
  have h2 := here_iff h rank he
  constructor
  · intro hp
    rw [h1, if_pos (h2.2 hp)]
  · intro hp
    rw [h1, if_neg fun hc => hp (h2.1 hc)]

theorem makeFace_isSome (h : Writable shapes dim m parts count) {rank : Nat} {ns : NodeState R} {es : ElemState}
    (hes : ElemInv (dataOf m parts) rank ns m.elems.length es) {d : Nat} (hd : d < dim)
    (periodic : Nat × Nat → Nat × Nat → Bool) {k : Nat} (hk : 0 < (incOf m d k).length ∧ (incOf m d k).length < 3)
    (hr : EntityPresent m parts rank d k) (id : Nat) : (makeFace periodic es id (incOf m d k)).isSome := by
  obtain ⟨ent, q, hent, hq, hp⟩ := hr
  have e1 : incOf m d k = ent.inc := by simp [incOf, hent]
  rw [e1] at hk ⊢
  obtain ⟨el, he, _⟩ := linked_elem h hd hent hq
  have ha := (actualAt_present h hes he).1 hp
  match hinc : ent.inc with
  | [] => simp [hinc] at hk
  | [(a, i)] =>
    simp [hinc] at hq
    subst hq
    simp [makeFace, ha]
  | [(a, i), (b, j)] =>
    simp [hinc] at hq
    simp only [makeFace]
    rcases hq with rfl | rfl
    · simp only at ha
      rw [ha]
      split <;> simp_all
    · simp only at ha
      rw [ha]
      split <;> simp_all
  | _ :: _ :: _ :: _ => simp [hinc] at hk; omega

/-- The faces of a one-dimensional mesh. -/
theorem facesOfNodes_spec (periodic : Nat × Nat → Nat × Nat → Bool) : ∀ (l : List (Nat × List (Nat × Nat))) (last : Nat),
    (∀ x ∈ l, x.2 ≠ []) → (l.map Prod.fst).Pairwise (· < ·) → (∀ x ∈ l, last < x.1) →
    ∃ fs, facesOfNodes periodic l last (last + 1) = some fs ∧ fs.map LFace.id = l.map Prod.fst ∧
      ∀ f ∈ fs, ∃ x ∈ l, f.id = x.1 ∧ ((x.2 = [f.left] ∧ f.right = none ∧ f.type = .wall) ∨
        ∃ r t, x.2 = f.left :: r :: t ∧ f.right = some r ∧ f.type = if periodic f.left r then .periodic else .internal)
  | [], last, _, _, _ => ⟨[], rfl, rfl, by simp⟩
  | (id, ps) :: l, last, h1, h2, h3 => by
    have hid : last < id := h3 (id, ps) (by simp)
    rw [List.map_cons, List.pairwise_cons] at h2
    obtain ⟨fs, g1, g2, g3⟩ := facesOfNodes_spec periodic l id (fun x hx => h1 x (by simp [hx])) h2.2
      (fun x hx => h2.1 x.1 (List.mem_map.2 ⟨x, hx, rfl⟩))
    have e1 : last + 1 + (id - 1 - last) = id := by omega
    have e2 : last + (id - 1 - last) + 1 = id := by omega
    match ps, h1 (id, ps) (by simp) with
    | [q], _ =>
      refine ⟨⟨id, q, none, .wall⟩ :: fs, ?_, by simp [g2], ?_⟩
      · simp only [facesOfNodes, Option.bind_eq_bind, Option.bind_some, e1, e2, g1]
      · intro f hf
        rcases List.mem_cons.1 hf with rfl | hf
        · exact ⟨(id, [q]), by simp, rfl, Or.inl ⟨rfl, rfl, rfl⟩⟩
        · obtain ⟨x, hx, hx'⟩ := g3 f hf
          exact ⟨x, by simp [hx], hx'⟩
    | q :: r :: t, _ =>
      refine ⟨⟨id, q, some r, if periodic q r then .periodic else .internal⟩ :: fs, ?_, by simp [g2], ?_⟩
      · simp only [facesOfNodes, Option.bind_eq_bind, Option.bind_some, e1, e2, g1]
      · intro f hf
        rcases List.mem_cons.1 hf with rfl | hf
        · exact ⟨(id, q :: r :: t), by simp, rfl, Or.inr ⟨r, t, rfl, rfl, rfl⟩⟩
        · obtain ⟨x, hx, hx'⟩ := g3 f hf
          exact ⟨x, by simp [hx], hx'⟩

theorem range'_zero (n : Nat) : List.range' 0 n = List.range n := by rw [List.range_eq_range']

/-- The stages of the reader. -/
theorem read_stages (h : Writable shapes dim m parts count) (hdim : dim ≤ 3)
    (hface : 1 < dim → ∀ f ∈ m.ents (dim - 1), 0 < f.inc.length ∧ f.inc.length < 3)
    (counts : List Nat) (hc : partitionData m parts count = some counts) {rank : Nat} (hr : rank < count)
    (periodic : List LElem → Nat × Nat → Nat × Nat → Bool) :
    ∃ (ns : NodeState R) (es : ElemState) (fs : List LFace × Nat) (ed : List LEdge × Nat),
      NodeInv (offset dim) (fun i => decide (rank ∈ psOf m parts i)) (csOf m) (m.ents 0).length ns ∧
      ElemInv (dataOf m parts) rank ns m.elems.length es ∧
      (1 < dim → FaceInv rank (periodic es.elems) es (incOf m (dim - 1)) (epOf m parts (dim - 1)) (m.ents (dim - 1)).length fs) ∧
      (dim = 3 → EdgeInv rank es (incOf m 1) (epOf m parts 1) (m.ents 1).length ed) ∧
      read dim count rank periodic (fileToks dim count m counts (bodyToks m parts (othersToks m parts dim))) =
        (allFaces dim (periodic es.elems) ns.nodes es.elems fs.1).bind fun faces =>
          some ⟨m.zones, ns.coords, ns.nodes, es.elems, es.push, es.pull, faces.map (relabel (es.pull.map Prod.snd)), ed.1⟩ := by
  obtain ⟨counts', hc', hlen, hcount⟩ := counts_spec h
  rw [hc] at hc'
  cases hc'
  have hp := h.dimPos
  -- the nodes
  obtain ⟨ns, t1, n1, n2, n3⟩ := readNodes_toks rank dim (offset dim) (psOf m parts) (csOf m) (fun n => (csOf_spec h n).2)
    (.word "elements" :: .eol :: (elemBody m parts ++ othersToks m parts dim)) (m.ents 0).length 0 ⟨[], [], [], [], offset dim⟩
    (.eol :: (nodeBody m parts ++ .word "elements" :: .eol :: (elemBody m parts ++ othersToks m parts dim)))
    (NodeInv.zero _ _ _) (by rw [range'_zero]; exact same_eol _)
  rw [Nat.zero_add] at n2
  -- the elements
  have hz : ∀ k < m.elems.length, (dataOf m parts).zone k < m.zones.length := by
    intro k hk
    obtain ⟨el, he⟩ := get_of_lt hk
    have := h.cons.zones el (List.mem_of_getElem? he)
    simpa [dataOf, he] using this
  have hb : ∀ k < m.elems.length, (dataOf m parts).here rank k = true → ∀ q ∈ (dataOf m parts).ns k,
      mapAt ns.start q.1 + q.2 < ns.coords.length ∧ mapAt ns.index q.1 < ns.nodes.length := by
    intro k hk hh q hq
    obtain ⟨el, he⟩ := get_of_lt hk
    simp only [dataOf, he, Option.map_some, Option.getD_some, List.mem_map] at hq
    obtain ⟨n, hn, rfl⟩ := hq
    obtain ⟨j, hj⟩ := List.getElem?_of_mem hn
    obtain ⟨g1, g2, g3, g4, g5, _, g6, _⟩ := ns_spec h rank he ((here_iff h rank he).1 hh) n2 hj
    obtain ⟨x, hx⟩ := Option.isSome_iff_exists.1 g6
    rw [hx] at g5
    exact ⟨lt_of_get g5, lt_of_get g4⟩
  obtain ⟨es, t2, e1, e2, e3⟩ := readElems_toks (dataOf m parts) rank m.zones.length ns m.elems.length hz hb
    (othersToks m parts dim) m.elems.length 0 ⟨[], [], [], [], 0⟩ (.eol :: (elemBody m parts ++ othersToks m parts dim))
    (by omega) (ElemInv.zero _ _ _) (by rw [range'_zero]; exact same_eol _)
  have hnodes : readHeader "nodes" (bodyToks m parts (othersToks m parts dim)) =
      some (.eol :: (nodeBody m parts ++ .word "elements" :: .eol :: (elemBody m parts ++ othersToks m parts dim))) := by
    simp [bodyToks]
  have helems : readHeader "elements" t1 = some (.eol :: (elemBody m parts ++ othersToks m parts dim)) := by
    rw [readHeader_same n3]; simp
  have hcnt : ns.nodes.length = ((List.range (m.ents 0).length).filter fun i => decide (rank ∈ psOf m parts i)).length := by
    rw [n2.nodes]; simp
  have hzone : m.zones ≠ [] ∨ m.elems.length = 0 := by
    by_cases he : m.elems.length = 0
    · exact Or.inr he
    · obtain ⟨el, hel⟩ := get_of_lt (show 0 < m.elems.length by omega)
      have := h.cons.zones el (List.mem_of_getElem? hel)
      left
      rintro hc
      rw [hc] at this
      simp at this
  have hinc : ∀ d i, i < (m.ents d).length → ∃ ent ∈ m.ents d, incOf m d i = ent.inc := by
    intro d i hi
    obtain ⟨ent, he⟩ := get_of_lt hi
    exact ⟨ent, List.mem_of_getElem? he, by simp [incOf, he]⟩
  have hstart : read dim count rank periodic (fileToks dim count m counts (bodyToks m parts (othersToks m parts dim))) =
      ((readSegment 1 dim "codim1" t2).bind fun t =>
        (readFaces rank (periodic es.elems) es (if 1 < dim then (otherNats m (dim - 1)).headD 0 else 0) ([], 0) t).bind fun x =>
        (readSegment 2 dim "codim2" x.2).bind fun t =>
        (readEdges rank es (if 2 < dim then (otherNats m (dim - 1)).getLastD 0 else 0) ([], 0) t).bind fun y =>
        (allFaces dim (periodic es.elems) ns.nodes es.elems x.1.1).bind fun faces =>
          some ⟨m.zones, ns.coords, ns.nodes, es.elems, es.push, es.pull, faces.map (relabel (es.pull.map Prod.snd)), y.1.1⟩) := by
    unfold read
    rw [readInfo_toks dim count m counts hlen]
    simp only [Option.bind_eq_bind, Option.bind_some]
    rw [if_pos ⟨trivial, hlen, hp, hzone⟩, hcount rank hr]
    simp only [Option.bind_some, hnodes]
    rw [show (if dim = 1 then 1 else 0 : Nat) = offset dim from rfl, n1]
    simp only [Option.bind_some]
    rw [if_pos hcnt, helems]
    simp only [Option.bind_some, e1]
  obtain rfl | rfl | rfl : dim = 1 ∨ dim = 2 ∨ dim = 3 := by omega
  · refine ⟨ns, es, ([], 0), ([], 0), n2, e2, by omega, by omega, ?_⟩
    rw [hstart]
    rfl
  · have hf := hface (by omega)
    obtain ⟨fs, t3, f1, f2, f3⟩ := readFaces_toks rank (periodic es.elems) es (incOf m 1) (epOf m parts 1) (m.ents 1).length
      (fun i _ => (epOf_spec h (by omega) i).1)
      (fun i hi => by obtain ⟨ent, g1, g2⟩ := hinc 1 i hi; rw [g2]; exact hf ent g1)
      (fun i hi hm id => makeFace_isSome h e2 (by omega) _ (by obtain ⟨ent, g1, g2⟩ := hinc 1 i hi; rw [g2]; exact hf ent g1) (((epOf_spec h (by omega) i).2 rank).1 hm) id)
      [] (m.ents 1).length 0 ([], 0) (.eol :: entBody m parts 1) (by omega) ⟨rfl, by simp, by simp⟩
      (by rw [range'_zero, List.append_nil]; exact same_eol _)
    refine ⟨ns, es, fs, ([], 0), n2, e2, fun _ => f2, by omega, ?_⟩
    rw [hstart]
    have : readHeader "codim1" t2 = some (.eol :: entBody m parts 1) := by
      rw [readHeader_same e3]; simp [othersToks]
    simp only [if_pos (show (1 : Nat) < 2 by omega), readSegment, this, Option.bind_some, show (otherNats m (2 - 1)).headD 0 = (m.ents 1).length from rfl, f1]
    rfl
  · have hf := hface (by omega)
    obtain ⟨fs, t3, f1, f2, f3⟩ := readFaces_toks rank (periodic es.elems) es (incOf m 2) (epOf m parts 2) (m.ents 2).length
      (fun i _ => (epOf_spec h (by omega) i).1)
      (fun i hi => by obtain ⟨ent, g1, g2⟩ := hinc 2 i hi; rw [g2]; exact hf ent g1)
      (fun i hi hm id => makeFace_isSome h e2 (by omega) _ (by obtain ⟨ent, g1, g2⟩ := hinc 2 i hi; rw [g2]; exact hf ent g1) (((epOf_spec h (by omega) i).2 rank).1 hm) id)
      (.word "codim2" :: .eol :: entBody m parts 1) (m.ents 2).length 0 ([], 0) (.eol :: (entBody m parts 2 ++ .word "codim2" :: .eol :: entBody m parts 1)) (by omega) ⟨rfl, by simp, by simp⟩
      (by rw [range'_zero]; exact same_eol _)
    obtain ⟨ed, t4, d1, d2, d3⟩ := readEdges_toks rank es (incOf m 1) (epOf m parts 1) (m.ents 1).length
      (fun i _ => (epOf_spec h (by omega) i).1)
      [] (m.ents 1).length 0 ([], 0) (.eol :: entBody m parts 1) (by omega) ⟨rfl, by simp, by simp⟩
      (by rw [range'_zero, List.append_nil]; exact same_eol _)
    refine ⟨ns, es, fs, ed, n2, e2, fun _ => f2, fun _ => d2, ?_⟩
    rw [hstart]
    have c1 : readHeader "codim1" t2 = some (.eol :: (entBody m parts 2 ++ .word "codim2" :: .eol :: entBody m parts 1)) := by
      rw [readHeader_same e3]; simp [othersToks]
    have c2 : readHeader "codim2" t3 = some (.eol :: entBody m parts 1) := by
      rw [readHeader_same f3]; simp
    simp only [readSegment, if_pos (show (1 : Nat) < 3 by omega), if_pos (show (2 : Nat) < 3 by omega), c1, Option.bind_some, show (otherNats m (3 - 1)).headD 0 = (m.ents 2).length from rfl, f1,
      c2, show (otherNats m (3 - 1)).getLastD 0 = (m.ents 1).length from rfl, d1]

end Verif.MeshFile
