import Verif.MeshFile.LemmasWrite

/-! # Helper lemmas: the whole file -/
set_option linter.all false
namespace Verif.MeshFile
open Verif.PreMesh Verif.ElementShape

variable {R : Type} [LinearOrder R] {shapes : List Shape} {dim : Nat} {m : Mesh (List R)} {parts : List Nat} {count : Nat}

def psOf (m : Mesh (List R)) (parts : List Nat) (n : Nat) : List Nat := ((m.ents 0)[n]?.bind (nodePartitions m parts)).getD []
def csOf (m : Mesh (List R)) (n : Nat) : List (List R) := ((m.ents 0)[n]?.bind (nodeCoordinates m)).getD []
def incOf (m : Mesh (List R)) (d k : Nat) : List (Nat × Nat) := ((m.ents d)[k]?.map Entity.inc).getD []
def epOf (m : Mesh (List R)) (parts : List Nat) (d k : Nat) : List Nat := ((m.ents d)[k]?.bind (entityPartitions m parts)).getD []
def dataOf (m : Mesh (List R)) (parts : List Nat) : ElemData where
  ns e := ((m.elems[e]?.map fun el => el.inc 0).getD []).map fun n => (n, (coordinateIndex m n e).getD 0)
  own e := parts.getD e 0
  sh e := (shadowPartitions m parts e).getD []
  zone e := (m.elems[e]?.map fun el => el.zone).getD 0

theorem lt_of_get {α : Type} {l : List α} {i : Nat} {x : α} (h : l[i]? = some x) : i < l.length := by
  by_contra hc; rw [List.getElem?_eq_none (by omega)] at h; simp at h

theorem get_of_lt {α : Type} {l : List α} {i : Nat} (h : i < l.length) : ∃ x, l[i]? = some x := ⟨l[i], List.getElem?_eq_getElem h⟩

theorem psOf_spec (h : Writable shapes dim m parts count) (n : Nat) :
    (psOf m parts n).Nodup ∧ ∀ p, p ∈ psOf m parts n ↔ EntityPresent m parts p 0 n := by
  unfold psOf
  cases hn : (m.ents 0)[n]? with
  | none => simp [EntityPresent, hn]
  | some ent =>
    obtain ⟨l, h1, h2, h3⟩ := nodePartitions_spec h hn
    simp [h1, h2, h3]

theorem epOf_spec (h : Writable shapes dim m parts count) {d : Nat} (hd : d < dim) (n : Nat) :
    (epOf m parts d n).Nodup ∧ ∀ p, p ∈ epOf m parts d n ↔ EntityPresent m parts p d n := by
  unfold epOf
  cases hn : (m.ents d)[n]? with
  | none => simp [EntityPresent, hn]
  | some ent =>
    obtain ⟨l, h1, h2, h3⟩ := entityPartitions_spec h hd hn
    simp [h1, h2, h3]

theorem csOf_spec (h : Writable shapes dim m parts count) (n : Nat) : (csOf m n).Nodup ∧ ∀ x ∈ csOf m n, x.length = dim := by
  unfold csOf
  cases hn : (m.ents 0)[n]? with
  | none => simp
  | some ent =>
    obtain ⟨l, h1, h2, h3, _⟩ := nodeCoordinates_spec h hn
    simp only [Option.bind_some, h1, Option.getD_some]
    exact ⟨h2, h3⟩

theorem nodes_toks (h : Writable shapes dim m parts count) :
    (m.ents 0).mapM (nodeLines m parts) = some ((List.range (m.ents 0).length).map fun i => nodeToks (psOf m parts i) (csOf m i)) := by
  apply mapM_range
  intro i ent hi
  obtain ⟨l, h1, _⟩ := nodePartitions_spec h hi
  obtain ⟨c, h2, _⟩ := nodeCoordinates_spec h hi
  simp [nodeLines, h1, h2, psOf, csOf, hi, nodeToks]

theorem elems_toks (h : Writable shapes dim m parts count) :
    m.elems.mapM (elementLines m parts) = some ((List.range m.elems.length).map fun i =>
      elemToks ((dataOf m parts).ns i) ((dataOf m parts).own i) ((dataOf m parts).sh i) ((dataOf m parts).zone i)) := by
  apply mapM_range
  intro e el he
  have hid := h.cons.elemId e el he
  obtain ⟨p, hp, _⟩ := parts_get h he
  obtain ⟨sh, hsh, _⟩ := shadowPartitions_spec h he hp
  have hns : ((el.inc 0).mapM fun n => do
      let i ← coordinateIndex m n e
      some [Tok.nat n, Tok.nat i]) = some ((el.inc 0).map fun n => ([Tok.nat n, Tok.nat ((coordinateIndex m n e).getD 0)] : List (Tok R))) := by
    apply mapM_some
    intro n hn
    obtain ⟨j, hj⟩ := List.getElem?_of_mem hn
    obtain ⟨_, _, o, _, _, ho, _⟩ := coordinateIndex_spec h he hj
    simp [ho]
  unfold elementLines
  rw [hid]
  simp only [Option.bind_eq_bind] at hns
  simp only [Option.bind_eq_bind, hns, Option.bind_some, hp, hsh]
  simp [elemToks, dataOf, he, hsh, hp, List.getD_eq_getElem?_getD, List.map_map, Function.comp_def]

theorem ents_toks (h : Writable shapes dim m parts count) {d : Nat} (hd : d < dim) :
    (m.ents d).mapM (entityLine m parts) = some ((List.range (m.ents d).length).map fun i => entToks (incOf m d i) (epOf m parts d i)) := by
  apply mapM_range
  intro i ent hi
  obtain ⟨l, h1, _⟩ := entityPartitions_spec h hd hi
  simp [entityLine, h1, incOf, epOf, hi, entToks]

/-- The counts that are written. -/
theorem counts_spec (h : Writable shapes dim m parts count) :
    ∃ counts, partitionData m parts count = some counts ∧ counts.length = count ∧
      ∀ rank < count, counts[rank]? = some (((List.range (m.ents 0).length).filter fun i => decide (rank ∈ psOf m parts i)).length) := by
  have h1 : (m.ents 0).mapM (nodePartitions m parts) = some ((List.range (m.ents 0).length).map (psOf m parts)) := by
    apply mapM_range
    intro i ent hi
    obtain ⟨l, h1, _⟩ := nodePartitions_spec h hi
    simp [h1, psOf, hi]
  refine ⟨(List.range count).map fun p => ((List.range (m.ents 0).length).map (psOf m parts)).flatten.count p, ?_, by simp, ?_⟩
  · unfold partitionData
    simp only [h1, Option.bind_eq_bind, Option.bind_some]
    rw [if_pos]
    rw [List.all_eq_true]
    intro p hp
    simp only [List.mem_flatten, List.mem_map] at hp
    obtain ⟨_, ⟨n, hn, rfl⟩, hp⟩ := hp
    obtain ⟨_, q, _, _, hq⟩ := ((psOf_spec h n).2 p).1 hp
    simpa using present_lt h hq
  · intro rank hr
    rw [List.getElem?_map, List.getElem?_range hr, Option.map_some]
    congr 1
    generalize (m.ents 0).length = N
    induction N with
    | zero => rfl
    | succ N ih =>
      rw [List.range_succ, List.map_append, List.flatten_append, List.count_append, ih, List.filter_append, List.length_append]
      congr 1
      by_cases hm : rank ∈ psOf m parts N
      · simp [hm, count_one (psOf_spec h N).1 rank hm]
      · simp [hm, List.count_eq_zero_of_not_mem hm]

theorem here_iff (h : Writable shapes dim m parts count) (rank : Nat) {e : Nat} {el : Elem} (he : m.elems[e]? = some el) :
    (dataOf m parts).here rank e = true ↔ Present m parts rank e := by
  obtain ⟨p, hp, _⟩ := parts_get h he
  obtain ⟨sh, hsh, _, hs⟩ := shadowPartitions_spec h he hp
  have e1 : (dataOf m parts).own e = p := by simp [dataOf, List.getD_eq_getElem?_getD, hp]
  have e2 : (dataOf m parts).sh e = sh := by simp [dataOf, hsh]
  simp only [ElemData.here, e1, e2, decide_eq_true_eq, hs]
  constructor
  · rintro (rfl | ⟨_, h'⟩)
    · exact present_self h he hp
    · exact h'
  · intro h'
    by_cases hpr : p = rank
    · exact Or.inl hpr
    · exact Or.inr ⟨fun hc => hpr hc.symm, h'⟩

theorem own_eq (h : Writable shapes dim m parts count) {e : Nat} {el : Elem} (he : m.elems[e]? = some el) :
    parts[e]? = some ((dataOf m parts).own e) := by
  obtain ⟨p, hp, _⟩ := parts_get h he
  simp [dataOf, List.getD_eq_getElem?_getD, hp]

theorem mem_sh_iff (h : Writable shapes dim m parts count) {e : Nat} {el : Elem} (he : m.elems[e]? = some el) (q : Nat) :
    q ∈ (dataOf m parts).sh e ↔ q ≠ (dataOf m parts).own e ∧ Present m parts q e := by
  obtain ⟨p, hp, _⟩ := parts_get h he
  obtain ⟨sh, hsh, _, hs⟩ := shadowPartitions_spec h he hp
  have e1 : (dataOf m parts).own e = p := by simp [dataOf, List.getD_eq_getElem?_getD, hp]
  have e2 : (dataOf m parts).sh e = sh := by simp [dataOf, hsh]
  rw [e1, e2, hs]

theorem sh_nodup (h : Writable shapes dim m parts count) {e : Nat} {el : Elem} (he : m.elems[e]? = some el) : ((dataOf m parts).sh e).Nodup := by
  obtain ⟨p, hp, _⟩ := parts_get h he
  obtain ⟨sh, hsh, hnd, hs⟩ := shadowPartitions_spec h he hp
  have e2 : (dataOf m parts).sh e = sh := by simp [dataOf, hsh]
  rw [e2]; exact hnd

/-- The nodes of an element that is here are here, and the indices that are written for it are valid. -/
theorem ns_spec (h : Writable shapes dim m parts count) (rank : Nat) {e : Nat} {el : Elem} (he : m.elems[e]? = some el)
    (hp : Present m parts rank e) {off : Nat} {s : NodeState R}
    (hs : NodeInv off (fun i => decide (rank ∈ psOf m parts i)) (csOf m) (m.ents 0).length s) {j n : Nat} (hj : (el.inc 0)[j]? = some n) :
    n < (m.ents 0).length ∧ rank ∈ psOf m parts n ∧ (coordinateIndex m n e).getD 0 < (csOf m n).length ∧
      s.nodes[mapAt s.index n]? = some (n + off) ∧ s.coords[mapAt s.start n + (coordinateIndex m n e).getD 0]? = posAt m (e, j) ∧
      (csOf m n)[(coordinateIndex m n e).getD 0]? = posAt m (e, j) ∧ (posAt m (e, j)).isSome ∧
      posAt m (e, j) = (el.coords[j]?).bind fun c => (m.coords[c]?).map Coord.pos := by
  obtain ⟨ent, cs, o, h1, h2, h3, h4, h5⟩ := coordinateIndex_spec h he hj
  obtain ⟨ent', hent', hmem⟩ := listed_node h h.dimPos he hj
  have hlt := lt_of_get h1
  have hr : rank ∈ psOf m parts n := ((psOf_spec h n).2 rank).2 ⟨ent', (e, j), hent', hmem, hp⟩
  have hc : csOf m n = cs := by simp [csOf, h1, h2]
  obtain ⟨el', c, co, g1, g2, g3, g4, _⟩ := posAt_spec h hent' hmem
  rw [he] at g1
  cases g1
  refine ⟨hlt, hr, by rw [h3, hc]; exact h4, hs.node n hlt (by simpa using hr), ?_, by rw [h3, hc]; exact h5, by simp [g4], ?_⟩
  · rw [h3, Option.getD_some, hs.coord n hlt (by simpa using hr) o (by rw [hc]; exact h4), hc]
    exact h5
  · simp [g4, g2, g3]

end Verif.MeshFile
