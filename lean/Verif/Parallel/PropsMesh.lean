import Verif.Parallel.Props

/-! # The solver on a mesh from a file -/
namespace Verif.Parallel
open Verif.Submesh Verif.MeshFile Verif.PreMesh

variable {V : Type} [AddCommGroup V] [Module ℝ V] {R : Type} [LinearOrder R]

/-- The faces of a mesh of the preprocessor: its entities of dimension `dim - 1` with one or two elements. -/
def meshFaces (dim : Nat) (m : Mesh (List R)) : List Face :=
  (m.ents (dim - 1)).zipIdx.filterMap fun x => match x.1.inc with
    | [(e, _)] => some ⟨x.2, e, none⟩
    | [(e, _), (e', _)] => some ⟨x.2, e, some e'⟩
    | _ => none

/-- `getFacesList()` of a process that has read the mesh, with the elements given by their ids. -/
def localFaces (L : Local R) : List Face :=
  L.faces.filterMap fun f => (L.elems[f.left.1]?).bind fun l => match f.right with
    | none => some ⟨f.id, l.id, none⟩
    | some r => (L.elems[r.1]?).map fun e => ⟨f.id, l.id, some e.id⟩

theorem mem_meshFaces (dim : Nat) (m : Mesh (List R)) (F : Face) : F ∈ meshFaces dim m ↔
    ∃ ent, (m.ents (dim - 1))[F.id]? = some ent ∧ ((∃ i, ent.inc = [(F.left, i)] ∧ F.right = none) ∨
      ∃ i e' i', ent.inc = [(F.left, i), (e', i')] ∧ F.right = some e') := by
  obtain ⟨k, l, r⟩ := F
  simp only [meshFaces, List.mem_filterMap, Prod.exists, List.mk_mem_zipIdx_iff_getElem?]
  constructor
  · rintro ⟨ent, k', hk, hm⟩
    split at hm
    · next e i hinc =>
      simp only [Option.some.injEq, Face.mk.injEq] at hm
      obtain ⟨rfl, rfl, rfl⟩ := hm
      exact ⟨ent, hk, Or.inl ⟨i, hinc, rfl⟩⟩
    · next e i e' i' hinc =>
      simp only [Option.some.injEq, Face.mk.injEq] at hm
      obtain ⟨rfl, rfl, rfl⟩ := hm
      exact ⟨ent, hk, Or.inr ⟨i, e', i', hinc, rfl⟩⟩
    · simp at hm
  · rintro ⟨ent, hk, ⟨i, hinc, rfl⟩ | ⟨i, e', i', hinc, rfl⟩⟩
    · exact ⟨ent, k, hk, by rw [hinc]⟩
    · exact ⟨ent, k, hk, by rw [hinc]⟩

theorem nodup_meshFaces (dim : Nat) (m : Mesh (List R)) : (meshFaces dim m).Nodup := by
  unfold meshFaces
  rw [List.Nodup, List.pairwise_filterMap]
  have : ((m.ents (dim - 1)).zipIdx.map Prod.snd).Nodup := by
    rw [List.zipIdx_map_snd]
    exact List.nodup_range'
  rw [List.Nodup, List.pairwise_map] at this
  refine this.imp ?_
  rintro ⟨ent, k⟩ ⟨ent', k'⟩ hne b hb b' hb' rfl
  apply hne
  have key : ∀ (ent : Entity) (k : Nat), (match ent.inc with
    | [(e, _)] => some (⟨k, e, none⟩ : Face)
    | [(e, _), (e', _)] => some ⟨k, e, some e'⟩
    | _ => none) = some b → b.id = k := by
    intro ent k h
    split at h
    · exact (congrArg Face.id (Option.some.inj h)).symm
    · exact (congrArg Face.id (Option.some.inj h)).symm
    · simp at h
  exact (key ent k hb).symm.trans (key ent' k' hb')

theorem mem_localFaces (L : Local R) (F : Face) : F ∈ localFaces L ↔
    ∃ f ∈ L.faces, f.id = F.id ∧ (L.elems[f.left.1]?).map LElem.id = some F.left ∧
      ((f.right = none ∧ F.right = none) ∨ ∃ r e, f.right = some r ∧ (L.elems[r.1]?).map LElem.id = some e ∧ F.right = some e) := by
  obtain ⟨k, l, r⟩ := F
  simp only [localFaces, List.mem_filterMap]
  refine exists_congr fun f => and_congr_right fun _ => ?_
  cases hl : L.elems[f.left.1]? with
  | none => simp
  | some le =>
    cases hr : f.right with
    | none =>
      simp
      tauto
    | some x =>
      cases hx : L.elems[x.1]? with
      | none => simp [hx]
      | some y =>
        simp [hx]
        tauto

theorem nodup_localFaces (L : Local R) (h : (L.faces.map LFace.id).Nodup) : (localFaces L).Nodup := by
  unfold localFaces
  rw [List.Nodup, List.pairwise_filterMap]
  rw [List.Nodup, List.pairwise_map] at h
  refine h.imp ?_
  rintro f f' hne b hb b' hb' rfl
  apply hne
  have key : ∀ f : LFace, ((L.elems[f.left.1]?).bind fun l => match f.right with
    | none => some (⟨f.id, l.id, none⟩ : Face)
    | some r => (L.elems[r.1]?).map fun e => ⟨f.id, l.id, some e.id⟩) = some b → b.id = f.id := by
    intro f h
    cases hl : L.elems[f.left.1]? with
    | none => simp [hl] at h
    | some l =>
      rw [hl] at h
      cases hr : f.right with
      | none =>
        rw [hr] at h
        exact (congrArg Face.id (Option.some.inj h)).symm
      | some r =>
        rw [hr] at h
        cases he : L.elems[r.1]? with
        | none => simp [he] at h
        | some e =>
          simp [he] at h
          rw [← h]
  exact (key f hb).symm.trans (key f' hb')

/-- **C84.** On a mesh from a file, of dimension at least two, every process has the faces of its own elements and knows the elements next to them. -/
theorem read_complete (shapes : List ElementShape.Shape) (dim : Nat) (hdim : 1 < dim) (m : Mesh (List R)) (parts : List Nat) (count : Nat)
    (h : Writable shapes dim m parts count) (hsmall : m.elems.length ≤ sentinel) (ht : FacesTouch dim m)
    (periodic : Nat → List LElem → Nat × Nat → Nat × Nat → Bool) (L : Nat → Local R)
    (hL : ∀ rank < count, Describes dim m parts rank (periodic rank) (L rank)) :
    Complete ((List.range count).map fun r => ofLocal r (L r)) (fun q => localFaces (L q)) (meshFaces dim m) := by
  obtain ⟨hA, hO, hP, hD, hlist⟩ := read_answered shapes dim m parts count h hsmall periodic L hL
  have hlt : ∀ (q : Nat) (w : Rank), ((List.range count).map fun r => ofLocal r (L r))[q]? = some w → q < count := by
    intro q w hw
    have := (List.getElem?_eq_some_iff.1 hw).1
    simpa using this
  have hknown : ∀ (q : Nat) (w : Rank), ((List.range count).map fun r => ofLocal r (L r))[q]? = some w → ∀ (k e : Nat),
      ((L q).elems[k]?).map LElem.id = some e → Known w e := by
    intro q w hw k e hk
    cases hle : (L q).elems[k]? with
    | none => simp [hle] at hk
    | some le =>
      rw [hle] at hk
      simp only [Option.map_some, Option.some.injEq] at hk
      subst hk
      have hmem := List.mem_of_getElem? hle
      obtain ⟨el, hel, _, hown, _⟩ := (hL q (hlt q w hw)).elem le hmem
      have hpres : Present m parts q le.id := by
        have : le.id ∈ (L q).elems.map LElem.id := List.mem_map_of_mem hmem
        rw [(hL q (hlt q w hw)).elems] at this
        unfold below at this
        simpa using (List.mem_filter.1 this).2
      have hl : le.id < m.elems.length := (List.getElem?_eq_some_iff.1 hel).1
      by_cases ho : le.owner = q
      · left
        rw [(hlist q w hw).1]
        unfold below
        simp [hl, hown, ho]
      · right
        refine ⟨le.owner, ?_⟩
        rw [(hlist q w hw).2]
        unfold below
        simp [hl, hown, ho, hpres]
  have hfaceid : ∀ q < count, ((L q).faces.map LFace.id).Nodup := by
    intro q hq
    rw [(hL q hq).faces hdim]
    unfold below
    exact List.nodup_range.filter _
  refine ⟨?_, ?_, ?_, ?_⟩
  · intro w hw
    obtain ⟨q, hq⟩ := List.getElem?_of_mem hw
    rw [(hlist q w hq).1]
    unfold below
    exact List.nodup_range.filter _
  · intro q w hw e he
    have hq := hlt q w hw
    have hown : e < m.elems.length ∧ parts[e]? = some q := by
      rw [(hlist q w hw).1] at he
      unfold below at he
      simpa using he
    obtain ⟨el, hel⟩ : ∃ el, m.elems[e]? = some el := ⟨_, List.getElem?_eq_getElem hown.1⟩
    have hpe : Present m parts q e := present_self h hel hown.2
    have hnear : ∀ e', Touch m e' e → Present m parts q e' := fun e' ht => ⟨e, ht, hown.2⟩
    rw [List.perm_ext_iff_of_nodup ((nodup_localFaces _ (hfaceid q hq)).filter _) ((nodup_meshFaces dim m).filter _)]
    intro F
    simp only [List.mem_filter, decide_eq_true_eq]
    refine and_congr_left fun hat => ?_
    rw [mem_meshFaces, mem_localFaces]
    constructor
    · rintro ⟨f, hf, hid, hl, hr⟩
      obtain ⟨ent, hent, hface⟩ := (hL q hq).face hdim f hf
      rw [hid] at hent
      refine ⟨ent, hent, ?_⟩
      have htouch := ht ent (List.mem_of_getElem? hent)
      generalize hinc : ent.inc = inc at hface
      rw [hinc] at htouch
      cases hface with
      | wall e0 i h1 h2 h3 h4 =>
        left
        rcases hr with ⟨_, hr⟩ | ⟨r, e', hr, _⟩
        · rw [hl] at h1
          exact ⟨i, by rw [Option.some.inj h1], hr⟩
        · rw [h3] at hr; simp at hr
      | first e0 i e1 i1 h1 h2 h3 h4 h5 =>
        rcases hr with ⟨_, hr⟩ | ⟨r, e', hr, _⟩
        · rw [hl] at h1
          have hle : F.left = e := by
            rcases hat with hat | hat
            · exact hat
            · rw [hr] at hat; simp at hat
          have h1 := Option.some.inj h1
          refine absurd (hnear e1 ?_) h5
          have := htouch (e1, i1) (by simp) (e0, i) (by simp)
          rw [← h1, hle] at this
          exact this
        · rw [h3] at hr; simp at hr
      | second e0 i e1 i1 h1 h2 h3 h4 h5 =>
        rcases hr with ⟨_, hr⟩ | ⟨r, e', hr, _⟩
        · rw [hl] at h1
          have hle : F.left = e := by
            rcases hat with hat | hat
            · exact hat
            · rw [hr] at hat; simp at hat
          have h1 := Option.some.inj h1
          refine absurd (hnear e0 ?_) h5
          have := htouch (e0, i) (by simp) (e1, i1) (by simp)
          rw [← h1, hle] at this
          exact this
        · rw [h3] at hr; simp at hr
      | both e0 i e1 i1 b h1 h2 h3 h4 =>
        right
        rcases hr with ⟨hr, _⟩ | ⟨r, e', hr, hr2, hr3⟩
        · rw [h3] at hr; simp at hr
        · rw [h3] at hr
          have hr := Option.some.inj hr
          subst hr
          rw [hl] at h1
          rw [h4] at hr2
          exact ⟨i, e1, i1, by rw [Option.some.inj h1], by rw [hr3, ← Option.some.inj hr2]⟩
    · rintro ⟨ent, hent, hcase⟩
      have htouch := ht ent (List.mem_of_getElem? hent)
      have hmem : ∃ p ∈ ent.inc, p.1 = e := by
        rcases hcase with ⟨i, hinc, hr⟩ | ⟨i, e', i', hinc, hr⟩
        · rcases hat with hat | hat
          · exact ⟨(F.left, i), by rw [hinc]; simp, hat⟩
          · rw [hr] at hat; simp at hat
        · rcases hat with hat | hat
          · exact ⟨(F.left, i), by rw [hinc]; simp, hat⟩
          · rw [hr] at hat
            exact ⟨(e', i'), by rw [hinc]; simp, Option.some.inj hat⟩
      obtain ⟨p, hp, hpe2⟩ := hmem
      have hall : ∀ x ∈ ent.inc, Present m parts q x.1 := by
        intro x hx
        refine hnear x.1 ?_
        have := htouch x hx p hp
        rw [hpe2] at this
        exact this
      have hin : F.id ∈ (L q).faces.map LFace.id := by
        rw [(hL q hq).faces hdim]
        unfold below
        simp only [List.mem_filter, List.mem_range, decide_eq_true_eq]
        exact ⟨(List.getElem?_eq_some_iff.1 hent).1, ent, p, hent, hp, hall p hp⟩
      obtain ⟨f, hf, hid⟩ := List.mem_map.1 hin
      obtain ⟨ent', hent', hface⟩ := (hL q hq).face hdim f hf
      rw [hid, hent] at hent'
      have hee := Option.some.inj hent'
      subst hee
      refine ⟨f, hf, hid, ?_⟩
      generalize hinc2 : ent.inc = inc at hface
      cases hface with
      | wall e0 i h1 h2 h3 h4 =>
        rcases hcase with ⟨i', hinc, hr⟩ | ⟨i', e', i'', hinc, hr⟩
        · rw [hinc2] at hinc
          simp only [List.cons.injEq, Prod.mk.injEq, and_true] at hinc
          exact ⟨by rw [h1, hinc.1], Or.inl ⟨h3, hr⟩⟩
        · rw [hinc2] at hinc; simp at hinc
      | first e0 i e1 i1 h1 h2 h3 h4 h5 => exact absurd (hall (e1, i1) (by rw [hinc2]; simp)) h5
      | second e0 i e1 i1 h1 h2 h3 h4 h5 => exact absurd (hall (e0, i) (by rw [hinc2]; simp)) h5
      | both e0 i e1 i1 b h1 h2 h3 h4 =>
        rcases hcase with ⟨i', hinc, hr⟩ | ⟨i', e', i'', hinc, hr⟩
        · rw [hinc2] at hinc; simp at hinc
        · rw [hinc2] at hinc
          simp only [List.cons.injEq, Prod.mk.injEq, and_true] at hinc
          exact ⟨by rw [h1, hinc.1.1], Or.inr ⟨_, e1, h3, h4, by rw [hr, hinc.2.1]⟩⟩
  · intro q w hw e he F hF hat
    obtain ⟨f, hf, hid, hl, _⟩ := (mem_localFaces _ _).1 hF
    exact hknown q w hw _ _ hl
  · intro q w hw e he F hF hat r hr
    obtain ⟨f, hf, hid, hl, ⟨_, h2⟩ | ⟨x, e', h1, h2, h3⟩⟩ := (mem_localFaces _ _).1 hF
    · rw [h2] at hr; simp at hr
    · rw [h3] at hr
      rw [← Option.some.inj hr]
      exact hknown q w hw _ _ h2

/-- **C84.** From the mesh file to the solution: on a mesh of dimension at least two whose faces join elements with common nodes, with the elements
divided among processes in any way and messages in any order, the solution after any number of time steps is the one of the whole mesh, for every element on every process that
knows it. -/
theorem solve_from_file (P : Problem V) (shapes : List ElementShape.Shape) (dim : Nat) (hdim : 1 < dim) (m : Mesh (List R)) (parts : List Nat)
    (count : Nat) (h : Writable shapes dim m parts count) (hsmall : m.elems.length ≤ sentinel) (ht : FacesTouch dim m)
    (periodic : Nat → List LElem → Nat × Nat → Nat × Nat → Bool) (L : Nat → Local R)
    (hL : ∀ rank < count, Describes dim m parts rank (periodic rank) (L rank))
    (T : RungeKutta.Tableau) (time dt : ℝ) (n : Nat) (D D' : Nat → Data V) (g : Data V)
    (hg : ∀ q v e, D q v e = g v e)
    (hrun : Run P ((List.range count).map fun r => ofLocal r (L r)) (fun q => localFaces (L q))
      (setInitialSolution RungeKutta.solId time 0 ++ timeSteps T timeDerivative dt n time) D D')
    (q : Nat) (hq : q < count) (v e : Nat) (he : e < m.elems.length) (hp : Present m parts q e) :
    D' q v e = march T (derivative P (meshFaces dim m)) dt n time
      (Function.update g RungeKutta.solId fun e => P.solveMass e (P.initial e time 0)) v e := by
  obtain ⟨hA, hO, hP, hD, hlist⟩ := read_answered shapes dim m parts count h hsmall periodic L hL
  have hw : ((List.range count).map fun r => ofLocal r (L r))[q]? = some (ofLocal q (L q)) := by simp [hq]
  refine solve_coherent P _ hA hO hD _ _ (read_complete shapes dim hdim m parts count h hsmall ht periodic L hL) T time dt n D D' g
    (fun q w hw v e _ => hg q v e) hrun q _ hw v e ?_
  have hpl : ∃ p, parts[e]? = some p := by
    have : e < parts.length := by rw [h.partsLen]; exact he
    exact ⟨_, List.getElem?_eq_getElem this⟩
  obtain ⟨p, hpe⟩ := hpl
  by_cases hpq : p = q
  · left
    rw [(hlist q _ hw).1]
    unfold below
    simp [he, hpe, hpq]
  · right
    refine ⟨p, ?_⟩
    rw [(hlist q _ hw).2]
    unfold below
    simp [he, hpe, hpq, hp]

end Verif.Parallel
