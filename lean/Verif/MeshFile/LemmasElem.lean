import Verif.MeshFile.LemmasRead

/-! # Helper lemmas: the elements, faces and edges of the reader -/
set_option linter.all false
namespace Verif.MeshFile
open Verif.PreMesh

variable {R : Type} [LinearOrder R]

/-- The lines of an element. -/
def elemToks (ns : List (Nat × Nat)) (own : Nat) (sh : List Nat) (zone : Nat) : List (Tok R) :=
  .nat ns.length :: (ns.map fun q => [.nat q.1, .nat q.2]).flatten ++ .nat own :: .nat sh.length :: sh.map .nat ++ [.eol, .nat zone, .eol]

theorem readElemNodes_map (ns : NodeState R) (l : List (Nat × Nat)) (t : List (Tok R)) :
    readElemNodes ns l.length ((l.map fun q => [Tok.nat q.1, Tok.nat q.2]).flatten ++ t) =
      some ((l.map fun q => mapAt ns.start q.1 + q.2, l.map fun q => mapAt ns.index q.1), t) := by
  induction l with
  | nil => rfl
  | cons a l ih => simp [readElemNodes, ih]

/-- The elements of the file. -/
structure ElemData where
  ns : Nat → List (Nat × Nat)
  own : Nat → Nat
  sh : Nat → List Nat
  zone : Nat → Nat

/-- Whether an element is here. -/
def ElemData.here (D : ElemData) (rank : Nat) (e : Nat) : Bool := decide (D.own e = rank ∨ rank ∈ D.sh e)

/-- The element that is made. -/
def ElemData.mk' (D : ElemData) (ns : NodeState R) (e : Nat) : LElem :=
  ⟨e, (D.ns e).map fun q => mapAt ns.start q.1 + q.2, (D.ns e).map fun q => mapAt ns.index q.1, D.zone e, D.own e⟩

/-- What the reader knows after `k` elements. -/
structure ElemInv (D : ElemData) (rank : Nat) (ns : NodeState R) (k : Nat) (s : ElemState) : Prop where
  elems : s.elems = ((List.range k).filter (D.here rank)).map (D.mk' ns)
  next : s.next = k
  actual : ∀ e < k, actualAt s e = if D.here rank e then some (rankOf (D.here rank) e) else none
  keys : ∀ q ∈ s.actual, q.1 < k
  push : s.push = ((List.range k).filter fun e => decide (D.own e = rank)).flatMap fun e => (D.sh e).map fun q => (q, rankOf (D.here rank) e)
  pull : s.pull = ((List.range k).filter fun e => D.here rank e && decide (D.own e ≠ rank)).map fun e => (D.own e, rankOf (D.here rank) e)

theorem ElemInv.zero (D : ElemData) (rank : Nat) (ns : NodeState R) : ElemInv D rank ns 0 ⟨[], [], [], [], 0⟩ :=
  ⟨by simp, rfl, by simp, by simp, by simp, by simp⟩

theorem readElem_toks (D : ElemData) (rank zones : Nat) (ns : NodeState R) (k : Nat) (s : ElemState) (hs : ElemInv D rank ns k s)
    (hz : D.zone k < zones)
    (hb : D.here rank k = true → ∀ q ∈ D.ns k, mapAt ns.start q.1 + q.2 < ns.coords.length ∧ mapAt ns.index q.1 < ns.nodes.length)
    (t rest : List (Tok R)) (ht : Same t (elemToks (D.ns k) (D.own k) (D.sh k) (D.zone k) ++ rest)) :
    ∃ s' t', readElem rank zones k ns s t = some (s', t') ∧ ElemInv D rank ns (k + 1) s' ∧ Same t' rest := by
  have e1 : (elemToks (D.ns k) (D.own k) (D.sh k) (D.zone k) ++ rest : List (Tok R)) = .nat (D.ns k).length ::
      (((D.ns k).map fun q => [.nat q.1, .nat q.2]).flatten ++ (.nat (D.own k) :: .nat (D.sh k).length ::
        ((D.sh k).map .nat ++ .eol :: .nat (D.zone k) :: .eol :: rest))) := by simp [elemToks]
  have key : readElem rank zones k ns s t = if D.zone k < zones then
      if D.own k = rank ∨ rank ∈ D.sh k then
        if ((D.ns k).map fun q => mapAt ns.start q.1 + q.2).all (· < ns.coords.length) ∧ ((D.ns k).map fun q => mapAt ns.index q.1).all (· < ns.nodes.length) then
          some ({ elems := s.elems ++ [D.mk' ns k], actual := s.actual ++ [(k, s.elems.length)],
                  push := if D.own k = rank then s.push ++ (D.sh k).map (fun q => (q, s.elems.length)) else s.push,
                  pull := if D.own k = rank then s.pull else s.pull ++ [(D.own k, s.elems.length)], next := s.next + 1 }, .eol :: rest)
        else none
      else some ({ s with next := s.next + 1 }, .eol :: rest)
    else none := by
    unfold readElem
    rw [readNat_same ht, e1, readNat_nat]
    simp only [Option.bind_eq_bind, Option.bind_some, readElemNodes_map, readNat_nat, readNats_map, readNat_eol]
    rw [hs.next]
    rfl
  rw [key, if_pos hz]
  have hlen : s.elems.length = rankOf (D.here rank) k := by rw [hs.elems]; simp [rankOf]
  have hact : ∀ (s' : ElemState) e v, s'.actual = s.actual ++ [(k, v)] → e ≠ k → actualAt s' e = actualAt s e := by
    intro s' e v hv he
    simp [actualAt, hv, List.find?_append, Ne.symm he]
  have hactk : ∀ (s' : ElemState) v, s'.actual = s.actual ++ [(k, v)] → actualAt s' k = some v := by
    intro s' v hv
    have : s.actual.find? (fun p => decide (p.1 = k)) = none := by
      rw [List.find?_eq_none]
      intro q hq
      have := hs.keys q hq
      simp; omega
    simp [actualAt, hv, List.find?_append, this]
  have hnone : actualAt s k = none := by
    have : s.actual.find? (fun p => decide (p.1 = k)) = none := by
      rw [List.find?_eq_none]
      intro q hq
      have := hs.keys q hq
      simp; omega
    simp [actualAt, this]
  by_cases hh : D.own k = rank ∨ rank ∈ D.sh k
  · have hh' : D.here rank k = true := by simp [ElemData.here, hh]
    rw [if_pos hh, if_pos]
    · refine ⟨_, _, rfl, ?_, same_eol rest⟩
      refine ⟨?_, ?_, ?_, ?_, ?_, ?_⟩
      · simp [List.range_succ, List.filter_append, hh', hs.elems]
      · simp [hs.next]
      · intro e he
        by_cases hek : e = k
        · subst hek
          rw [hactk _ s.elems.length rfl, hh', hlen]
          simp
        · rw [hact _ e s.elems.length rfl hek]
          exact hs.actual e (by omega)
      · intro q hq
        rcases List.mem_append.1 hq with hq | hq
        · have := hs.keys q hq; omega
        · simp at hq; subst hq; simp
      · by_cases ho : D.own k = rank
        · simp [List.range_succ, List.filter_append, ho, hs.push, hlen]
        · simp [List.range_succ, List.filter_append, ho, hs.push, hlen]
      · by_cases ho : D.own k = rank
        · simp [List.range_succ, List.filter_append, ho, hs.pull, hlen]
        · simp [List.range_succ, List.filter_append, ho, hs.pull, hlen, hh']
    · simp only [List.all_eq_true, List.mem_map, decide_eq_true_eq]
      exact ⟨fun x ⟨q, hq, hx⟩ => hx ▸ (hb hh' q hq).1, fun x ⟨q, hq, hx⟩ => hx ▸ (hb hh' q hq).2⟩
  · have hh' : D.here rank k = false := by simp only [ElemData.here]; simpa using hh
    rw [if_neg hh]
    refine ⟨_, _, rfl, ?_, same_eol rest⟩
    have ho : ¬ D.own k = rank := fun h => hh (Or.inl h)
    refine ⟨?_, ?_, ?_, ?_, ?_, ?_⟩
    · simp [List.range_succ, List.filter_append, hh', hs.elems]
    · simp [hs.next]
    · intro e he
      by_cases hek : e = k
      · subst hek
        refine Eq.trans hnone ?_
        rw [hh']
        rfl
      · exact hs.actual e (by omega)
    · intro q hq; have := hs.keys q hq; omega
    · simp [List.range_succ, List.filter_append, ho, hs.push]
    · simp [List.range_succ, List.filter_append, ho, hs.pull, hh']

theorem readElems_toks (D : ElemData) (rank zones : Nat) (ns : NodeState R) (N : Nat)
    (hz : ∀ k < N, D.zone k < zones)
    (hb : ∀ k < N, D.here rank k = true → ∀ q ∈ D.ns k, mapAt ns.start q.1 + q.2 < ns.coords.length ∧ mapAt ns.index q.1 < ns.nodes.length)
    (rest : List (Tok R)) : ∀ (n k : Nat) (s : ElemState) (t : List (Tok R)), k + n = N → ElemInv D rank ns k s →
    Same t (((List.range' k n).map fun i => elemToks (D.ns i) (D.own i) (D.sh i) (D.zone i)).flatten ++ rest) →
    ∃ s' t', readElems rank zones ns n k s t = some (s', t') ∧ ElemInv D rank ns N s' ∧ Same t' rest
  | 0, k, s, t, hN, hs, ht => ⟨s, t, rfl, by simpa [← hN] using hs, by simpa using ht⟩
  | n + 1, k, s, t, hN, hs, ht => by
    rw [List.range'_succ, List.map_cons, List.flatten_cons, List.append_assoc] at ht
    obtain ⟨s1, t1, h1, h2, h3⟩ := readElem_toks D rank zones ns k s hs (hz k (by omega)) (hb k (by omega)) t _ ht
    obtain ⟨s', t', h4, h5, h6⟩ := readElems_toks D rank zones ns N hz hb rest n (k + 1) s1 t1 (by omega) h2 h3
    refine ⟨s', t', ?_, h5, h6⟩
    simp only [readElems, h1, Option.bind_eq_bind, Option.bind_some]
    exact h4

/-- The line of a face or edge. -/
def entToks (inc : List (Nat × Nat)) (ps : List Nat) : List (Tok R) :=
  .nat inc.length :: (inc.map fun q => [.nat q.1, .nat q.2]).flatten ++ .nat ps.length :: ps.map .nat ++ [.eol]

theorem count_one {l : List Nat} (h : l.Nodup) (a : Nat) (ha : a ∈ l) : l.count a = 1 := by
  have h1 := List.nodup_iff_count_le_one.1 h a
  have h2 := List.count_pos_iff.2 ha
  omega

theorem readFace_toks (rank : Nat) (periodic : Nat × Nat → Nat × Nat → Bool) (es : ElemState) (s : List LFace × Nat)
    (inc : List (Nat × Nat)) (ps : List Nat) (hps : ps.Nodup) (hinc : 0 < inc.length ∧ inc.length < 3)
    (hmake : rank ∈ ps → ∀ id, (makeFace periodic es id inc).isSome)
    (t rest : List (Tok R)) (ht : Same t (entToks inc ps ++ rest)) :
    ∃ s' t', readFace rank periodic es s t = some (s', t') ∧ Same t' rest ∧ s'.2 = s.2 + 1 ∧
      ((rank ∉ ps ∧ s'.1 = s.1) ∨ (rank ∈ ps ∧ ∃ f, makeFace periodic es s.2 inc = some f ∧ s'.1 = s.1 ++ [f])) := by
  have e1 : (entToks inc ps ++ rest : List (Tok R)) = .nat inc.length :: ((inc.map fun q => [.nat q.1, .nat q.2]).flatten ++
      (.nat ps.length :: (ps.map .nat ++ .eol :: rest))) := by simp [entToks]
  unfold readFace
  rw [readNat_same ht, e1, readNat_nat]
  simp only [Option.bind_eq_bind, Option.bind_some, if_pos hinc, readPairs_map, readNat_nat, readNats_map]
  by_cases h : rank ∈ ps
  · rw [if_pos h, count_one hps rank h]
    obtain ⟨f, hf⟩ := Option.isSome_iff_exists.1 (hmake h s.2)
    refine ⟨(s.1 ++ [f], s.2 + 1), .eol :: rest, ?_, same_eol rest, rfl, Or.inr ⟨h, f, hf, rfl⟩⟩
    simp [List.range_one, hf]
  · rw [if_neg h]
    exact ⟨_, _, rfl, same_eol rest, rfl, Or.inl ⟨h, rfl⟩⟩

theorem readEdge_toks (rank : Nat) (es : ElemState) (s : List LEdge × Nat)
    (inc : List (Nat × Nat)) (ps : List Nat) (hps : ps.Nodup)
    (t rest : List (Tok R)) (ht : Same t (entToks inc ps ++ rest)) :
    ∃ s' t', readEdge rank es s t = some (s', t') ∧ Same t' rest ∧ s'.2 = s.2 + 1 ∧
      ((rank ∉ ps ∧ s'.1 = s.1) ∨ (rank ∈ ps ∧ s'.1 = s.1 ++ [⟨s.2, inc.filterMap fun q => (actualAt es q.1).map fun a => (a, q.2)⟩])) := by
  have e1 : (entToks inc ps ++ rest : List (Tok R)) = .nat inc.length :: ((inc.map fun q => [.nat q.1, .nat q.2]).flatten ++
      (.nat ps.length :: (ps.map .nat ++ .eol :: rest))) := by simp [entToks]
  unfold readEdge
  rw [readNat_same ht, e1, readNat_nat]
  simp only [Option.bind_eq_bind, Option.bind_some, readPairs_map, readNat_nat, readNats_map]
  by_cases h : rank ∈ ps
  · rw [if_pos h, count_one hps rank h]
    refine ⟨_, .eol :: rest, rfl, same_eol rest, rfl, Or.inr ⟨h, ?_⟩⟩
    simp [List.range_one]
  · rw [if_neg h]
    exact ⟨_, _, rfl, same_eol rest, rfl, Or.inl ⟨h, rfl⟩⟩

/-- What the reader knows after `k` faces. -/
structure FaceInv (rank : Nat) (periodic : Nat × Nat → Nat × Nat → Bool) (es : ElemState) (inc : Nat → List (Nat × Nat))
    (ps : Nat → List Nat) (k : Nat) (s : List LFace × Nat) : Prop where
  next : s.2 = k
  ids : s.1.map LFace.id = (List.range k).filter fun i => decide (rank ∈ ps i)
  made : ∀ f ∈ s.1, makeFace periodic es f.id (inc f.id) = some f

theorem makeFace_id {periodic : Nat × Nat → Nat × Nat → Bool} {es : ElemState} {id : Nat} {ps : List (Nat × Nat)} {f : LFace}
    (h : makeFace periodic es id ps = some f) : f.id = id := by
  unfold makeFace at h
  split at h
  · simp only [Option.map_eq_some_iff] at h
    obtain ⟨a, _, rfl⟩ := h
    rfl
  · split at h <;> simp at h <;> subst h <;> rfl
  · simp at h

theorem readFaces_toks (rank : Nat) (periodic : Nat × Nat → Nat × Nat → Bool) (es : ElemState)
    (inc : Nat → List (Nat × Nat)) (ps : Nat → List Nat) (N : Nat) (hps : ∀ i < N, (ps i).Nodup)
    (hinc : ∀ i < N, 0 < (inc i).length ∧ (inc i).length < 3)
    (hmake : ∀ i < N, rank ∈ ps i → ∀ id, (makeFace periodic es id (inc i)).isSome)
    (rest : List (Tok R)) : ∀ (n k : Nat) (s : List LFace × Nat) (t : List (Tok R)), k + n = N → FaceInv rank periodic es inc ps k s →
    Same t (((List.range' k n).map fun i => entToks (inc i) (ps i)).flatten ++ rest) →
    ∃ s' t', readFaces rank periodic es n s t = some (s', t') ∧ FaceInv rank periodic es inc ps N s' ∧ Same t' rest
  | 0, k, s, t, hN, hs, ht => ⟨s, t, rfl, by simpa [← hN] using hs, by simpa using ht⟩
  | n + 1, k, s, t, hN, hs, ht => by
    rw [List.range'_succ, List.map_cons, List.flatten_cons, List.append_assoc] at ht
    obtain ⟨s1, t1, h1, h2, h3, h4⟩ := readFace_toks rank periodic es s (inc k) (ps k) (hps k (by omega)) (hinc k (by omega)) (hmake k (by omega)) t _ ht
    have hs1 : FaceInv rank periodic es inc ps (k + 1) s1 := by
      refine ⟨by rw [h3, hs.next], ?_, ?_⟩
      · rcases h4 with ⟨ha, hb⟩ | ⟨ha, f, hf, hb⟩
        · rw [hb, List.range_succ, List.filter_append, hs.ids]; simp [ha]
        · rw [hb, List.range_succ, List.filter_append, List.map_append, hs.ids]; simp [ha, makeFace_id hf, hs.next]
      · rcases h4 with ⟨ha, hb⟩ | ⟨ha, f, hf, hb⟩
        · rw [hb]; exact hs.made
        · rw [hb]
          intro g hg
          rcases List.mem_append.1 hg with hg | hg
          · exact hs.made g hg
          · simp at hg
            subst hg
            rw [makeFace_id hf, hs.next, ← hf, hs.next]
    obtain ⟨s', t', h5, h6, h7⟩ := readFaces_toks rank periodic es inc ps N hps hinc hmake rest n (k + 1) s1 t1 (by omega) hs1 h2
    refine ⟨s', t', ?_, h6, h7⟩
    simp only [readFaces, h1, Option.bind_eq_bind, Option.bind_some]
    exact h5

/-- What the reader knows after `k` edges. -/
structure EdgeInv (rank : Nat) (es : ElemState) (inc : Nat → List (Nat × Nat)) (ps : Nat → List Nat) (k : Nat) (s : List LEdge × Nat) : Prop where
  next : s.2 = k
  ids : s.1.map LEdge.id = (List.range k).filter fun i => decide (rank ∈ ps i)
  made : ∀ f ∈ s.1, f.elems = (inc f.id).filterMap fun q => (actualAt es q.1).map fun a => (a, q.2)

theorem readEdges_toks (rank : Nat) (es : ElemState)
    (inc : Nat → List (Nat × Nat)) (ps : Nat → List Nat) (N : Nat) (hps : ∀ i < N, (ps i).Nodup)
    (rest : List (Tok R)) : ∀ (n k : Nat) (s : List LEdge × Nat) (t : List (Tok R)), k + n = N → EdgeInv rank es inc ps k s →
    Same t (((List.range' k n).map fun i => entToks (inc i) (ps i)).flatten ++ rest) →
    ∃ s' t', readEdges rank es n s t = some (s', t') ∧ EdgeInv rank es inc ps N s' ∧ Same t' rest
  | 0, k, s, t, hN, hs, ht => ⟨s, t, rfl, by simpa [← hN] using hs, by simpa using ht⟩
  | n + 1, k, s, t, hN, hs, ht => by
    rw [List.range'_succ, List.map_cons, List.flatten_cons, List.append_assoc] at ht
    obtain ⟨s1, t1, h1, h2, h3, h4⟩ := readEdge_toks rank es s (inc k) (ps k) (hps k (by omega)) t _ ht
    have hs1 : EdgeInv rank es inc ps (k + 1) s1 := by
      refine ⟨by rw [h3, hs.next], ?_, ?_⟩
      · rcases h4 with ⟨ha, hb⟩ | ⟨ha, hb⟩
        · rw [hb, List.range_succ, List.filter_append, hs.ids]; simp [ha]
        · rw [hb, List.range_succ, List.filter_append, List.map_append, hs.ids]; simp [ha, hs.next]
      · rcases h4 with ⟨ha, hb⟩ | ⟨ha, hb⟩
        · rw [hb]; exact hs.made
        · rw [hb]
          intro g hg
          rcases List.mem_append.1 hg with hg | hg
          · exact hs.made g hg
          · simp at hg
            subst hg
            simp [hs.next]
    obtain ⟨s', t', h5, h6, h7⟩ := readEdges_toks rank es inc ps N hps rest n (k + 1) s1 t1 (by omega) hs1 h2
    refine ⟨s', t', ?_, h6, h7⟩
    simp only [readEdges, h1, Option.bind_eq_bind, Option.bind_some]
    exact h5

end Verif.MeshFile
