import Verif.Assembly.LemmasAssemble

/-! # Properties of the assembly of global matrices and vectors -/
namespace Verif.Assembly
open GlobalIndexing

section
variable {α : Type} [AddCommMonoid α] (m : Mesh) (hm : m.Valid) (hg : m.Ghosts) (h0 : 0 < m.unknowns) (P : Parts)
  (hL : Layer m P)
include hm hg h0 hL

/-- C39. If the local matrices have the right sizes all ranks can assemble. Whatever the order in which the
additions of all ranks arrive, the entry for the basis functions `d` (of the test space) and `c` (of the trial space)
is then the sum of the entries for `d` and `c` in all element matrices and in all face matrices; the matrix of an
element or of a face counts once, whichever ranks know the element or the face, and unused kinds of matrices do not
count. Other rows and columns stay zero. -/
theorem assemble_sum (lR lC : Layout) (unkR unkC : Option (List Nat)) (R C : Nat → State)
    (hR : Indexing m lR unkR R) (hC : Indexing m lC unkC C) (I : Input α) (hI : I.Fits m unkR unkC)
    (hs : I.symmetric = true → unkR = unkC ∧ R = C) :
    ∃ calls : Nat → List (Call α), (∀ p < m.ranks, assembleCalls m P I (R p) (C p) p = some (calls p)) ∧
      ∀ all, all.Perm ((List.range m.ranks).flatMap calls) →
        (∀ p < m.ranks, ∀ q < m.ranks, ∀ d ∈ m.dofs (requested m unkR) p, ∀ c ∈ m.dofs (requested m unkC) q,
          assembled all ((R p).global d) ((C q).global c) =
            (if I.useElements then ∑ e ∈ elements m,
              contribution (I.elementMatrix e) (localDofs m unkR e) (localDofs m unkC e) d c else 0) +
            (if I.useFaces then ∑ f ∈ faces m,
              contribution (I.faceMatrix f) (faceDofs m unkR f) (faceDofs m unkC f) d c else 0)) ∧
        ∀ i j, (¬ ∃ p < m.ranks, ∃ d ∈ m.dofs (requested m unkR) p, (R p).global d = i) ∨
          (¬ ∃ p < m.ranks, ∃ d ∈ m.dofs (requested m unkC) p, (C p).global d = j) → assembled all i j = 0 := by
  obtain ⟨gR, fR⟩ := hR.facts hm hg h0
  obtain ⟨gC, fC, hs'⟩ : ∃ gC, Facts m unkC C gC ∧ (I.symmetric = true → unkR = unkC ∧ gR = gC) := by
    cases h : I.symmetric
    · obtain ⟨gC, fC⟩ := hC.facts hm hg h0
      exact ⟨gC, fC, by simp⟩
    · obtain ⟨rfl, rfl⟩ := hs h
      exact ⟨gR, fR, fun _ => ⟨rfl, rfl⟩⟩
  refine ⟨_, fun p hp => assembleCalls_eq hm hg hL fR fC hI hs' hp, fun all hall => ⟨?_, ?_⟩⟩
  · intro p hp q hq d hd c hc
    rw [assembled_apply, (hall.map _).sum_eq, sum_calls hm hg hL, fR.global p hp d hd, fC.global q hq c hc]
    congr 1
    · split_ifs with hu
      · exact Finset.sum_congr rfl fun e he => sumAt_ecall hm hg hL fR fC hI hs' he hu ⟨p, hp, hd⟩ ⟨q, hq, hc⟩
      · rfl
    · split_ifs with hu
      · exact Finset.sum_congr rfl fun f hf => sumAt_fcall hm hg hL fR fC hI hs' hf hu ⟨p, hp, hd⟩ ⟨q, hq, hc⟩
      · rfl
  · intro i j hij
    have key : ∀ ds cs : List Dof, (∀ d ∈ ds, AllDofs m unkR d) → (∀ d ∈ cs, AllDofs m unkC d) → ∀ data,
        sumAt (Call.entries (α := α) ⟨ds.map gR, cs.map gC, data, false⟩) i j = 0 := by
      intro ds cs hds hcs data
      refine List.sum_eq_zero fun x hx => ?_
      obtain ⟨y, hy, rfl⟩ := List.mem_map.1 hx
      rw [if_neg]
      rintro ⟨rfl, rfl⟩
      simp only [Call.entries, List.mem_flatMap, List.mem_map] at hy
      obtain ⟨r, hr, c, hc, rfl⟩ := hy
      obtain ⟨d, hd, hd'⟩ := List.mem_map.1 (List.fst_mem_of_mem_zipIdx hr)
      obtain ⟨d2, hd2, hd2'⟩ := List.mem_map.1 (List.fst_mem_of_mem_zipIdx hc)
      obtain ⟨p, hp, hdp⟩ := hds d hd
      obtain ⟨q, hq, hdq⟩ := hcs d2 hd2
      rcases hij with h | h
      · exact h ⟨p, hp, d, hdp, by rw [fR.global p hp d hdp, hd']⟩
      · exact h ⟨q, hq, d2, hdq, by rw [fC.global q hq d2 hdq, hd2']⟩
    rw [assembled_apply, (hall.map _).sum_eq, sum_calls hm hg hL]
    have z1 : ∑ e ∈ elements m, sumAt (ecall m I unkR unkC gR gC e).entries i j = 0 :=
      Finset.sum_eq_zero fun e he => by
        obtain ⟨p, hp, hep⟩ := mem_elements.1 he
        exact key _ _ (fun d hd => localDofs_all hm hg fR hp (Or.inl hep) hd)
          (fun d hd => localDofs_all hm hg fC hp (Or.inl hep) hd) _
    have z2 : ∑ f ∈ faces m, sumAt (fcall m I unkR unkC gR gC f).entries i j = 0 :=
      Finset.sum_eq_zero fun f hf =>
        key _ _ (fun d hd => faceDofs_all hm hg hL fR fC hI hs' fR hf hd)
          (fun d hd => faceDofs_all hm hg hL fR fC hI hs' fC hf hd) _
    rw [z1, z2]; simp

/-- C39. The assembly of a vector: the entry for the basis function `d` is the sum of the entries for `d` in all
element vectors and in all face vectors, in whatever order the additions of the ranks arrive. -/
theorem assemble_vector_sum (layout : Layout) (unk : Option (List Nat)) (s : Nat → State)
    (hI : Indexing m layout unk s) (useElements useFaces : Bool) (ev fv : Nat → List α)
    (he : useElements = true → ∀ e ∈ elements m, (ev e).length = (localDofs m unk e).length)
    (hf : useFaces = true → ∀ f ∈ faces m, (fv f).length = (faceDofs m unk f).length) :
    ∃ calls : Nat → List (VCall α),
      (∀ p < m.ranks, assembleVCalls m P useElements useFaces ev fv (s p) p = some (calls p)) ∧
      ∀ all, all.Perm ((List.range m.ranks).flatMap calls) → ∀ p < m.ranks, ∀ d ∈ m.dofs (requested m unk) p,
        assembledVec all ((s p).global d) =
          (if useElements then ∑ e ∈ elements m, vcontribution (ev e) (localDofs m unk e) d else 0) +
          (if useFaces then ∑ f ∈ faces m, vcontribution (fv f) (faceDofs m unk f) d else 0) := by
  obtain ⟨g, F⟩ := hI.facts hm hg h0
  refine ⟨fun p => (if useElements then (m.owned p).map (fun e => ⟨(localDofs m unk e).map g, ev e⟩) else []) ++
    (if useFaces then ((P.faces p).filter fun f => P.ownsFace m p f).map
      (fun f => ⟨(faceDofs m unk f).map g, fv f⟩) else []), fun p hp => ?_, fun all hall p hp d hd => ?_⟩
  · have h1 : useElements = true → (m.owned p).mapM (elementVCall m (s p) ev) =
        some ((m.owned p).map fun e => (⟨(localDofs m unk e).map g, ev e⟩ : VCall α)) := by
      intro hu
      refine mapM_some _ _ _ fun e hep => ?_
      rw [elementVCall, F.indices p hp e (Or.inl hep)]
      simp [he hu e (mem_elements.2 ⟨p, hp, hep⟩)]
    have h2 : useFaces = true →
        ((P.faces p).filter fun f => P.ownsFace m p f).mapM (faceVCall m P (s p) fv p) =
        some (((P.faces p).filter fun f => P.ownsFace m p f).map
          fun f => (⟨(faceDofs m unk f).map g, fv f⟩ : VCall α)) := by
      intro hu
      refine mapM_some _ _ _ fun f hfp => ?_
      rw [List.mem_filter] at hfp
      obtain ⟨a1, a2, a3⟩ := ownsFace_spec hm hg hL hp hfp.1 hfp.2
      have := hf hu f a3
      rw [faceVCall, faceIndices_eq hm hg F hL hp hfp.1, a1]
      simp only [faceDofs] at this
      simp only [Option.bind_eq_bind, Option.bind_some, List.length_map, this, if_true, faceDofs]
    cases useElements <;> cases useFaces <;> simp_all [assembleVCalls]
  · rw [assembledVec_apply, (hall.map _).sum_eq, sum_calls hm hg hL, F.global p hp d hd]
    congr 1
    · split_ifs with hu
      · refine Finset.sum_congr rfl fun e hee => ?_
        obtain ⟨q, hq, heq⟩ := mem_elements.1 hee
        exact vsumAt_call _ _ (he hu e hee)
          (fun x hx y hy => F.inj x y (localDofs_all hm hg F hq (Or.inl heq) hx) hy) d ⟨p, hp, hd⟩
      · rfl
    · split_ifs with hu
      · refine Finset.sum_congr rfl fun f hff => ?_
        refine vsumAt_call _ _ (hf hu f hff) (fun x hx y hy => F.inj x y ?_ hy) d ⟨p, hp, hd⟩
        obtain ⟨q, hq, e, hee, hfe⟩ := mem_faces.1 hff
        obtain ⟨e', he', hx'⟩ := List.mem_flatMap.1 hx
        obtain ⟨b1, b2, b3⟩ := hg.sub_of_adj q hq e hee .face f hfe e' he'
        exact localDofs_all hm hg F b1 (Or.inl b2) hx'
      · rfl

end

end Verif.Assembly
