import Verif.Assembly.LemmasIndex
import Mathlib.Algebra.BigOperators.Group.Finset.Basic
import Mathlib.Algebra.BigOperators.Group.List.Basic
import Mathlib.Algebra.BigOperators.Fin
set_option linter.all false
namespace Verif.Assembly
open GlobalIndexing

section
variable {α : Type} [AddCommMonoid α]

theorem mapM_some {β γ : Type} (f : β → Option γ) (g : β → γ) (l : List β) (h : ∀ a ∈ l, f a = some (g a)) :
    l.mapM f = some (l.map g) := by
  induction l with
  | nil => rfl
  | cons a l ih =>
    rw [List.mapM_cons, h a List.mem_cons_self, ih fun b hb => h b (List.mem_cons_of_mem _ hb)]; rfl

theorem zipIdx_sum {β : Type} (l : List β) (f : β × Nat → α) :
    (l.zipIdx.map f).sum = ∑ a ∈ Finset.range l.length, (match l[a]? with | some x => f (x, a) | none => 0) := by
  induction l using List.reverseRecOn with
  | nil => simp
  | append_singleton l x ih =>
    rw [List.zipIdx_append, List.map_append, List.sum_append, ih, List.length_append, List.length_singleton,
      Finset.sum_range_succ]
    congr 1
    · refine Finset.sum_congr rfl fun a ha => ?_
      rw [List.getElem?_append_left (Finset.mem_range.1 ha)]
    · simp

/-- The sum of the values of the entries at a position. -/
def sumAt (l : List (Nat × Nat × α)) (i j : Nat) : α :=
  (l.map fun x => if x.1 = i ∧ x.2.1 = j then x.2.2 else 0).sum

theorem foldl_entries (l : List (Nat × Nat × α)) (A : Mat α) (i j : Nat) :
    (l.foldl (fun (A : Mat α) (x : Nat × Nat × α) => Function.update A x.1 (Function.update (A x.1) x.2.1 (A x.1 x.2.1 + x.2.2))) A) i j =
      A i j + sumAt l i j := by
  induction l generalizing A with
  | nil => simp [sumAt]
  | cons x l ih =>
    rw [List.foldl_cons, ih]
    simp only [sumAt, List.map_cons, List.sum_cons]
    by_cases h1 : x.1 = i
    · by_cases h2 : x.2.1 = j
      · subst h1 h2; simp [add_assoc]
      · subst h1; rw [Function.update_self, Function.update_of_ne (Ne.symm h2)]; simp [h2]
    · rw [Function.update_of_ne (Ne.symm h1)]; simp [h1]

theorem setValues_apply (A : Mat α) (c : Call α) (i j : Nat) : setValues A c i j = A i j + sumAt c.entries i j :=
  foldl_entries _ _ _ _

theorem foldl_setValues (l : List (Call α)) (A : Mat α) (i j : Nat) :
    l.foldl setValues A i j = A i j + (l.map fun c => sumAt c.entries i j).sum := by
  induction l generalizing A with
  | nil => simp
  | cons c l ih => rw [List.foldl_cons, ih, setValues_apply]; simp [add_assoc]

theorem assembled_apply (l : List (Call α)) (i j : Nat) :
    assembled l i j = (l.map fun c => sumAt c.entries i j).sum := by
  rw [assembled, foldl_setValues]; simp

theorem sumAt_flatMap {β : Type} (l : List β) (f : β → List (Nat × Nat × α)) (i j : Nat) :
    sumAt (l.flatMap f) i j = (l.map fun x => sumAt (f x) i j).sum := by
  induction l with
  | nil => simp [sumAt]
  | cons x l ih => simp only [List.flatMap_cons, List.map_cons, List.sum_cons, ← ih]; simp [sumAt]

/-- The call with rows and columns given by basis functions adds its contribution. -/
theorem sumAt_call {m : Mesh} {unkR unkC} {gR gC : Dof → Nat} (ds cs : List Dof) (M : LocalMatrix α)
    (hR : M.rows = ds.length) (hds : ∀ d ∈ ds, ∀ d', AllDofs m unkR d' → gR d = gR d' → d = d')
    (hcs : ∀ d ∈ cs, ∀ d', AllDofs m unkC d' → gC d = gC d' → d = d') (d c : Dof)
    (hd : AllDofs m unkR d) (hc : AllDofs m unkC c) :
    sumAt (Call.entries ⟨ds.map gR, cs.map gC, M.data, false⟩) (gR d) (gC c) = contribution M ds cs d c := by
  unfold Call.entries contribution
  rw [sumAt_flatMap, zipIdx_sum, List.length_map]
  refine Finset.sum_congr rfl fun a ha => ?_
  have ha' : a < ds.length := Finset.mem_range.1 ha
  rw [List.getElem?_map, List.getElem?_eq_getElem ha']
  simp only [Option.map_some, sumAt, List.map_map]
  rw [zipIdx_sum, List.length_map]
  refine Finset.sum_congr rfl fun b hb => ?_
  have hb' : b < cs.length := Finset.mem_range.1 hb
  rw [List.getElem?_map, List.getElem?_eq_getElem hb']
  simp only [Option.map_some, Function.comp, Bool.false_eq_true, if_false, List.length_map, LocalMatrix.entry, hR, Option.some.injEq]
  have e1 : gR ds[a] = gR d ↔ ds[a] = d := ⟨hds _ (List.getElem_mem ha') d hd, fun h => by rw [h]⟩
  have e2 : gC cs[b] = gC c ↔ cs[b] = c := ⟨hcs _ (List.getElem_mem hb') c hc, fun h => by rw [h]⟩
  simp only [e1, e2]

/-! ### Elements and faces of the ranks -/

section
variable {m : Mesh} (hm : m.Valid) (hg : m.Ghosts) {P : Parts} (hL : Layer m P)
include hm hg

theorem has_owner {p e : Nat} (hp : p < m.ranks) (h : m.Has p e) : ∃ q < m.ranks, e ∈ m.owned q := by
  rcases h with h | ⟨q, hq, h⟩
  · exact ⟨p, hp, h⟩
  · exact ⟨q, hq, hg.push_owned q hq p e h⟩

theorem has_own {p e : Nat} (hp : p < m.ranks) (h : m.Has p e) (ho : m.owner e = p) : e ∈ m.owned p := by
  obtain ⟨q, hq, hq'⟩ := has_owner hm hg hp h
  have := hm.owner_eq q hq e hq'
  rwa [show p = q by omega]

omit hm hg in
theorem mem_elements {e : Nat} : e ∈ elements m ↔ ∃ p < m.ranks, e ∈ m.owned p := by
  simp [elements]

omit hm hg in
theorem mem_faces {f : Nat} : f ∈ faces m ↔ ∃ p < m.ranks, ∃ e ∈ m.owned p, f ∈ m.sub .face e := by
  simp only [faces, Finset.mem_biUnion, mem_elements, List.mem_toFinset]
  constructor
  · rintro ⟨e, ⟨p, hp, he⟩, hf⟩; exact ⟨p, hp, e, he, hf⟩
  · rintro ⟨p, hp, e, he, hf⟩; exact ⟨e, ⟨p, hp, he⟩, hf⟩

include hL

/-- A face that a rank owns. -/
theorem ownsFace_spec {p f : Nat} (hp : p < m.ranks) (hf : f ∈ P.faces p) (ho : P.ownsFace m p f = true) :
    P.around p f = m.adj .face f ∧ m.owner ((m.adj .face f).headD 0) = p ∧ f ∈ faces m := by
  obtain ⟨hne, hsub⟩ := hL.around_sub p hp f hf
  simp only [Parts.ownsFace, decide_eq_true_eq] at ho
  obtain ⟨e, l, hel⟩ := List.exists_cons_of_ne_nil hne
  rw [hel] at ho hsub
  simp only [List.headD_cons] at ho
  obtain ⟨h1, h2, h3⟩ := hsub e List.mem_cons_self
  have he := has_own hm hg hp h2 ho
  have ha := hL.around_own p hp f hf e h1 he
  refine ⟨ha, ?_, mem_faces.2 ⟨p, hp, e, he, h3⟩⟩
  rw [← ha, hel]; simpa using ho

theorem face_has_owner {f : Nat} (hf : f ∈ faces m) : ∃ p < m.ranks, f ∈ P.faces p ∧ P.ownsFace m p f = true := by
  obtain ⟨p, hp, e, he, hfe⟩ := mem_faces.1 hf
  have h1 := hg.adj_of_sub p hp e he .face f hfe
  obtain ⟨e', l, hel⟩ := List.exists_cons_of_ne_nil (List.ne_nil_of_mem h1)
  obtain ⟨a1, a2, a3⟩ := hg.sub_of_adj p hp e he .face f hfe e' (by rw [hel]; exact List.mem_cons_self)
  have hfp := hL.faces_own _ a1 e' a2 f a3
  refine ⟨m.owner e', a1, hfp, ?_⟩
  have := hL.around_own _ a1 f hfp e' (by rw [hel]; exact List.mem_cons_self) a2
  simp [Parts.ownsFace, this, hel]

theorem sum_elements (φ : Nat → α) :
    ((List.range m.ranks).map fun p => ((m.owned p).map φ).sum).sum = ∑ e ∈ elements m, φ e := by
  rw [elements, Finset.sum_biUnion]
  · rw [Finset.sum_range, ← List.sum_ofFn, ← List.map_coe_finRange_eq_range, List.map_map, List.ofFn_eq_map]
    congr 1
    refine List.map_congr_left fun p _ => ?_
    simp only [Function.comp]
    rw [List.sum_toFinset _ (hm.owned_nodup p p.2)]
  · intro p hp q hq hpq
    rw [Function.onFun, Finset.disjoint_left]
    intro e he he'
    simp only [List.mem_toFinset] at he he'
    exact hpq (by rw [← hm.owner_eq p (by simpa using hp) e he, hm.owner_eq q (by simpa using hq) e he'])

theorem sum_faces (φ : Nat → α) :
    ((List.range m.ranks).map fun p => (((P.faces p).filter fun f => P.ownsFace m p f).map φ).sum).sum =
      ∑ f ∈ faces m, φ f := by
  have : faces m = (Finset.range m.ranks).biUnion fun p => ((P.faces p).filter fun f => P.ownsFace m p f).toFinset := by
    ext f
    simp only [Finset.mem_biUnion, Finset.mem_range, List.mem_toFinset, List.mem_filter]
    constructor
    · exact face_has_owner hm hg hL
    · rintro ⟨p, hp, hf, ho⟩; exact (ownsFace_spec hm hg hL hp hf ho).2.2
  rw [this, Finset.sum_biUnion]
  · rw [Finset.sum_range, ← List.sum_ofFn, ← List.map_coe_finRange_eq_range, List.map_map, List.ofFn_eq_map]
    congr 1
    refine List.map_congr_left fun p _ => ?_
    simp only [Function.comp]
    rw [List.sum_toFinset _ ((hL.faces_nodup p p.2).filter _)]
  · intro p hp q hq hpq
    rw [Function.onFun, Finset.disjoint_left]
    intro f hf hf'
    simp only [List.mem_toFinset, List.mem_filter] at hf hf'
    exact hpq (by rw [← (ownsFace_spec hm hg hL (by simpa using hp) hf.1 hf.2).2.1,
      (ownsFace_spec hm hg hL (by simpa using hq) hf'.1 hf'.2).2.1])

end
end

section
variable {m : Mesh} (hm : m.Valid) (hg : m.Ghosts) {unk : Option (List Nat)} {s : Nat → State} {g : Dof → Nat}
  (hF : Facts m unk s g)
include hm hg hF

theorem localDofs_all {p e : Nat} (hp : p < m.ranks) (he : m.Has p e) {d : Dof} (hd : d ∈ localDofs m unk e) :
    AllDofs m unk d := by
  obtain ⟨ho, hu, hi⟩ := mem_localDofs.1 hd
  obtain ⟨q, hq, how⟩ := hF.owner p hp e he _ ho
  exact ⟨q, hq, how, hu, hi⟩

theorem faceIndices_eq {P : Parts} (hL : Layer m P) {p f : Nat} (hp : p < m.ranks) (hf : f ∈ P.faces p) :
    faceIndices m P p (s p) f = some (((P.around p f).flatMap (localDofs m unk)).map g) := by
  unfold faceIndices
  rw [mapM_some _ (fun e => (localDofs m unk e).map g) _ fun e he => hF.indices p hp e ((hL.around_sub p hp f hf).2 e he).2.1]
  simp [List.map_flatMap, List.flatMap, Function.comp_def]

end
end Verif.Assembly
