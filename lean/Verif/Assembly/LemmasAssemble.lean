import Verif.Assembly.LemmasSum
set_option linter.all false
namespace Verif.Assembly
open GlobalIndexing

section
variable {α : Type} [AddCommMonoid α]

/-- The call made for an element when all is well. -/
def ecall (m : Mesh) (I : Input α) (unkR unkC : Option (List Nat)) (gR gC : Dof → Nat) (e : Nat) : Call α :=
  ⟨(localDofs m unkR e).map gR, (localDofs m unkC e).map gC, (I.elementMatrix e).data, false⟩

def fcall (m : Mesh) (I : Input α) (unkR unkC : Option (List Nat)) (gR gC : Dof → Nat) (f : Nat) : Call α :=
  ⟨(faceDofs m unkR f).map gR, (faceDofs m unkC f).map gC, (I.faceMatrix f).data, false⟩

section
variable {m : Mesh} (hm : m.Valid) (hg : m.Ghosts) {P : Parts} (hL : Layer m P)
  {unkR unkC : Option (List Nat)} {R C : Nat → State} {gR gC : Dof → Nat}
  (hR : Facts m unkR R gR) (hC : Facts m unkC C gC) {I : Input α} (hI : I.Fits m unkR unkC)
  (hs : I.symmetric = true → unkR = unkC ∧ gR = gC)
include hm hg hL hR hC hI hs

theorem elementCall_eq {p e : Nat} (hp : p < m.ranks) (he : e ∈ m.owned p) (hu : I.useElements = true) :
    elementCall m I (R p) (C p) e = some (ecall m I unkR unkC gR gC e) := by
  obtain ⟨h1, h2⟩ := hI.1 hu e (mem_elements.2 ⟨p, hp, he⟩)
  have hh : m.Has p e := Or.inl he
  unfold elementCall
  rw [hR.indices p hp e hh, hC.indices p hp e hh]
  cases hsym : I.symmetric
  · simp [h1, h2, ecall]
  · obtain ⟨rfl, rfl⟩ := hs hsym
    simp [h1, h2, ecall]

theorem faceCall_eq {p f : Nat} (hp : p < m.ranks) (hf : f ∈ P.faces p) (ho : P.ownsFace m p f = true)
    (hu : I.useFaces = true) : faceCall m P I (R p) (C p) p f = some (fcall m I unkR unkC gR gC f) := by
  obtain ⟨a1, a2, a3⟩ := ownsFace_spec hm hg hL hp hf ho
  obtain ⟨h1, h2⟩ := hI.2 hu f a3
  unfold faceCall
  rw [faceIndices_eq hm hg hR hL hp hf, faceIndices_eq hm hg hC hL hp hf, a1]
  simp only [faceDofs] at h1 h2
  cases hsym : I.symmetric
  · simp only [Option.bind_eq_bind, Option.bind_some, Bool.false_eq_true, if_false, List.length_map, h1, h2, and_self, if_true, fcall, faceDofs]
  · obtain ⟨rfl, rfl⟩ := hs hsym
    simp only [Option.bind_eq_bind, Option.bind_some, if_true, List.length_map, h1, h2, and_self, fcall, faceDofs]

theorem assembleCalls_eq {p : Nat} (hp : p < m.ranks) : assembleCalls m P I (R p) (C p) p = some (
    (if I.useElements then (m.owned p).map (ecall m I unkR unkC gR gC) else []) ++
    (if I.useFaces then ((P.faces p).filter fun f => P.ownsFace m p f).map (fcall m I unkR unkC gR gC) else [])) := by
  have h1 : (if I.useElements then (m.owned p).mapM (elementCall m I (R p) (C p)) else some []) =
      some (if I.useElements then (m.owned p).map (ecall m I unkR unkC gR gC) else []) := by
    cases hu : I.useElements
    · simp
    · simp only [if_true]
      exact mapM_some _ _ _ fun e he => elementCall_eq hm hg hL hR hC hI hs hp he hu
  have h2 : (if I.useFaces then ((P.faces p).filter fun f => P.ownsFace m p f).mapM (faceCall m P I (R p) (C p) p) else some []) =
      some (if I.useFaces then ((P.faces p).filter fun f => P.ownsFace m p f).map (fcall m I unkR unkC gR gC) else []) := by
    cases hu : I.useFaces
    · simp
    · simp only [if_true]
      refine mapM_some _ _ _ fun f hf => ?_
      rw [List.mem_filter] at hf
      exact faceCall_eq hm hg hL hR hC hI hs hp hf.1 hf.2 hu
  cases hu : I.useElements <;> cases hf : I.useFaces <;>
    simp only [hu, hf, if_true, Bool.false_eq_true, if_false] at h1 h2 <;>
    simp [assembleCalls, hu, hf, h1, h2]

theorem sumAt_ecall {e : Nat} (he : e ∈ elements m) (hu : I.useElements = true) {d c : Dof}
    (hd : AllDofs m unkR d) (hc : AllDofs m unkC c) :
    sumAt (ecall m I unkR unkC gR gC e).entries (gR d) (gC c) =
      contribution (I.elementMatrix e) (localDofs m unkR e) (localDofs m unkC e) d c := by
  obtain ⟨p, hp, hep⟩ := mem_elements.1 he
  have hh : m.Has p e := Or.inl hep
  exact sumAt_call _ _ _ (hI.1 hu e he).1
    (fun x hx y hy => hR.inj x y (localDofs_all hm hg hR hp hh hx) hy)
    (fun x hx y hy => hC.inj x y (localDofs_all hm hg hC hp hh hx) hy) d c hd hc

theorem faceDofs_all {unk} {s : Nat → State} {g : Dof → Nat} (hF : Facts m unk s g) {f : Nat} (hf : f ∈ faces m) {d : Dof} (hd : d ∈ faceDofs m unk f) :
    AllDofs m unk d := by
  obtain ⟨p, hp, e, he, hfe⟩ := mem_faces.1 hf
  obtain ⟨e', he', hd⟩ := List.mem_flatMap.1 hd
  obtain ⟨a1, a2, a3⟩ := hg.sub_of_adj p hp e he .face f hfe e' he'
  exact localDofs_all hm hg hF a1 (Or.inl a2) hd

theorem sumAt_fcall {f : Nat} (hf : f ∈ faces m) (hu : I.useFaces = true) {d c : Dof}
    (hd : AllDofs m unkR d) (hc : AllDofs m unkC c) :
    sumAt (fcall m I unkR unkC gR gC f).entries (gR d) (gC c) =
      contribution (I.faceMatrix f) (faceDofs m unkR f) (faceDofs m unkC f) d c :=
  sumAt_call _ _ _ (hI.2 hu f hf).1
    (fun x hx y hy => hR.inj x y (faceDofs_all hm hg hL hR hC hI hs hR hf hx) hy)
    (fun x hx y hy => hC.inj x y (faceDofs_all hm hg hL hR hC hI hs hC hf hx) hy) d c hd hc

end

theorem sum_map_add {β : Type} (l : List β) (f g : β → α) :
    (l.map fun x => f x + g x).sum = (l.map f).sum + (l.map g).sum := by
  induction l with
  | nil => simp
  | cons x l ih => simp only [List.map_cons, List.sum_cons, ih]; exact add_add_add_comm _ _ _ _

/-- The sum over the calls of all ranks. -/
theorem sum_calls {β : Type} {m : Mesh} (hm : m.Valid) (hg : m.Ghosts) {P : Parts} (hL : Layer m P)
    (b1 b2 : Bool) (ec fc : Nat → β) (φ : β → α) :
    (((List.range m.ranks).flatMap fun p => (if b1 then (m.owned p).map ec else []) ++
      (if b2 then ((P.faces p).filter fun f => P.ownsFace m p f).map fc else [])).map φ).sum =
    (if b1 then ∑ e ∈ elements m, φ (ec e) else 0) + (if b2 then ∑ f ∈ faces m, φ (fc f) else 0) := by
  have key : ∀ (l : List Nat) (f : Nat → List β), ((l.flatMap f).map φ).sum = (l.map fun p => ((f p).map φ).sum).sum := by
    intro l f; induction l with
    | nil => simp
    | cons x l ih => simp [ih]
  rw [key]
  simp only [List.map_append, List.sum_append]
  rw [sum_map_add]
  congr 1
  · cases b1
    · simp
    · rw [if_pos rfl, ← sum_elements hm hg hL]; simp [Function.comp_def]
  · cases b2
    · simp
    · rw [if_pos rfl, ← sum_faces hm hg hL]; simp [Function.comp_def]

/-! ### Vectors -/

def vsumAt (c : VCall α) (i : Nat) : α := ((c.rows.zip c.data).map fun x => if x.1 = i then x.2 else 0).sum

theorem vadd_apply (b : Nat → α) (c : VCall α) (i : Nat) : c.add b i = b i + vsumAt c i := by
  unfold VCall.add vsumAt
  generalize c.rows.zip c.data = l
  induction l generalizing b with
  | nil => simp
  | cons x l ih =>
    rw [List.foldl_cons, ih]
    simp only [List.map_cons, List.sum_cons]
    by_cases h : x.1 = i
    · subst h; simp [add_assoc]
    · rw [Function.update_of_ne (Ne.symm h)]; simp [h]

theorem assembledVec_apply (l : List (VCall α)) (i : Nat) : assembledVec l i = (l.map fun c => vsumAt c i).sum := by
  unfold assembledVec
  have : ∀ b : Nat → α, l.foldl VCall.add b i = b i + (l.map fun c => vsumAt c i).sum := by
    intro b
    induction l generalizing b with
    | nil => simp
    | cons c l ih => rw [List.foldl_cons, ih, vadd_apply]; simp [add_assoc]
  rw [this]; simp

theorem zip_sum {β : Type} (l : List β) (v : List α) (f : β → Bool) (h : v.length = l.length) :
    ((l.zip v).map fun x => if f x.1 then x.2 else 0).sum =
      ∑ a ∈ Finset.range l.length, (match l[a]? with | some x => if f x then v.getD a 0 else 0 | none => 0) := by
  induction l using List.reverseRecOn generalizing v with
  | nil => simp
  | append_singleton l x ih =>
    obtain ⟨v', y, rfl⟩ : ∃ v' y, v = v' ++ [y] := by
      rcases List.eq_nil_or_concat v with rfl | ⟨v', y, rfl⟩
      · simp at h
      · exact ⟨v', y, by simp⟩
    have hl : v'.length = l.length := by simpa using h
    rw [List.zip_append hl.symm, List.map_append, List.sum_append, ih v' hl, List.length_append, List.length_singleton,
      Finset.sum_range_succ]
    congr 1
    · refine Finset.sum_congr rfl fun a ha => ?_
      have := Finset.mem_range.1 ha
      simp only [List.getD_eq_getElem?_getD]
      rw [List.getElem?_append_left this, List.getElem?_append_left (by omega)]
    · simp [← hl]

theorem vsumAt_call {m : Mesh} {unk} {g : Dof → Nat} (ds : List Dof) (v : List α) (h : v.length = ds.length)
    (hds : ∀ d ∈ ds, ∀ d', AllDofs m unk d' → g d = g d' → d = d') (d : Dof) (hd : AllDofs m unk d) :
    vsumAt ⟨ds.map g, v⟩ (g d) = vcontribution v ds d := by
  unfold vsumAt vcontribution
  have := zip_sum (ds.map g) v (fun i => decide (i = g d)) (by simpa using h)
  simp only [decide_eq_true_eq] at this
  rw [this, List.length_map]
  refine Finset.sum_congr rfl fun a ha => ?_
  have ha' : a < ds.length := Finset.mem_range.1 ha
  rw [List.getElem?_map, List.getElem?_eq_getElem ha']
  have e1 : g ds[a] = g d ↔ ds[a] = d := ⟨hds _ (List.getElem_mem ha') d hd, fun h => by rw [h]⟩
  simp [e1]

end
end Verif.Assembly
