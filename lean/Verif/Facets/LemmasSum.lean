import Verif.Facets.LemmasOrder

/-! # Sums over facets: sums over processes -/
namespace Verif.Facets

variable {φ : Type}

theorem mapM_some {α β : Type} (l : List α) (f : α → Option β) (g : α → β) (h : ∀ a ∈ l, f a = some (g a)) : l.mapM f = some (l.map g) := by
  induction l with
  | nil => rfl
  | cons a l ih => rw [List.mapM_cons, ih fun b hb => h b (List.mem_cons_of_mem _ hb), h a (by simp)]; rfl

theorem interfaces_lt {zones : Nat} {mesh : List (Face φ)} {p : Nat × Option Nat} (h : p ∈ interfaces zones mesh) : p.1 < zones ∧ ∀ c, p.2 = some c → p.1 < c ∧ c < zones := by
  rw [interfaces, List.mem_filter, List.mem_flatMap] at h
  obtain ⟨⟨a, ha, h⟩, _⟩ := h
  have ha := List.mem_range.1 ha
  rcases List.mem_cons.1 h with rfl | h
  · exact ⟨ha, by simp⟩
  · obtain ⟨b, hb, rfl⟩ := List.mem_map.1 h
    have := List.mem_filter.1 hb
    refine ⟨ha, ?_⟩
    rintro c ⟨⟩
    exact ⟨by simpa using this.2, List.mem_range.1 this.1⟩

theorem sum_filter_map {M α : Type} [AddCommMonoid M] (l : List α) (p : α → Bool) (g : α → M) : ((l.filter p).map g).sum = (l.map fun a => if p a then g a else 0).sum := by
  induction l with
  | nil => rfl
  | cons a l ih =>
    rw [List.filter_cons, List.map_cons, List.sum_cons, ← ih]
    split <;> simp

theorem sum_flatMap {M α : Type} [AddCommMonoid M] (l : List α) (g : α → List M) : (l.flatMap g).sum = (l.map fun a => (g a).sum).sum := by
  induction l with
  | nil => rfl
  | cons a l ih => rw [List.flatMap_cons, List.sum_append, ih, List.map_cons, List.sum_cons]

theorem computeFluxes_eq {M : Type} [AddCommMonoid M] {zones : Nat} {processes : List (List (Face φ))} {mesh : List (Face φ)} (hd : Divided mesh processes)
    (hv : ∀ f ∈ mesh, Valid zones f) (flux : φ → Side → M) :
    computeFluxes zones processes flux = some ((interfaces zones mesh).map fun p => fluxBetween mesh flux p.1 p.2) := by
  have hmem : ∀ f, f ∈ (processes.flatMap fun faces => faces.filter Face.owned) ↔ f ∈ mesh := fun f => hd.mem_iff
  have hown : ∀ f ∈ mesh, f.owned = true := by
    intro f hf
    obtain ⟨l, _, h⟩ := List.mem_flatMap.1 ((hmem f).2 hf)
    exact (List.mem_filter.1 h).2
  have hko : ∀ faces ∈ processes, ∀ f ∈ faces, taken f → zonePair f ∈ ordering zones processes := by
    intro faces hfs f hf ht
    have ho : f.owned = true := by simp only [taken, Bool.and_eq_true] at ht; exact ht.1
    have hm : f ∈ mesh := (hmem f).1 (List.mem_flatMap.2 ⟨faces, hfs, List.mem_filter.2 ⟨hf, ho⟩⟩)
    have hi := index_unindex (zonePair_ok (hv f hm))
    unfold ordering
    refine List.mem_map.2 ⟨index zones (zonePair f), List.mem_filter.2 ⟨List.mem_range.2 hi.2, ?_⟩, hi.1⟩
    rw [decide_eq_true_eq, maxFlags_ne]
    exact ⟨f, (hmem f).2 hm, ht, rfl⟩
  have hn := ordering_nodup zones processes
  have hex : ∀ faces, faces ∈ processes → _ := fun faces hf => localFluxes_eq (ordering zones processes) hn flux faces (hko faces hf)
  classical
  let flatOf : List (Face φ) → Nat → M := fun faces => if h : faces ∈ processes then (hex faces h).choose else fun _ => 0
  have h1 : processes.mapM (fun faces => localFluxes (ordering zones processes) flux (facets faces)) = some (processes.map flatOf) := by
    refine mapM_some _ _ _ fun faces hf => ?_
    have := (hex faces hf).choose_spec.1
    simp only [flatOf, dif_pos hf]
    exact this
  simp only [computeFluxes, h1, Option.bind_eq_bind, Option.bind_some]
  refine congrArg some ?_
  have ho := ordering_eq hd hv
  refine List.ext_getElem (by simp [ho]) fun i hi1 hi2 => ?_
  simp only [List.length_map] at hi2
  rw [List.getElem_map, List.getElem_map, List.getElem_range]
  set p := (interfaces zones mesh)[i] with hp
  have hpi : (ordering zones processes)[i]? = some (toPair p) := by rw [ho, List.getElem?_map, List.getElem?_eq_getElem hi2]; rfl
  have hlt := interfaces_lt (List.getElem_mem hi2)
  rw [← hp] at hlt
  have e1 : ∀ faces ∈ processes, flatOf faces i =
      ((faces.filter Face.owned).map (fluxThrough flux p.1 p.2)).sum := by
    intro faces hf
    have h2 := (hex faces hf).choose_spec.2 i _ hpi
    simp only [flatOf, dif_pos hf]
    rw [h2, sum_filter_map, sum_filter_map]
    refine congrArg _ (List.map_congr_left fun f _ => ?_)
    by_cases hfo : f.owned = true
    · rw [fluxThrough, sideBetween_iff p.1 p.2 (fun c hc => (hlt.2 c hc).1) f hfo, hfo, if_pos rfl]
      split
      · rfl
      · rfl
    · have : taken f = false := by simp [taken, hfo]
      simp [this, hfo]
  rw [List.map_map]
  have e2 : (processes.map ((fun flat => flat i) ∘ flatOf)) = processes.map fun faces =>
      ((faces.filter Face.owned).map (fluxThrough flux p.1 p.2)).sum := List.map_congr_left fun faces hf => e1 faces hf
  rw [e2, fluxBetween, ← (hd.map _).sum_eq, List.map_flatMap, sum_flatMap]

/-! ## Bounds -/

theorem foldl_min_cond {α β : Type} [LinearOrder β] [OrderTop β] (l : List α) (g : β → α → β) (v : α → β) (h : ∀ m a, g m a = min m (v a)) (m b : β) :
    b ≤ l.foldl g m ↔ b ≤ m ∧ ∀ a ∈ l, b ≤ v a := by
  induction l generalizing m with
  | nil => simp
  | cons a l ih => rw [List.foldl_cons, ih, h, le_min_iff]; simp [and_assoc]

theorem foldl_max_cond {α β : Type} [LinearOrder β] [OrderBot β] (l : List α) (g : β → α → β) (v : α → β) (h : ∀ m a, g m a = max m (v a)) (m b : β) :
    l.foldl g m ≤ b ↔ m ≤ b ∧ ∀ a ∈ l, v a ≤ b := by
  induction l generalizing m with
  | nil => simp
  | cons a l ih => rw [List.foldl_cons, ih, h, max_le_iff]; simp [and_assoc]

theorem foldl_min_nodes {α : Type} [LinearOrder α] (l : List α) (m b : WithTop α) : b ≤ l.foldl (fun m (x : α) => min m (x : WithTop α)) m ↔ b ≤ m ∧ ∀ x ∈ l, b ≤ (x : WithTop α) :=
  foldl_min_cond l _ (fun x : α => (x : WithTop α)) (fun _ _ => rfl) m b

theorem foldl_max_nodes {α : Type} [LinearOrder α] (l : List α) (m b : WithBot α) : l.foldl (fun m (x : α) => max m (x : WithBot α)) m ≤ b ↔ m ≤ b ∧ ∀ x ∈ l, (x : WithBot α) ≤ b :=
  foldl_max_cond l _ (fun x : α => (x : WithBot α)) (fun _ _ => rfl) m b

theorem foldl_min_elements {α μ : Type} [LinearOrder α] (zone : Nat) (l : List (Element α μ)) (m b : WithTop α) :
    b ≤ l.foldl (fun m e => if e.owned && decide (e.zone = zone) then e.nodes.foldl (fun m (x : α) => min m (x : WithTop α)) m else m) m ↔
      b ≤ m ∧ ∀ e ∈ l, e.owned = true → e.zone = zone → ∀ x ∈ e.nodes, b ≤ (x : WithTop α) := by
  induction l generalizing m with
  | nil => simp
  | cons e l ih =>
    rw [List.foldl_cons, ih]
    by_cases h : e.owned = true ∧ e.zone = zone
    · simp only [h.1, h.2, decide_true, Bool.and_self, if_true, foldl_min_nodes, List.forall_mem_cons, forall_const, and_assoc]
    · have : ¬ (e.owned && decide (e.zone = zone)) = true := by simpa using h
      rw [if_neg this, List.forall_mem_cons]
      constructor
      · exact fun ⟨h1, h2⟩ => ⟨h1, fun ho hz => absurd ⟨ho, hz⟩ h, h2⟩
      · exact fun ⟨h1, _, h2⟩ => ⟨h1, h2⟩

theorem foldl_max_elements {α μ : Type} [LinearOrder α] (zone : Nat) (l : List (Element α μ)) (m b : WithBot α) :
    l.foldl (fun m e => if e.owned && decide (e.zone = zone) then e.nodes.foldl (fun m (x : α) => max m (x : WithBot α)) m else m) m ≤ b ↔
      m ≤ b ∧ ∀ e ∈ l, e.owned = true → e.zone = zone → ∀ x ∈ e.nodes, (x : WithBot α) ≤ b := by
  induction l generalizing m with
  | nil => simp
  | cons e l ih =>
    rw [List.foldl_cons, ih]
    by_cases h : e.owned = true ∧ e.zone = zone
    · simp only [h.1, h.2, decide_true, Bool.and_self, if_true, foldl_max_nodes, List.forall_mem_cons, forall_const, and_assoc]
    · have : ¬ (e.owned && decide (e.zone = zone)) = true := by simpa using h
      rw [if_neg this, List.forall_mem_cons]
      constructor
      · exact fun ⟨h1, h2⟩ => ⟨h1, fun ho hz => absurd ⟨ho, hz⟩ h, h2⟩
      · exact fun ⟨h1, _, h2⟩ => ⟨h1, h2⟩

theorem le_lowBound {α μ : Type} [LinearOrder α] (processes : List (List (Element α μ))) (zone : Nat) (b : WithTop α) :
    b ≤ lowBound processes zone ↔ ∀ elements ∈ processes, ∀ e ∈ elements, e.owned = true → e.zone = zone → ∀ x ∈ e.nodes, b ≤ (x : WithTop α) := by
  rw [lowBound, foldl_min_cond _ min id (fun _ _ => rfl)]
  simp only [le_top, true_and, List.forall_mem_map, id, foldl_min_elements]

theorem highBound_le {α μ : Type} [LinearOrder α] (processes : List (List (Element α μ))) (zone : Nat) (b : WithBot α) :
    highBound processes zone ≤ b ↔ ∀ elements ∈ processes, ∀ e ∈ elements, e.owned = true → e.zone = zone → ∀ x ∈ e.nodes, (x : WithBot α) ≤ b := by
  rw [highBound, foldl_max_cond _ max id (fun _ _ => rfl)]
  simp only [bot_le, true_and, List.forall_mem_map, id, foldl_max_elements]

/-! ## Layers -/

theorem zipIdx_append_single {α : Type} (l : List α) (a : α) : (l ++ [a]).zipIdx = l.zipIdx ++ [(a, l.length)] := by
  rw [List.zipIdx_append]; simp

theorem descriptionOf_iff (zoneNames pmls : List String) (zone k : Nat) :
    descriptionOf zoneNames pmls zone = some k ↔
      ∃ name, pmls[k]? = some name ∧ zoneNames.findIdx? (· == name) = some zone ∧ ∀ k' > k, ∀ name', pmls[k']? = some name' → zoneNames.findIdx? (· == name') ≠ some zone := by
  unfold descriptionOf
  induction pmls using List.reverseRecOn with
  | nil => simp
  | append_singleton l a ih =>
    rw [zipIdx_append_single, List.foldl_append, List.foldl_cons, List.foldl_nil]
    have last : ∀ (k : Nat) (name : String), (l ++ [a])[k]? = some name ↔ l[k]? = some name ∨ (k = l.length ∧ a = name) := by
      intro k name
      rcases Nat.lt_trichotomy k l.length with h | h | h
      · rw [List.getElem?_append_left h]; constructor
        · exact Or.inl
        · rintro (h' | ⟨h', _⟩)
          · exact h'
          · omega
      · subst h; simp
      · rw [List.getElem?_eq_none (by simp; omega)]; constructor
        · simp
        · rintro (h' | ⟨h', _⟩)
          · rw [List.getElem?_eq_none h.le] at h'; cases h'
          · omega
    by_cases ha : zoneNames.findIdx? (· == a) = some zone
    · simp only [describe, ha, Function.update_self, Option.some.injEq]
      constructor
      · rintro rfl
        refine ⟨a, (last _ _).2 (Or.inr ⟨rfl, rfl⟩), ha, ?_⟩
        intro k' hk' name' hn
        rw [List.getElem?_eq_none (by simp; omega)] at hn
        cases hn
      · rintro ⟨name, h1, h2, h3⟩
        rcases (last _ _).1 h1 with h | ⟨h, _⟩
        · have hk : k < l.length := (List.getElem?_eq_some_iff.1 h).1
          exact absurd ha (h3 l.length hk a ((last _ _).2 (Or.inr ⟨rfl, rfl⟩)))
        · exact h.symm
    · have hsame : ∀ m, describe zoneNames m (a, l.length) zone = m zone := by
        intro m
        unfold describe
        rcases hf : zoneNames.findIdx? (· == a) with _ | j
        · rfl
        · have : zone ≠ j := by rintro rfl; exact ha hf
          simp only [Function.update_of_ne this]
      rw [hsame]
      refine ih.trans ?_
      constructor
      · rintro ⟨name, h1, h2, h3⟩
        refine ⟨name, (last _ _).2 (Or.inl h1), h2, ?_⟩
        intro k' hk' name' hn
        rcases (last _ _).1 hn with h | ⟨_, rfl⟩
        · exact h3 k' hk' name' h
        · exact ha
      · rintro ⟨name, h1, h2, h3⟩
        rcases (last _ _).1 h1 with h | ⟨_, rfl⟩
        · exact ⟨name, h, h2, fun k' hk' name' hn => h3 k' hk' name' ((last _ _).2 (Or.inl hn))⟩
        · exact absurd h2 ha

/-- The layer of a zone on a process. -/
def layerOf {α μ : Type} (description : Nat → Option Nat) (elements : List (Element α μ)) (z : Nat) : Option (Nat × Nat × μ) :=
  (description z).bind fun d => (elements.find? fun e' => e'.owned && decide (e'.zone = z)).map fun e' => (z, d, e'.material)

theorem layerOf_append {α μ : Type} (description : Nat → Option Nat) (l : List (Element α μ)) (e : Element α μ) (z : Nat) :
    layerOf description (l ++ [e]) z = (layerOf description l z).or (if e.owned = true ∧ e.zone = z then (description z).map fun d => (z, d, e.material) else none) := by
  unfold layerOf
  rw [List.find?_append]
  generalize l.find? (fun e' => e'.owned && decide (e'.zone = z)) = o
  rcases description z with _ | d
  · simp
  · rcases o with _ | y
    · by_cases h : e.owned = true ∧ e.zone = z
      · simp [h.1, h.2]
      · have : (e.owned && decide (e.zone = z)) = false := by simpa using h
        simp [List.find?_cons, this, h]
    · simp

theorem layerOf_isSome {α μ : Type} (description : Nat → Option Nat) (l : List (Element α μ)) (e : Element α μ) (he : e ∈ l) (ho : e.owned = true) :
    (layerOf description l e.zone).isSome = (description e.zone).isSome := by
  unfold layerOf
  rcases description e.zone with _ | d
  · rfl
  · have : (l.find? fun e' => e'.owned && decide (e'.zone = e.zone)).isSome := List.find?_isSome.2 ⟨e, he, by simp [ho]⟩
    obtain ⟨y, hy⟩ := Option.isSome_iff_exists.1 this
    rw [hy]; rfl

theorem applyLayers_eq {α μ : Type} (description : Nat → Option Nat) (elements : List (Element α μ)) :
    applyLayers description elements = elements.map fun e => if e.owned then layerOf description elements e.zone else none := by
  have key : ∀ (l : List (Element α μ)),
      l.foldl (fun (st : (Nat → Option (Nat × Nat × μ)) × List (Option (Nat × Nat × μ))) e =>
        if e.owned then
          match description e.zone with
          | none => (st.1, st.2 ++ [none])
          | some d => match st.1 e.zone with
            | some layer => (st.1, st.2 ++ [some layer])
            | none => (Function.update st.1 e.zone (some (e.zone, d, e.material)), st.2 ++ [some (e.zone, d, e.material)])
        else (st.1, st.2 ++ [none])) (fun _ => none, []) =
      (fun z => layerOf description l z, l.map fun e => if e.owned then layerOf description l e.zone else none) := by
    intro l
    induction l using List.reverseRecOn with
    | nil =>
      refine Prod.ext (funext fun z => ?_) rfl
      have : layerOf description ([] : List (Element α μ)) z = none := by
        unfold layerOf
        rcases description z <;> rfl
      exact this.symm
    | append_singleton l e ih =>
      rw [List.foldl_append, List.foldl_cons, List.foldl_nil, ih]
      have hmap : (l.map fun x => if x.owned then layerOf description (l ++ [e]) x.zone else none) = l.map fun x => if x.owned then layerOf description l x.zone else none := by
        refine List.map_congr_left fun x hx => ?_
        by_cases ho : x.owned = true
        · rw [if_pos ho, if_pos ho, layerOf_append]
          have := layerOf_isSome description l x hx ho
          rcases hl : layerOf description l x.zone with _ | y
          · rw [hl] at this
            have hn : description x.zone = none := by simpa using this.symm
            simp [hn]
          · rfl
        · rw [if_neg ho, if_neg ho]
      rw [List.map_append, hmap, List.map_cons, List.map_nil]
      by_cases ho : e.owned = true
      · rw [if_pos ho, if_pos ho]
        rcases hd : description e.zone with _ | d
        · refine Prod.ext (funext fun z => ?_) ?_
          · simp only [layerOf_append]
            by_cases hz : e.zone = z
            · subst hz; simp [hd]
            · simp [hz]
          · simp [layerOf, hd]
        · simp only
          rcases hl : layerOf description l e.zone with _ | y
          · refine Prod.ext (funext fun z => ?_) ?_
            · simp only [layerOf_append]
              by_cases hz : z = e.zone
              · subst hz; simp [hd, hl, ho]
              · have : ¬ e.zone = z := fun h => hz h.symm
                simp [Function.update_of_ne hz, this]
            · simp [layerOf_append, hl, ho, hd]
          · refine Prod.ext (funext fun z => ?_) ?_
            · simp only [layerOf_append]
              by_cases hz : e.zone = z
              · subst hz; simp [hl]
              · simp [hz]
            · simp [layerOf_append, hl]
      · rw [if_neg ho, if_neg ho]
        refine Prod.ext (funext fun z => ?_) rfl
        simp only [layerOf_append]
        simp [ho]
  exact congrArg Prod.snd (key elements)

end Verif.Facets
