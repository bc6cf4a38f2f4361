import Mathlib.Order.Bounds.Basic
import Mathlib.Data.Finset.Max
import Mathlib.Data.List.Perm.Basic
import Verif.Facets.LemmasSum

/-! # Sums over facets: the properties -/
namespace Verif.Facets

variable {φ : Type}

/-! ## Fluxes between zones -/

/-- **C97.** The fluxes: one for every pair of zones with a common face and every zone at the boundary, each the sum over all faces of the mesh between the two, seen from the zone with the
smaller number. -/
theorem fluxes_eq {M : Type} [AddCommMonoid M] {zones : Nat} {processes : List (List (Face φ))} {mesh : List (Face φ)} (hd : Divided mesh processes) (hv : ∀ f ∈ mesh, Valid zones f)
    (flux : φ → Side → M) : computeFluxes zones processes flux = some ((interfaces zones mesh).map fun p => fluxBetween mesh flux p.1 p.2) :=
  computeFluxes_eq hd hv flux

/-- **C97.** The names are those of the same interfaces in the same order, so the header agrees with the columns. -/
theorem names_eq {zoneNames : List String} {processes : List (List (Face φ))} {mesh : List (Face φ)} (hd : Divided mesh processes) (hv : ∀ f ∈ mesh, Valid zoneNames.length f) :
    names zoneNames processes = some ((interfaces zoneNames.length mesh).map (interfaceName zoneNames)) := by
  unfold names
  rw [ordering_eq hd hv]
  have : ∀ l : List (Nat × Option Nat), (∀ p ∈ l, p ∈ interfaces zoneNames.length mesh) → (l.map toPair).mapM (fun p => do
      let first ← zoneNames[p.1.toNat]?
      if p.2 ≥ 0 then
        let second ← zoneNames[p.2.toNat]?
        return "flux-" ++ first ++ "--" ++ second
      else return "flux-" ++ first) = some (l.map (interfaceName zoneNames)) := by
    intro l
    induction l with
    | nil => intro _; rfl
    | cons p l ih =>
      intro h
      rw [List.map_cons, List.mapM_cons, ih fun q hq => h q (List.mem_cons_of_mem _ hq)]
      obtain ⟨h1, h2⟩ := interfaces_lt (h p (by simp))
      obtain ⟨a, b⟩ := p
      simp only at h1 h2
      rcases b with _ | b
      · simp [toPair, code, interfaceName, List.getElem?_eq_getElem h1, List.getD_eq_getElem?_getD]
      · have h3 := (h2 b rfl).2
        simp [toPair, code, interfaceName, List.getElem?_eq_getElem h1, List.getElem?_eq_getElem h3, List.getD_eq_getElem?_getD]
  exact this _ fun _ h => h

/-- **C97.** Neither depends on how the faces are divided among processes or in which order a process has them. -/
theorem fluxes_division {M : Type} [AddCommMonoid M] {zones : Nat} {processes processes' : List (List (Face φ))} {mesh mesh' : List (Face φ)} (hd : Divided mesh processes)
    (hd' : Divided mesh' processes') (hm : mesh.Perm mesh') (hv : ∀ f ∈ mesh, Valid zones f) (flux : φ → Side → M) :
    computeFluxes zones processes flux = computeFluxes zones processes' flux := by
  have h : Divided mesh processes' := List.Perm.trans hd' hm.symm
  rw [fluxes_eq hd hv, fluxes_eq h hv]

/-- **C97.** If what leaves through a face on one side enters on the other, the flux between two zones has the opposite sign when it is seen from the other. -/
theorem flux_reverse {M : Type} [AddCommGroup M] (mesh : List (Face φ)) (flux : φ → Side → M) (hf : ∀ i, flux i .right = -flux i .left) (a b : Nat) (hab : a ≠ b) :
    fluxBetween mesh flux b (some a) = -fluxBetween mesh flux a (some b) := by
  unfold fluxBetween
  rw [List.sum_neg, List.map_map]
  refine congrArg _ (List.map_congr_left fun f _ => ?_)
  obtain ⟨l, r, o, i⟩ := f
  rcases r with _ | r
  · simp [fluxThrough, sideBetween]
  · have hl : flux i .left = -flux i .right := by rw [hf, neg_neg]
    by_cases h1 : l = a ∧ r = b
    · obtain ⟨rfl, rfl⟩ := h1
      have : ¬ (l = r ∧ r = l) := fun h => hab h.1
      simp only [fluxThrough, sideBetween, Function.comp, if_neg this, and_self, if_true]
      exact hf i
    · by_cases h2 : r = a ∧ l = b
      · obtain ⟨rfl, rfl⟩ := h2
        have : ¬ (l = r ∧ r = l) := fun h => hab h.2
        simp only [fluxThrough, sideBetween, Function.comp, if_neg this, and_self, if_true]
        exact hl
      · simp only [fluxThrough, sideBetween, Function.comp]
        have h3 : ¬ (l = b ∧ r = a) := fun h => h2 ⟨h.2, h.1⟩
        have h4 : ¬ (r = b ∧ l = a) := fun h => h1 ⟨h.2, h.1⟩
        simp [h1, h2, h3, h4]

/-- Three zones on two processes: zone 0 is left of zone 1 on one face and right of it on another; zone 2 is not connected to 1. -/
def exampleMesh : List (Face Nat) := [⟨0, some 1, true, 1⟩, ⟨1, some 0, true, 10⟩, ⟨2, none, true, 100⟩, ⟨0, some 0, true, 1000⟩]

example : Divided exampleMesh [[⟨0, some 1, true, 1⟩, ⟨2, none, false, 100⟩], [⟨0, some 1, false, 1⟩, ⟨1, some 0, true, 10⟩, ⟨2, none, true, 100⟩, ⟨0, some 0, true, 1000⟩]] := by
  exact List.Perm.refl _

example : interfaces 3 exampleMesh = [(0, some 1), (2, none)] := by decide

example : fluxBetween exampleMesh (fun i s => if s = .left then (i : Int) else -(i : Int)) 0 (some 1) = -9 := by decide

/-! ## The field behind absorbing layers -/

theorem endArea_eq {processes : List (List (EndFace φ))} {mesh : List (EndFace φ)} (hd : EndsDivided mesh processes) (z : Nat) : endArea processes z = ((endOf mesh z).map EndFace.area).sum := by
  have h : (processes.flatMap fun faces => endFaces faces z).Perm (endOf mesh z) := by
    refine List.Perm.trans (List.Perm.of_eq ?_) (hd.filter fun f => f.farEnd && decide (f.zone = z))
    rw [List.filter_flatMap]
    refine List.flatMap_congr fun faces _ => ?_
    rw [List.filter_filter, endFaces]
    exact List.filter_congr fun f _ => by rcases f.owned <;> simp
  rw [endArea, ← (h.map _).sum_eq, List.map_flatMap, sum_flatMap]

theorem endZones_eq {zones : Nat} {processes : List (List (EndFace φ))} {mesh : List (EndFace φ)} (hd : EndsDivided mesh processes) : endZones zones processes = layerEnds zones mesh := by
  unfold endZones layerEnds
  refine List.filter_congr fun z _ => ?_
  rw [endArea_eq hd]

/-- **C98.** In a run with one process the result is, for every zone with a layer that ends at the boundary, the root mean square of the field there. -/
theorem transmission_one_partial (zones : Nat) (own : List (EndFace φ)) (integral : φ → ℝ) :
    transmission zones [own] own integral = (layerEnds zones (own.filter EndFace.owned)).map (rootMeanSquare (own.filter EndFace.owned) integral) := by
  have hd : EndsDivided (own.filter EndFace.owned) [own] := by simp [EndsDivided]
  unfold transmission
  rw [endZones_eq hd]
  refine List.map_congr_left fun z _ => ?_
  rw [endArea_eq hd, rootMeanSquare]
  have : endFaces own z = endOf (own.filter EndFace.owned) z := by
    rw [endOf, List.filter_filter, endFaces]
    exact List.filter_congr fun f _ => by rcases f.owned <;> simp
  rw [this]

/-- **C98, what the code does.** With more processes each has only its share: the squares of the results of all processes add up to the square of the root mean square. -/
theorem transmission_shares {zones : Nat} {processes : List (List (EndFace φ))} {mesh : List (EndFace φ)} (hd : EndsDivided mesh processes) (integral : φ → ℝ)
    (hi : ∀ f ∈ mesh, 0 ≤ integral f.id) (ha : ∀ f ∈ mesh, 0 ≤ f.area) (i : Nat) (z : Nat) (hz : (layerEnds zones mesh)[i]? = some z) :
    (processes.map fun own => ((transmission zones processes own integral)[i]?.getD 0) ^ 2).sum = rootMeanSquare mesh integral z ^ 2 := by
  have hmem : ∀ own ∈ processes, ∀ f ∈ own, f.owned = true → f ∈ mesh := fun own ho f hf h => hd.mem_iff.1 (List.mem_flatMap.2 ⟨own, ho, List.mem_filter.2 ⟨hf, h⟩⟩)
  have harea : 0 ≤ endArea processes z := by
    rw [endArea_eq hd]
    refine List.sum_nonneg ?_
    intro x hx
    obtain ⟨f, hf, rfl⟩ := List.mem_map.1 hx
    exact ha f (List.mem_filter.1 hf).1
  have h1 : ∀ own ∈ processes, ((transmission zones processes own integral)[i]?.getD 0) ^ 2 = ((endFaces own z).map fun f => integral f.id).sum / endArea processes z := by
    intro own ho
    unfold transmission
    rw [endZones_eq hd, List.getElem?_map, hz]
    simp only [Option.map_some, Option.getD_some]
    refine Real.sq_sqrt (div_nonneg (List.sum_nonneg ?_) harea)
    intro x hx
    obtain ⟨f, hf, rfl⟩ := List.mem_map.1 hx
    have h := List.mem_filter.1 hf
    simp only [Bool.and_eq_true] at h
    exact hi f (hmem own ho f h.1 h.2.1.1)
  rw [List.map_congr_left h1]
  have h2 : (processes.flatMap fun faces => endFaces faces z).Perm (endOf mesh z) := by
    refine List.Perm.trans (List.Perm.of_eq ?_) (hd.filter fun f => f.farEnd && decide (f.zone = z))
    rw [List.filter_flatMap]
    refine List.flatMap_congr fun faces _ => ?_
    rw [List.filter_filter, endFaces]
    exact List.filter_congr fun f _ => by rcases f.owned <;> simp
  rw [rootMeanSquare, ← endArea_eq hd, Real.sq_sqrt, ← (h2.map _).sum_eq, List.map_flatMap, sum_flatMap]
  · generalize endArea processes z = A
    clear hd hi ha hmem h1 h2 harea
    induction processes with
    | nil => simp
    | cons o l ih => rw [List.map_cons, List.sum_cons, List.map_cons, List.sum_cons, add_div, ih]
  · refine div_nonneg (List.sum_nonneg ?_) harea
    intro x hx
    obtain ⟨f, hf, rfl⟩ := List.mem_map.1 hx
    exact hi f (List.mem_filter.1 hf).1

/-- **C98, what the code does.** So a process reports too little as soon as the field on the end is not zero on a face of another. -/
theorem transmission_low {zones : Nat} {before after : List (List (EndFace φ))} {own : List (EndFace φ)} {mesh : List (EndFace φ)} (hd : EndsDivided mesh (before ++ own :: after))
    (integral : φ → ℝ) (hi : ∀ f ∈ mesh, 0 ≤ integral f.id) (ha : ∀ f ∈ mesh, 0 < f.area) (i : Nat) (z : Nat) (hz : (layerEnds zones mesh)[i]? = some z)
    (other : List (EndFace φ)) (ho : other ∈ before ++ after) (f : EndFace φ) (hf : f ∈ other) (hown : f.owned = true) (hfar : f.farEnd = true) (hzone : f.zone = z) (hpos : 0 < integral f.id) :
    ∃ x, (transmission zones (before ++ own :: after) own integral)[i]? = some x ∧ x < rootMeanSquare mesh integral z := by
  set processes := before ++ own :: after with hp
  have hsum := transmission_shares hd integral hi (fun f hf => (ha f hf).le) i z hz
  have hmem : ∀ own ∈ processes, ∀ f ∈ own, f.owned = true → f ∈ mesh := fun own ho f hf h => hd.mem_iff.1 (List.mem_flatMap.2 ⟨own, ho, List.mem_filter.2 ⟨hf, h⟩⟩)
  have hval : ∀ own, (transmission zones processes own integral)[i]? = some (Real.sqrt (((endFaces own z).map fun f => integral f.id).sum / endArea processes z)) := by
    intro own
    unfold transmission
    rw [endZones_eq hd, List.getElem?_map, hz]
    rfl
  refine ⟨_, hval own, ?_⟩
  have hoin : other ∈ processes := by
    rw [hp]
    rcases List.mem_append.1 ho with h | h
    · exact List.mem_append_left _ h
    · exact List.mem_append_right _ (List.mem_cons_of_mem _ h)
  have hfm : f ∈ mesh := hmem other hoin f hf hown
  have harea : 0 < endArea processes z := by
    rw [endArea_eq hd]
    refine List.sum_pos _ ?_ ?_
    · intro x hx
      obtain ⟨g, hg, rfl⟩ := List.mem_map.1 hx
      exact ha g (List.mem_filter.1 hg).1
    · intro h
      have : f ∈ endOf mesh z := List.mem_filter.2 ⟨hfm, by simp [hfar, hzone]⟩
      rw [List.map_eq_nil_iff.1 h] at this
      cases this
  have hother : 0 < Real.sqrt (((endFaces other z).map fun f => integral f.id).sum / endArea processes z) := by
    refine Real.sqrt_pos.2 (div_pos ?_ harea)
    have hin : f ∈ endFaces other z := List.mem_filter.2 ⟨hf, by simp [hown, hfar, hzone]⟩
    refine lt_of_lt_of_le hpos (List.single_le_sum ?_ _ (List.mem_map_of_mem (f := fun f : EndFace φ => integral f.id) hin))
    intro x hx
    obtain ⟨g, hg, rfl⟩ := List.mem_map.1 hx
    have h := List.mem_filter.1 hg
    simp only [Bool.and_eq_true] at h
    exact hi g (hmem other hoin g h.1 h.2.1.1)
  simp only [hval, Option.getD_some] at hsum
  set v : List (EndFace φ) → ℝ := fun own => Real.sqrt (((endFaces own z).map fun f => integral f.id).sum / endArea processes z) with hv
  have hperm : (processes.map fun own => v own ^ 2).sum = v own ^ 2 + ((before ++ after).map fun own => v own ^ 2).sum := by
    rw [hp, List.map_append, List.map_cons, List.sum_append, List.sum_cons, List.map_append, List.sum_append]
    ring
  have hrest : v other ^ 2 ≤ ((before ++ after).map fun own => v own ^ 2).sum := by
    refine List.single_le_sum ?_ _ (List.mem_map_of_mem (f := fun own => v own ^ 2) ho)
    intro x hx
    obtain ⟨g, _, rfl⟩ := List.mem_map.1 hx
    exact sq_nonneg _
  have h1 : v own ^ 2 < rootMeanSquare mesh integral z ^ 2 := by
    have := pow_pos hother 2
    have e : (processes.map fun own => v own ^ 2).sum = rootMeanSquare mesh integral z ^ 2 := hsum
    have h' : 0 < v other ^ 2 := this
    linarith
  exact lt_of_pow_lt_pow_left₀ 2 (Real.sqrt_nonneg _) h1

/-- Two processes, each with a face on the end of the layer in zone 0. The root mean square is 1; process 0 reports less. -/
example : ∃ x, (transmission 1 [[⟨0, true, true, 1, 1⟩], [⟨0, true, true, 1, 1⟩]] [(⟨0, true, true, 1, 1⟩ : EndFace ℝ)] id)[0]? = some x ∧
    x < rootMeanSquare [(⟨0, true, true, 1, 1⟩ : EndFace ℝ), ⟨0, true, true, 1, 1⟩] id 0 := by
  refine transmission_low (before := []) (after := [[⟨0, true, true, 1, 1⟩]]) (List.Perm.refl _) id ?_ ?_ 0 0 ?_ [⟨0, true, true, 1, 1⟩] (by simp) ⟨0, true, true, 1, 1⟩ (by simp) rfl rfl rfl (by simp)
  · intro f hf; simp at hf; subst hf; simp
  · intro f hf; simp at hf; subst hf; simp
  · have : (layerEnds 1 [(⟨0, true, true, 1, 1⟩ : EndFace ℝ), ⟨0, true, true, 1, 1⟩]) = [0] := by
      simp [layerEnds, endOf]
    exact congrArg (fun l : List Nat => l[0]?) this

/-! ## Zones and layers -/

/-- **C99.** The bounds of a zone are the smallest and the largest coordinate of its nodes, over all processes. -/
theorem bounds_eq {α μ : Type} [LinearOrder α] {processes : List (List (Element α μ))} {mesh : List (Element α μ)} (hd : ElementsDivided mesh processes) (zone : Nat)
    (hn : (zoneNodes mesh zone).Nonempty) :
    ∃ low high : α, lowBound processes zone = low ∧ highBound processes zone = high ∧ IsLeast (zoneNodes mesh zone) low ∧ IsGreatest (zoneNodes mesh zone) high := by
  classical
  have hmem : ∀ x, x ∈ zoneNodes mesh zone ↔ ∃ elements ∈ processes, ∃ e ∈ elements, e.owned = true ∧ e.zone = zone ∧ x ∈ e.nodes := by
    intro x
    constructor
    · rintro ⟨e, he, hz, hx⟩
      obtain ⟨l, hl, h⟩ := List.mem_flatMap.1 (hd.mem_iff.2 he)
      have := List.mem_filter.1 h
      exact ⟨l, hl, e, this.1, this.2, hz, hx⟩
    · rintro ⟨l, hl, e, he, ho, hz, hx⟩
      exact ⟨e, hd.mem_iff.1 (List.mem_flatMap.2 ⟨l, hl, List.mem_filter.2 ⟨he, ho⟩⟩), hz, hx⟩
  have hfin : zoneNodes mesh zone = ((mesh.filter fun e => decide (e.zone = zone)).flatMap Element.nodes).toFinset := by
    ext x
    simp [zoneNodes, and_assoc]
  have hne : ((mesh.filter fun e => decide (e.zone = zone)).flatMap Element.nodes).toFinset.Nonempty := by
    rw [hfin] at hn
    exact Finset.coe_nonempty.1 hn
  have hlow : IsLeast (zoneNodes mesh zone) (Finset.min' _ hne) := by rw [hfin]; exact Finset.isLeast_min' _ hne
  have hhigh : IsGreatest (zoneNodes mesh zone) (Finset.max' _ hne) := by rw [hfin]; exact Finset.isGreatest_max' _ hne
  refine ⟨_, _, le_antisymm ?_ ?_, le_antisymm ?_ ?_, hlow, hhigh⟩
  · obtain ⟨l, hl, e, he, ho, hz, hx⟩ := (hmem _).1 hlow.1
    exact (le_lowBound processes zone _).1 le_rfl l hl e he ho hz _ hx
  · refine (le_lowBound processes zone _).2 fun l hl e he ho hz x hx => ?_
    exact WithTop.coe_le_coe.2 (hlow.2 ((hmem x).2 ⟨l, hl, e, he, ho, hz, hx⟩))
  · refine (highBound_le processes zone _).2 fun l hl e he ho hz x hx => ?_
    exact WithBot.coe_le_coe.2 (hhigh.2 ((hmem x).2 ⟨l, hl, e, he, ho, hz, hx⟩))
  · obtain ⟨l, hl, e, he, ho, hz, hx⟩ := (hmem _).1 hhigh.1
    exact (highBound_le processes zone _).1 le_rfl l hl e he ho hz _ hx

/-- **C99.** The description for a zone is the last one whose name is first found at this zone. -/
theorem description_iff (zoneNames pmls : List String) (zone k : Nat) :
    descriptionOf zoneNames pmls zone = some k ↔
      ∃ name, pmls[k]? = some name ∧ zoneNames.findIdx? (· == name) = some zone ∧ ∀ k' > k, ∀ name', pmls[k']? = some name' → zoneNames.findIdx? (· == name') ≠ some zone :=
  descriptionOf_iff zoneNames pmls zone k

/-- **C99.** If zones have different names, a zone gets a layer exactly if its name is in a description. -/
theorem description_names (zoneNames pmls : List String) (hn : zoneNames.Nodup) (zone : Nat) (name : String) (hz : zoneNames[zone]? = some name) :
    (descriptionOf zoneNames pmls zone).isSome ↔ name ∈ pmls := by
  have hfind : ∀ name', zoneNames.findIdx? (· == name') = some zone ↔ name' = name := by
    intro name'
    rw [List.findIdx?_eq_some_iff_getElem]
    obtain ⟨h1, h2⟩ := List.getElem?_eq_some_iff.1 hz
    constructor
    · rintro ⟨h, h3, _⟩
      rw [← h2]
      exact (by simpa using h3 : zoneNames[zone] = name').symm
    · rintro rfl
      refine ⟨h1, by simp [h2], fun j hj => ?_⟩
      simp only [beq_iff_eq, ← h2]
      intro h
      have := (List.Nodup.getElem_inj_iff hn).1 h
      omega
  constructor
  · intro h
    obtain ⟨k, hk⟩ := Option.isSome_iff_exists.1 h
    obtain ⟨name', h1, h2, _⟩ := (description_iff _ _ _ _).1 hk
    rw [← (hfind _).1 h2]
    exact List.mem_of_getElem? h1
  · intro h
    have hex : ∃ k, k < pmls.length ∧ pmls[k]? = some name := by
      obtain ⟨k, hk, h⟩ := List.getElem_of_mem h
      exact ⟨k, hk, by rw [List.getElem?_eq_getElem hk, h]⟩
    classical
    obtain ⟨k, ⟨hk1, hk2⟩, hmax⟩ : ∃ k, (k < pmls.length ∧ pmls[k]? = some name) ∧ ∀ k', (k' < pmls.length ∧ pmls[k']? = some name) → k' ≤ k := by
      have hne : ((Finset.range pmls.length).filter fun k => pmls[k]? = some name).Nonempty := by
        obtain ⟨k, h1, h2⟩ := hex
        exact ⟨k, Finset.mem_filter.2 ⟨Finset.mem_range.2 h1, h2⟩⟩
      refine ⟨Finset.max' _ hne, ?_, fun k' hk' => Finset.le_max' _ _ (Finset.mem_filter.2 ⟨Finset.mem_range.2 hk'.1, hk'.2⟩)⟩
      have := Finset.mem_filter.1 (Finset.max'_mem _ hne)
      exact ⟨Finset.mem_range.1 this.1, this.2⟩
    rw [(description_iff _ _ _ k).2 ⟨name, hk2, (hfind _).2 rfl, fun k' hk' name' hn' h' => ?_⟩]
    · rfl
    · have e := (hfind _).1 h'
      subst e
      have := hmax k' ⟨(List.getElem?_eq_some_iff.1 hn').1, hn'⟩
      omega

/-- **C99, what the code does.** A description with a name that no zone has is ignored. -/
theorem description_unknown (zoneNames pmls : List String) (k : Nat) (name : String) (hk : pmls[k]? = some name) (hn : name ∉ zoneNames) (zone : Nat) :
    descriptionOf zoneNames pmls zone ≠ some k := by
  intro h
  obtain ⟨name', h1, h2, _⟩ := (description_iff _ _ _ _).1 h
  rw [hk] at h1
  cases h1
  rw [List.findIdx?_eq_some_iff_getElem] at h2
  obtain ⟨h, h3, _⟩ := h2
  exact hn (by rw [← (by simpa using h3 : zoneNames[zone] = name)]; exact List.getElem_mem h)

/-- **C99.** Where every zone has one material: an element that a process owns in a zone with a description gets the layer of the zone, with that description and its own material. Others
keep their material. -/
theorem layers_own_partial {α μ : Type} (description : Nat → Option Nat) (elements : List (Element α μ)) (hm : ∀ e ∈ elements, ∀ e' ∈ elements, e.zone = e'.zone → e.material = e'.material)
    (i : Nat) (e : Element α μ) (he : elements[i]? = some e) (ho : e.owned = true) :
    (applyLayers description elements)[i]? = some ((description e.zone).map fun d => (e.zone, d, e.material)) := by
  rw [applyLayers_eq, List.getElem?_map, he, Option.map_some, if_pos ho]
  congr 1
  have hmem := List.mem_of_getElem? he
  unfold layerOf
  rcases description e.zone with _ | d
  · rfl
  · have : (elements.find? fun e' => e'.owned && decide (e'.zone = e.zone)).isSome := List.find?_isSome.2 ⟨e, hmem, by simp [ho]⟩
    obtain ⟨y, hy⟩ := Option.isSome_iff_exists.1 this
    have h1 := List.mem_of_find?_eq_some hy
    have h2 := List.find?_some hy
    simp only [Bool.and_eq_true, decide_eq_true_eq] at h2
    rw [hy]
    simp [hm y h1 e hmem h2.2]

/-- **C99, what the code does.** Without that, all elements of the zone get the material of the first. -/
theorem layers_first {α μ : Type} (description : Nat → Option Nat) (elements : List (Element α μ)) (first : Element α μ) (rest : List (Element α μ)) (hl : elements = first :: rest)
    (hf : first.owned = true) (d : Nat) (hd : description first.zone = some d) (i : Nat) (e : Element α μ) (he : elements[i]? = some e) (ho : e.owned = true) (hz : e.zone = first.zone) :
    (applyLayers description elements)[i]? = some (some (first.zone, d, first.material)) := by
  rw [applyLayers_eq, List.getElem?_map, he, Option.map_some, if_pos ho, hz]
  subst hl
  simp [layerOf, hd, hf]

/-- **C99, what the code does.** An element of another process that this one knows, because of a common face, gets no layer, although it has one on its owner. -/
theorem layers_shadow {α μ : Type} (description : Nat → Option Nat) (elements : List (Element α μ)) (i : Nat) (e : Element α μ) (he : elements[i]? = some e) (ho : e.owned = false) :
    (applyLayers description elements)[i]? = some none := by
  rw [applyLayers_eq, List.getElem?_map, he, Option.map_some, ho]
  rfl

/-- **C99, negation.** So there is a mesh where two processes have a different material for the same element. -/
theorem layers_disagree : ∃ (description : Nat → Option Nat) (known known' : List (Element Int Nat)) (i i' : Nat) (e : Element Int Nat),
    known[i]? = some e ∧ known'[i']? = some { e with owned := false } ∧ (applyLayers description known)[i]? ≠ (applyLayers description known')[i']? :=
  ⟨fun _ => some 0, [⟨0, true, [0, 1], 7⟩, ⟨0, false, [1, 2], 7⟩], [⟨0, false, [0, 1], 7⟩, ⟨0, true, [1, 2], 7⟩], 0, 0, ⟨0, true, [0, 1], 7⟩, rfl, rfl, by decide⟩

example : descriptionOf ["a", "b", "c"] ["b", "x", "b"] 1 = some 2 := by decide

example : applyLayers (fun z => if z = 1 then some 5 else none) [(⟨0, true, [(0 : Int)], 3⟩ : Element Int Nat), ⟨1, true, [1], 4⟩, ⟨1, true, [2], 4⟩] = [none, some (1, 5, 4), some (1, 5, 4)] := by decide

example : lowBound [[(⟨0, true, [(3 : Int), 5], ()⟩ : Element Int Unit)], [⟨0, true, [4, 9], ()⟩, ⟨0, false, [1], ()⟩]] 0 = ((3 : Int) : WithTop Int) := by decide

end Verif.Facets
