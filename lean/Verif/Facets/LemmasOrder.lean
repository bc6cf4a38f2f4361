import Verif.Facets.Lemmas

/-! # Sums over facets: the order of the facets -/
namespace Verif.Facets

variable {φ : Type}

open Classical in
/-- The pair has a face in the mesh. -/
noncomputable def present (mesh : List (Face φ)) (p : Pair) : Bool := decide (∃ f ∈ mesh, taken f ∧ zonePair f = p)

theorem index_of_unindex (zones i : Nat) : index zones (unindex zones i) = i := by
  simp only [index, unindex]
  have h := Nat.div_add_mod i (zones + 1)
  have : ((i / (zones + 1) : Nat) : Int) * (zones + 1) + (((i % (zones + 1) : Nat) : Int) - 1) + 1 = ((zones + 1) * (i / (zones + 1)) + i % (zones + 1) : Nat) := by push_cast; ring
  rw [this, h, Int.toNat_natCast]

theorem unindex_mul (zones a j : Nat) (h : j < zones + 1) : unindex zones (a * (zones + 1) + j) = ((a : Int), (j : Int) - 1) := by
  simp only [unindex]
  rw [Nat.mul_comm, Nat.mul_add_div (by omega), Nat.div_eq_of_lt h, Nat.add_zero, Nat.mul_add_mod, Nat.mod_eq_of_lt h]

theorem present_lt {mesh : List (Face φ)} {a b : Nat} (h : present mesh ((a : Int), (b : Int)) = true) : a < b := by
  rw [present, decide_eq_true_eq] at h
  obtain ⟨⟨l, r, o, i⟩, _, h1, h2⟩ := h
  rcases r with _ | r
  · simp [zonePair] at h2
  · simp only [taken, Bool.and_eq_true, decide_eq_true_eq, ne_eq, Option.some.injEq] at h1
    simp only [zonePair] at h2
    split at h2
    · have := Prod.mk.injEq _ _ _ _ ▸ h2; omega
    · have := Prod.mk.injEq _ _ _ _ ▸ h2
      have := h1.2
      omega

theorem ordering_eq {zones : Nat} {processes : List (List (Face φ))} {mesh : List (Face φ)} (hd : Divided mesh processes) (hv : ∀ f ∈ mesh, Valid zones f) :
    ordering zones processes = (interfaces zones mesh).map toPair := by
  have hmem : ∀ f, f ∈ (processes.flatMap fun faces => faces.filter Face.owned) ↔ f ∈ mesh := fun f => hd.mem_iff
  have hown : ∀ f ∈ mesh, f.owned = true := by
    intro f hf
    obtain ⟨l, _, h⟩ := List.mem_flatMap.1 ((hmem f).2 hf)
    exact (List.mem_filter.1 h).2
  have e1 : ∀ i, (decide (maxFlags zones processes i ≠ 0)) = present mesh (unindex zones i) := by
    intro i
    rw [present]
    refine decide_eq_decide.2 ?_
    rw [maxFlags_ne]
    simp only [hmem]
    constructor
    · rintro ⟨f, h1, h2, h3⟩; exact ⟨f, h1, h2, by rw [← h3, (index_unindex (zonePair_ok (hv f h1))).1]⟩
    · rintro ⟨f, h1, h2, h3⟩; exact ⟨f, h1, h2, by rw [h3, index_of_unindex]⟩
  have e2 : ordering zones processes = ((List.range (zones * (zones + 1))).map (unindex zones)).filter (present mesh) := by
    rw [List.filter_map]
    unfold ordering
    have : (fun i => decide (maxFlags zones processes i ≠ 0)) = present mesh ∘ unindex zones := funext e1
    rw [this]
    rfl
  have e3 : ∀ a b, (∀ c, b = some c → a < c) → (mesh.any fun f => (sideBetween a b f).isSome) = present mesh (toPair (a, b)) := by
    intro a b hab
    rw [Bool.eq_iff_iff, present, decide_eq_true_eq, List.any_eq_true]
    refine exists_congr fun f => and_congr_right fun hf => ?_
    rw [sideBetween_iff a b hab f (hown f hf)]
    split <;> simp_all
  rw [e2, range_mul, interfaces, List.filter_flatMap, List.filter_flatMap, List.map_flatMap]
  refine List.flatMap_congr fun a _ => ?_
  have e4 : (List.range (zones + 1)).map (fun j => unindex zones (a * (zones + 1) + j)) = toPair (a, none) :: (List.range zones).map fun b => toPair (a, some b) := by
    rw [List.range_succ_eq_map, List.map_cons, List.map_map, unindex_mul zones a 0 (by omega)]
    congr 1
    refine List.map_congr_left fun b hb => ?_
    have := List.mem_range.1 hb
    simp only [Function.comp]
    rw [unindex_mul zones a (b + 1) (by omega)]
    simp [toPair, code]
  have e5 : (((List.range zones).map fun b => toPair (a, some b)).filter (present mesh)) =
      ((((List.range zones).filter (a < ·)).map fun b => (a, some b)).filter fun p => mesh.any fun f => (sideBetween p.1 p.2 f).isSome).map toPair := by
    rw [List.filter_map, List.filter_map, List.map_map, List.filter_filter]
    refine congrArg _ (List.filter_congr fun b _ => ?_)
    simp only [Function.comp]
    by_cases hab : a < b
    · simp only [hab, decide_true, Bool.and_true]
      exact (e3 a (some b) (by intro c hc; cases hc; exact hab)).symm
    · simp only [hab, decide_false, Bool.and_false]
      refine Bool.eq_false_iff.2 fun h => hab (present_lt h)
  rw [e4, List.filter_cons, List.filter_cons, e5, e3 a none (by simp)]
  split <;> simp

theorem toPair_injective : Function.Injective toPair := by
  rintro ⟨a, b⟩ ⟨c, d⟩ h
  simp only [toPair, Prod.mk.injEq] at h
  obtain ⟨h1, h2⟩ := h
  have : a = c := by omega
  rcases b with _ | b <;> rcases d with _ | d <;> simp only [code] at h2
  · rw [this]
  · omega
  · omega
  · have : b = d := by omega
    simp_all

theorem ordering_nodup (zones : Nat) (processes : List (List (Face φ))) : (ordering zones processes).Nodup := by
  unfold ordering
  refine List.Nodup.map_on ?_ (List.Nodup.filter _ List.nodup_range)
  intro x _ y _ h
  have h' : unindex zones x = unindex zones y := h
  rw [← index_of_unindex zones x, h', index_of_unindex]

theorem foldl_add_eq {M α : Type} [AddCommMonoid M] (l : List α) (g : α → M) : l.foldl (fun s a => s + g a) 0 = (l.map g).sum := by
  induction l using List.reverseRecOn with
  | nil => rfl
  | append_singleton l a ih => rw [List.foldl_append, List.foldl_cons, List.foldl_nil, ih, List.map_append, List.sum_append]; simp

theorem localFluxes_eq {M : Type} [AddCommMonoid M] (order : List Pair) (ho : order.Nodup) (flux : φ → Side → M) (faces : List (Face φ))
    (hk : ∀ f ∈ faces, taken f → zonePair f ∈ order) :
    ∃ flat, localFluxes order flux (facets faces) = some flat ∧
      ∀ (i : Nat) p, order[i]? = some p → flat i = ((faces.filter fun f => taken f && decide (zonePair f = p)).map fun f => flux f.id (sideOf f)).sum := by
  have inv := facets_inv faces
  have gen : ∀ m : List (Pair × List (Face φ × Side)), (m.map Prod.fst).Nodup → (∀ e ∈ m, e.1 ∈ order) →
      ∃ flat, localFluxes order flux m = some flat ∧ ∀ (i : Nat) p, order[i]? = some p →
        (∀ e ∈ m, e.1 = p → flat i = (e.2.map fun f => flux f.1.id f.2).sum) ∧ (p ∉ m.map Prod.fst → flat i = 0) := by
    intro m
    induction m using List.reverseRecOn with
    | nil => exact fun _ _ => ⟨fun _ => 0, rfl, by simp⟩
    | append_singleton l e ih =>
      intro hn hmem
      rw [List.map_append, List.nodup_append] at hn
      obtain ⟨flat, h1, h2⟩ := ih hn.1 fun x hx => hmem x (List.mem_append_left _ hx)
      have hlt : order.idxOf e.1 < order.length := List.idxOf_lt_length_iff.2 (hmem e (by simp))
      refine ⟨Function.update flat (order.idxOf e.1) (e.2.map fun f => flux f.1.id f.2).sum, ?_, ?_⟩
      · unfold localFluxes at h1 ⊢
        rw [List.foldlM_append, h1]
        simp only [List.foldlM_cons, List.foldlM_nil, Option.bind_eq_bind, Option.bind_some, if_neg hlt.ne, foldl_add_eq]
        rfl
      · intro i p hp
        obtain ⟨hi, hpi⟩ := List.getElem?_eq_some_iff.1 hp
        have hidx : e.1 = p ↔ order.idxOf e.1 = i := by
          constructor
          · rintro rfl
            rw [← hpi]
            exact List.Nodup.idxOf_getElem ho i hi
          · rintro rfl
            rw [← hpi]
            exact (List.getElem_idxOf hi).symm
        constructor
        · intro x hx hxp
          rcases List.mem_append.1 hx with hx | hx
          · have hne : ¬ e.1 = p := by
              intro h
              exact hn.2.2 x.1 (List.mem_map_of_mem hx) e.1 (by simp) (hxp.trans h.symm)
            rw [Function.update_of_ne (fun h => hne (hidx.2 h.symm))]
            exact (h2 i p hp).1 x hx hxp
          · rw [List.mem_singleton] at hx
            subst hx
            rw [hidx.1 hxp, Function.update_self]
        · intro hnot
          simp only [List.map_append, List.mem_append, List.map_cons, List.map_nil, List.mem_singleton, not_or] at hnot
          rw [Function.update_of_ne (fun h => hnot.2 (hidx.2 h.symm).symm)]
          exact (h2 i p hp).2 hnot.1
  obtain ⟨flat, h1, h2⟩ := gen (facets faces) inv.nodup (by
    intro e he
    obtain ⟨f, hf, ht, hz⟩ := (inv.mem e.1).1 (List.mem_map_of_mem he)
    exact hz ▸ hk f hf ht)
  refine ⟨flat, h1, fun i p hp => ?_⟩
  by_cases hpm : p ∈ (facets faces).map Prod.fst
  · obtain ⟨e, he, rfl⟩ := List.mem_map.1 hpm
    rw [(h2 i e.1 hp).1 e he rfl, inv.entry e he, List.map_map]
    rfl
  · rw [(h2 i p hp).2 hpm]
    have : (faces.filter fun f => taken f && decide (zonePair f = p)) = [] := by
      rw [List.filter_eq_nil_iff]
      intro g hg hgt
      simp only [Bool.and_eq_true, decide_eq_true_eq] at hgt
      exact hpm ((inv.mem _).2 ⟨g, hg, hgt.1, hgt.2⟩)
    rw [this]
    rfl

end Verif.Facets
