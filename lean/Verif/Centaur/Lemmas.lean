import Verif.Centaur.Spec
import Mathlib.Tactic.Ring
import Mathlib.Tactic.FinCases

set_option linter.all false

namespace Verif.Centaur

theorem fill_spec (name : String) (e : Nat) :
    ∀ (k : Nat) (names : List String) (pos : Nat), e - pos = k → e ≤ names.length →
      ∃ names', fill name e names pos = some (names', max pos e) ∧ names'.length = names.length ∧
        ∀ g, names'[g]? = if pos ≤ g ∧ g < e then some name else names[g]? := by
  intro k
  induction k with
  | zero =>
    intro names pos hk he
    refine ⟨names, ?_, rfl, ?_⟩
    · rw [fill, if_neg (by omega), Nat.max_eq_left (by omega)]
    · intro g; rw [if_neg (by omega)]
  | succ k ih =>
    intro names pos hk he
    obtain ⟨n', h1, h2, h3⟩ := ih (names.set pos name) (pos + 1) (by omega) (by simpa using he)
    refine ⟨n', ?_, by simpa using h2, ?_⟩
    · rw [fill, if_pos (by omega), if_pos (by omega), h1]
      congr 2; omega
    · intro g
      rw [h3]
      by_cases hg : g = pos
      · subst hg
        rw [if_neg (by omega), if_pos (by omega), List.getElem?_set_self (by omega)]
      · rw [List.getElem?_set_ne (by omega)]
        by_cases h : pos + 1 ≤ g ∧ g < e
        · rw [if_pos h, if_pos (by omega)]
        · rw [if_neg h, if_neg (by omega)]

theorem fill_step (name : String) (e : Nat) (names : List String) (pos : Nat) (h : pos < e)
    (h2 : pos < names.length) : fill name e names pos = fill name e (names.set pos name) (pos + 1) := by
  rw [fill, if_pos h, if_pos h2]

theorem fill_stop (name : String) (e : Nat) (names : List String) (pos : Nat) (h : ¬ pos < e) :
    fill name e names pos = some (names, pos) := by
  rw [fill, if_neg h]

theorem types_spec (z : Zone) : ∀ (ts : List (Fin 4)), ts.Nodup →
    ∀ (names : List String) (pos : Fin 4 → Nat), (∀ t, z.ends t ≤ names.length) →
      ∃ names' pos', ts.foldlM (fun (s : List String × (Fin 4 → Nat)) t =>
          (fill z.name (z.ends t) s.1 (s.2 t)).map fun r => (r.1, Function.update s.2 t r.2))
            (names, pos) = some (names', pos') ∧
        names'.length = names.length ∧
        (∀ u, pos' u = if u ∈ ts then max (pos u) (z.ends u) else pos u) ∧
        ∀ g, names'[g]? = if ∃ u ∈ ts, pos u ≤ g ∧ g < z.ends u then some z.name else names[g]? := by
  intro ts
  induction ts with
  | nil =>
    intro _ names pos _
    exact ⟨names, pos, rfl, rfl, by simp, by simp⟩
  | cons t ts ih =>
    intro hn names pos he
    obtain ⟨n1, h1, h2, h3⟩ := fill_spec z.name (z.ends t) _ names (pos t) rfl (he t)
    have hn' := List.nodup_cons.mp hn
    obtain ⟨n2, p2, k1, k2, k3, k4⟩ := ih hn'.2 n1 (Function.update pos t (max (pos t) (z.ends t)))
      (by intro u; rw [h2]; exact he u)
    refine ⟨n2, p2, ?_, by rw [k2, h2], ?_, ?_⟩
    · simp only [List.foldlM_cons, h1, Option.map_some]
      exact k1
    · intro u
      rw [k3]
      by_cases hu : u = t
      · subst hu
        rw [if_neg hn'.1, Function.update_self, if_pos (by simp)]
      · rw [Function.update_of_ne hu]
        simp [hu]
    · intro g
      rw [k4, h3]
      have key : (∃ u ∈ ts, Function.update pos t (max (pos t) (z.ends t)) u ≤ g ∧ g < z.ends u) ↔
          ∃ u ∈ ts, pos u ≤ g ∧ g < z.ends u := by
        constructor
        · rintro ⟨u, hu, h⟩
          refine ⟨u, hu, ?_⟩
          have hne : u ≠ t := by rintro rfl; exact hn'.1 hu
          rwa [Function.update_of_ne hne] at h
        · rintro ⟨u, hu, h⟩
          refine ⟨u, hu, ?_⟩
          have hne : u ≠ t := by rintro rfl; exact hn'.1 hu
          rwa [Function.update_of_ne hne]
      by_cases ha : ∃ u ∈ ts, pos u ≤ g ∧ g < z.ends u
      · rw [if_pos (key.mpr ha)]
        obtain ⟨u, hu, h⟩ := ha
        rw [if_pos ⟨u, List.mem_cons_of_mem _ hu, h⟩]
      · rw [if_neg (fun h => ha (key.mp h))]
        by_cases hb : pos t ≤ g ∧ g < z.ends t
        · rw [if_pos hb, if_pos ⟨t, by simp, hb⟩]
        · rw [if_neg hb, if_neg]
          rintro ⟨u, hu, h⟩
          rcases List.mem_cons.mp hu with rfl | hu
          · exact hb h
          · exact ha ⟨u, hu, h⟩

/-- Blocks of different types are disjoint. -/
theorem block_unique (counts : Fin 4 → Nat) (t u : Fin 4) (g : Nat)
    (ht : firstOf counts t ≤ g ∧ g < firstOf counts t + counts t)
    (hu : firstOf counts u ≤ g ∧ g < firstOf counts u + counts u) : t = u := by
  fin_cases t <;> fin_cases u <;> simp [firstOf] at ht hu ⊢ <;> omega

theorem block_total (counts : Fin 4 → Nat) (t : Fin 4) :
    firstOf counts t + counts t ≤ counts 0 + counts 1 + counts 2 + counts 3 := by
  fin_cases t <;> simp [firstOf] <;> omega

def closed (counts : Fin 4 → Nat) (zones : List Zone) (t : Fin 4) (j : Nat) : String :=
  ((zones.find? (fun z => decide (firstOf counts t + j < z.ends t))).map Zone.name).getD "UNSET"

structure Inv (counts : Fin 4 → Nat) (zs : List Zone) (s : List String × (Fin 4 → Nat)) : Prop where
  len : s.1.length = counts 0 + counts 1 + counts 2 + counts 3
  lo : ∀ t, firstOf counts t ≤ s.2 t
  pos : ∀ t g, firstOf counts t ≤ g → (g < s.2 t ↔ ∃ z ∈ zs, g < z.ends t)
  nm : ∀ t j, j < counts t → s.1[firstOf counts t + j]? = some (closed counts zs t j)

theorem step_inv (counts : Fin 4 → Nat) (zs : List Zone) (z : Zone) (s : List String × (Fin 4 → Nat))
    (h : Inv counts zs s) (hz : ∀ t, z.ends t ≤ counts t) :
    ∃ s', zoneStep s z = some s' ∧ Inv counts (zs ++ [z]) s' := by
  obtain ⟨names, pos⟩ := s
  have hlen : ∀ t, z.ends t ≤ names.length := by
    intro t
    have := block_total counts t
    have := hz t
    have := h.len
    simp only at this
    omega
  obtain ⟨n', p', h1, h2, h3, h4⟩ := types_spec z [0, 1, 2, 3] (by decide) names pos hlen
  have hmem : ∀ u : Fin 4, u ∈ [(0 : Fin 4), 1, 2, 3] := by decide
  refine ⟨(n', p'), h1, ?_, ?_, ?_, ?_⟩
  · exact h2.trans h.len
  · intro t
    simp only [h3, if_pos (hmem t)]
    exact (h.lo t).trans (le_max_left _ _)
  · intro t g hg
    simp only [h3, if_pos (hmem t), lt_max_iff, List.mem_append, List.mem_singleton]
    rw [h.pos t g hg]
    constructor
    · rintro (⟨w, hw, hh⟩ | hh)
      · exact ⟨w, Or.inl hw, hh⟩
      · exact ⟨z, Or.inr rfl, hh⟩
    · rintro ⟨w, hw | rfl, hh⟩
      · exact Or.inl ⟨w, hw, hh⟩
      · exact Or.inr hh
  · intro t j hj
    have hnm := h.nm t j hj
    simp only at hnm ⊢
    rw [h4]
    have key : (∃ u ∈ [(0 : Fin 4), 1, 2, 3], pos u ≤ firstOf counts t + j ∧
        firstOf counts t + j < z.ends u) ↔
        (pos t ≤ firstOf counts t + j ∧ firstOf counts t + j < z.ends t) := by
      constructor
      · rintro ⟨u, _, hu⟩
        have hlo := h.lo u
        simp only at hlo
        have := hz u
        have : t = u := block_unique counts t u (firstOf counts t + j) ⟨by omega, by omega⟩
          ⟨by omega, by omega⟩
        subst this
        exact hu
      · intro hu
        exact ⟨t, hmem t, hu⟩
    simp only [key]
    have hp := h.pos t (firstOf counts t + j) (by omega)
    simp only at hp
    unfold closed at hnm ⊢
    rw [List.find?_append]
    by_cases hex : ∃ w ∈ zs, firstOf counts t + j < w.ends t
    · have := hp.mpr hex
      rw [if_neg (by omega), hnm]
      cases hf : zs.find? (fun z => decide (firstOf counts t + j < z.ends t)) with
      | some w => simp
      | none =>
        exfalso
        obtain ⟨w, hw, hh⟩ := hex
        have := List.find?_eq_none.mp hf w hw
        simp at this
        omega
    · have hlt : ¬ firstOf counts t + j < pos t := fun hc => hex (hp.mp hc)
      have hf : zs.find? (fun z => decide (firstOf counts t + j < z.ends t)) = none := by
        rw [List.find?_eq_none]
        intro w hw hc
        exact hex ⟨w, hw, by simpa using hc⟩
      rw [hf] at hnm ⊢
      by_cases hc : firstOf counts t + j < z.ends t
      · rw [if_pos ⟨by omega, hc⟩]
        simp [hc]
      · rw [if_neg (by omega), hnm]
        simp [hc]

theorem foldl_inv (counts : Fin 4 → Nat) : ∀ (zs pre : List Zone) (s : List String × (Fin 4 → Nat)),
    Inv counts pre s → (∀ z ∈ zs, ∀ t, z.ends t ≤ counts t) →
      ∃ s', zs.foldlM zoneStep s = some s' ∧ Inv counts (pre ++ zs) s' := by
  intro zs
  induction zs with
  | nil => intro pre s h _; exact ⟨s, rfl, by simpa using h⟩
  | cons z zs ih =>
    intro pre s h hz
    obtain ⟨s1, h1, h2⟩ := step_inv counts pre z s h (hz z (by simp))
    obtain ⟨s2, h3, h4⟩ := ih (pre ++ [z]) s1 h2 (fun w hw => hz w (by simp [hw]))
    refine ⟨s2, ?_, by simpa using h4⟩
    rw [List.foldlM_cons, h1]
    exact h3

theorem applyZones_closed (counts : Fin 4 → Nat) (zones : List Zone)
    (h : ∀ z ∈ zones, ∀ t, z.ends t ≤ counts t) :
    ∃ names, applyZones counts zones = some names ∧
      names.length = counts 0 + counts 1 + counts 2 + counts 3 ∧
      ∀ t j, j < counts t → names[firstOf counts t + j]? = some (closed counts zones t j) := by
  have h0 : Inv counts [] (List.replicate (counts 0 + counts 1 + counts 2 + counts 3) "UNSET",
      firstOf counts) := by
    refine ⟨by simp, fun _ => le_refl _, ?_, ?_⟩
    · intro t g hg; simp; omega
    · intro t j hj
      have := block_total counts t
      simp only
      rw [List.getElem?_replicate, if_pos (by omega)]
      rfl
  obtain ⟨s', h1, h2⟩ := foldl_inv counts zones [] _ h0 h
  refine ⟨s'.1, ?_, h2.len, ?_⟩
  · rw [applyZones, h1]; rfl
  · simpa using h2.nm

theorem dec_of_pos (x : Nat) (h1 : 1 ≤ x) (h2 : x ≤ W) : dec x = x - 1 := by
  unfold dec
  have hW : W = 4294967296 := by norm_num [W]
  rw [hW] at h2 ⊢
  omega

theorem readZones_ok (is2D : Bool) (counts : Fin 4 → Nat) (starts : List (List Nat))
    (names : List String) (hfit : Fits is2D counts starts) (hne : starts ≠ [])
    (h1 : ∀ s, starts.head? = some s → ∀ x ∈ s, x = 1) (hlen : names.length = starts.length)
    (hord : ∀ t : Fin 4, (t : Nat) < (if is2D then 2 else 4) → Ordered counts starts t) :
    ∃ res, readZones is2D counts starts names = some res ∧
      res.length = counts 0 + counts 1 + counts 2 + counts 3 ∧
      (∀ t i j, j < counts t → InZone starts t i (firstOf counts t + j) →
        firstOf counts t + j < counts t → res[firstOf counts t + j]? = names[i]?) ∧
      (∀ t j, j < counts t → counts t ≤ firstOf counts t + j →
        res[firstOf counts t + j]? = some "UNSET") := by
  obtain ⟨hall, h2D, hW⟩ := hfit
  obtain ⟨first, rest, rfl⟩ : ∃ f r, starts = f :: r := by
    cases starts with
    | nil => exact absurd rfl hne
    | cons a b => exact ⟨a, b, rfl⟩
  set n := if is2D then 2 else 5 with hn
  let ends : List (Fin 4 → Nat) :=
    rest.map (fun s (t : Fin 4) => if (t : Nat) < n then dec (s.getD t 0) else 0) ++ [counts]
  have hends : zoneEnds is2D counts (first :: rest) = some ends := by
    unfold zoneEnds
    simp only
    rw [if_pos, if_pos]
    · rw [List.all_eq_true]
      intro x hx
      simpa using h1 first (by simp) x hx
    · rw [List.all_eq_true]
      intro s hs
      simpa using hall s hs
  -- the end of every zone
  have hend : ∀ t : Fin 4, ∀ s ∈ rest, counts t ≠ 0 →
      (if (t : Nat) < n then dec (s.getD t 0) else 0) = s.getD t 0 - 1 ∧ 1 ≤ s.getD t 0 := by
    intro t s hs hc
    have ht : (t : Nat) < (if is2D then 2 else 4) := by
      cases hb : is2D with
      | false => simp
      | true =>
        have := h2D hb
        simp
        by_contra hge
        have : t = 2 ∨ t = 3 := by omega
        rcases this with rfl | rfl <;> omega
    have htn : (t : Nat) < n := by rw [hn]; split <;> simp_all; omega
    have ho := (hord t ht).1 s (by simp [hs])
    rw [if_pos htn, dec_of_pos _ ho.1 (by have := hW t; omega)]
    exact ⟨rfl, ho.1⟩
  have hle : ∀ e ∈ ends, ∀ t, e t ≤ counts t := by
    intro e he t
    rcases List.mem_append.mp he with he | he
    · obtain ⟨s, hs, rfl⟩ := List.mem_map.mp he
      simp only
      split
      · by_cases ht : (t : Nat) < (if is2D then 2 else 4)
        · have ho := (hord t ht).1 s (by simp [hs])
          rw [dec_of_pos _ ho.1 (by have := hW t; omega)]
          omega
        · exfalso
          rename_i hlt
          rw [hn] at hlt
          cases is2D <;> simp at ht hlt <;> omega
      · omega
    · rw [List.mem_singleton] at he; subst he; exact le_refl _
  have hel : ends.length = (first :: rest).length := by simp [ends]
  obtain ⟨res, r1, r2, r3⟩ := applyZones_closed counts (List.zipWith Zone.mk names ends) (by
    intro z hz t
    obtain ⟨i, hi, rfl⟩ := List.getElem_of_mem hz
    rw [List.getElem_zipWith]
    exact hle _ (List.getElem_mem _) t)
  refine ⟨res, ?_, r2, ?_, ?_⟩
  · rw [readZones, hends]
    simp only [Option.bind_some]
    rw [if_pos (by rw [hlen, hel]), r1]
  · intro t i j hj hz hlt
    rw [r3 t j hj]
    obtain ⟨⟨s, hs, hs1⟩, hz2⟩ := hz
    have hi : i < (first :: rest).length := by
      by_contra hc
      rw [List.getElem?_eq_none (by omega)] at hs
      exact absurd hs (by simp)
    have hc : counts t ≠ 0 := by omega
    have ht : (t : Nat) < (if is2D then 2 else 4) := by
      cases hb : is2D with
      | false => simp
      | true =>
        have := h2D hb
        simp
        by_contra hge
        have : t = 2 ∨ t = 3 := by omega
        rcases this with rfl | rfl <;> omega
    have hgetE : ∀ k (hk : k < ends.length), (∃ hk' : k < rest.length,
        ends[k] t = rest[k].getD t 0 - 1 ∧ 1 ≤ rest[k].getD t 0) ∨
          (k = rest.length ∧ ends[k] t = counts t) := by
      intro k hk
      by_cases hk' : k < rest.length
      · left
        refine ⟨hk', ?_⟩
        have : ends[k] = fun (t : Fin 4) => if (t : Nat) < n then dec (rest[k].getD t 0) else 0 := by
          simp only [ends]
          rw [List.getElem_append_left (by simpa using hk')]
          simp
        rw [this]
        exact hend t _ (List.getElem_mem _) hc
      · right
        have hk2 : k = rest.length := by rw [hel] at hk; simp at hk; omega
        refine ⟨hk2, ?_⟩
        subst hk2
        simp only [ends]
        rw [List.getElem_append_right (by simp)]
        simp
    have hfind : (List.zipWith Zone.mk names ends).find?
        (fun z => decide (firstOf counts t + j < z.ends t)) =
          some ⟨names[i]'(by omega), ends[i]'(by omega)⟩ := by
      rw [List.find?_eq_some_iff_getElem]
      refine ⟨?_, i, by simp [hel, hlen]; simpa using hi, by simp, ?_⟩
      · simp only [decide_eq_true_eq]
        rcases hgetE i (by omega) with ⟨hi', he, h1'⟩ | ⟨_, he⟩
        · rw [he]
          have := hz2 rest[i] (by simp [hi'])
          omega
        · rw [he]; exact hlt
      · intro k hk
        simp only [List.getElem_zipWith, Bool.not_eq_eq_eq_not, Bool.not_true, decide_eq_false_iff_not]
        rcases hgetE k (by omega) with ⟨hk', he, h1'⟩ | ⟨hk', _⟩
        · rw [he]
          have hp := (hord t ht).2
          have hmono : rest[k].getD t 0 ≤ s.getD t 0 := by
            have hsi : (first :: rest)[i] = s := by
              rw [List.getElem?_eq_getElem hi] at hs
              exact Option.some.inj hs
            rcases Nat.lt_or_ge (k + 1) i with hlt' | hge
            · have := List.pairwise_iff_getElem.mp hp (k + 1) i (by simp; omega)
                (by simpa using hi) hlt'
              simp only [List.getElem_map, List.getElem_cons_succ] at this
              rw [hsi] at this
              exact this
            · have hki : i = k + 1 := by omega
              subst hki
              rw [← hsi]
              simp
          omega
        · simp at hi; omega
    unfold closed
    rw [hfind]
    simp only [Option.map_some, Option.getD_some]
    rw [List.getElem?_eq_getElem]
  · intro t j hj hge
    rw [r3 t j hj]
    unfold closed
    have : (List.zipWith Zone.mk names ends).find?
        (fun z => decide (firstOf counts t + j < z.ends t)) = none := by
      rw [List.find?_eq_none]
      intro z hz
      obtain ⟨i, hi, rfl⟩ := List.getElem_of_mem hz
      rw [List.getElem_zipWith]
      have := hle _ (List.getElem_mem (by simp at hi; omega : i < ends.length)) t
      simp only [decide_eq_true_eq]
      omega
    rw [this]
    rfl

end Verif.Centaur
