import Verif.MergePlan.Lemmas
import Verif.UnionFind.Props

/-! # Executing a plan: lemmas -/
set_option linter.all false
namespace Verif.MergePlan
open Verif.ElementShape Verif.PreMesh

variable {P : Type}

theorem Renamed.refl {shapes : List Shape} {dim : Nat} {m : Mesh P} (h : Consistent shapes dim m) :
    Renamed shapes dim m m (fun _ => id) := by
  refine ⟨h, ?_, fun _ => rfl, rfl, fun h => h, rfl⟩
  simp

theorem Renamed.trans {shapes : List Shape} {dim : Nat} {m m' m'' : Mesh P} {ρ σ : Nat → Nat → Nat}
    (h : Renamed shapes dim m m' ρ) (h' : Renamed shapes dim m' m'' σ) : Renamed shapes dim m m'' (fun d k => σ d (ρ d k)) := by
  refine ⟨h'.cons, ?_, fun d => (h'.lens d).trans (h.lens d), h'.pos.trans h.pos, fun hv => h'.valid (h.valid hv), h'.zones.trans h.zones⟩
  rw [h'.elems, h.elems, List.map_map]
  apply List.map_congr_left
  intro el _
  simp [Function.comp_def]

theorem Renamed.congr {shapes : List Shape} {dim : Nat} {m m' : Mesh P} {ρ σ : Nat → Nat → Nat}
    (h : Renamed shapes dim m m' ρ) (he : ∀ d k, ρ d k = σ d k) : Renamed shapes dim m m' σ := by
  have : ρ = σ := by funext d k; exact he d k
  exact this ▸ h

theorem merge_renamed (shapes : List Shape) (dim : Nat) (m : Mesh P) (h : Consistent shapes dim m) (d t s : Nat)
    (hd : d < dim) (hts : t ≠ s) (ht : t < (m.ents d).length) (hs : s < (m.ents d).length) :
    ∃ m', merge m d t s = some m' ∧ Renamed shapes dim m m' (fun d' k => if d' = d ∧ k = s then t else k) := by
  have e1 := List.getElem?_eq_getElem ht
  have e2 := List.getElem?_eq_getElem hs
  have hm := merge_spec shapes dim m h d t s hd hts _ _ e1 e2
  refine ⟨_, hm, merge_consistent shapes dim m _ h d t s hd hm, ?_, ?_, ?_, ?_, rfl⟩
  · simp only [merged]
    apply List.map_congr_left
    intro el _
    congr 1
    funext d'
    by_cases hdd : d' = d
    · subst hdd; rw [upd_self]; apply List.map_congr_left; intro k _; simp [rename]
    · rw [upd_ne _ _ _ _ hdd]; simp [hdd]
  · intro d'
    simp only [merged]
    by_cases hdd : d' = d
    · subst hdd; rw [upd_self]; simp
    · rw [upd_ne _ _ _ _ hdd]
  · simp only [merged]
    apply List.ext_getElem
    · simp
    · intro i h1 h2
      simp only [List.getElem_map, List.getElem_mapIdx]
      split <;> rfl
  · intro hv co hco
    simp only [merged] at hco ⊢
    rw [List.mem_mapIdx] at hco
    obtain ⟨i, hi, rfl⟩ := hco
    obtain ⟨n, hn, hlt⟩ := hv _ (List.getElem_mem hi)
    have hlen : ∀ x : Nat → List Entity, True := fun _ => trivial
    split
    · rename_i hc
      obtain ⟨rfl, _⟩ := hc
      refine ⟨t, rfl, ?_⟩
      rw [upd_self]; simpa using ht
    · refine ⟨n, hn, ?_⟩
      by_cases hdd : 0 = d
      · subst hdd; rw [upd_self]; simpa using hlt
      · rw [upd_ne _ _ _ _ hdd]; exact hlt

theorem mergeGroup_renamed (shapes : List Shape) (dim : Nat) (d t : Nat) (hd : d < dim) (ss : List Nat) : ∀ (m : Mesh P),
    Consistent shapes dim m → (∀ s ∈ ss, s ≠ t ∧ s < (m.ents d).length) → t < (m.ents d).length →
    ∃ m', ss.foldlM (fun m s => merge m d t s) m = some m' ∧ Renamed shapes dim m m' (fun d' k => if d' = d ∧ k ∈ ss then t else k) := by
  induction ss with
  | nil => intro m h _ _; exact ⟨m, rfl, (Renamed.refl h).congr (by simp)⟩
  | cons s ss ih =>
    intro m h hss ht
    obtain ⟨h1, h2⟩ := hss s (by simp)
    obtain ⟨m1, e1, f1⟩ := merge_renamed shapes dim m h d t s hd (fun h => h1 h.symm) ht h2
    obtain ⟨m2, e2, f2⟩ := ih m1 f1.cons (by
      intro x hx; rw [f1.lens]; exact hss x (by simp [hx])) (by rw [f1.lens]; exact ht)
    refine ⟨m2, by simp only [List.foldlM_cons, e1, Option.bind_eq_bind, Option.bind_some]; exact e2, ?_⟩
    apply (f1.trans f2).congr
    intro d' k
    by_cases hdd : d' = d
    · simp only [hdd, true_and, List.mem_cons]
      by_cases hk : k = s
      · simp [hk]
      · simp [hk]
    · simp [hdd]

/-- The entity that a group is merged into. -/
def rep : List (List Nat) → Nat → Nat
  | [], k => k
  | g :: gs, k => if k ∈ g then g.headD k else rep gs k

theorem rep_not_mem (gs : List (List Nat)) (k : Nat) (h : k ∉ gs.flatten) : rep gs k = k := by
  induction gs with
  | nil => rfl
  | cons g gs ih =>
    simp only [List.flatten_cons, List.mem_append, not_or] at h
    rw [rep, if_neg h.1, ih h.2]

theorem rep_mem (gs : List (List Nat)) (k : Nat) (h : k ∈ gs.flatten) : ∃ g ∈ gs, k ∈ g ∧ rep gs k ∈ g := by
  induction gs with
  | nil => simp at h
  | cons g gs ih =>
    rw [rep]
    by_cases hk : k ∈ g
    · rw [if_pos hk]
      refine ⟨g, by simp, hk, ?_⟩
      cases g with
      | nil => cases hk
      | cons a g => simp
    · rw [if_neg hk]
      simp only [List.flatten_cons, List.mem_append, hk, false_or] at h
      obtain ⟨g', h1, h2⟩ := ih h
      exact ⟨g', by simp [h1], h2⟩

theorem rep_same (gs : List (List Nat)) (hnd : gs.flatten.Nodup) (g : List Nat) (hg : g ∈ gs) (k k' : Nat) (hk : k ∈ g) (hk' : k' ∈ g) :
    rep gs k = rep gs k' := by
  induction gs with
  | nil => cases hg
  | cons g0 gs ih =>
    rw [List.flatten_cons, List.nodup_append] at hnd
    rcases List.mem_cons.1 hg with rfl | hg
    · rw [rep, rep, if_pos hk, if_pos hk']
      cases g with
      | nil => cases hk
      | cons a g => rfl
    · have hn : ∀ x ∈ g, x ∉ g0 := fun x hx hx0 => hnd.2.2 x hx0 x (List.mem_flatten.2 ⟨g, hg, hx⟩) rfl
      rw [rep, rep, if_neg (hn k hk), if_neg (hn k' hk')]
      exact ih hnd.2.1 hg

theorem level_renamed (shapes : List Shape) (dim : Nat) (d : Nat) (hd : d < dim) (gs : List (List Nat)) : ∀ (m : Mesh P),
    Consistent shapes dim m → gs.flatten.Nodup → (∀ k ∈ gs.flatten, k < (m.ents d).length) →
    ∃ m', gs.foldlM (fun m g => mergeGroup m d g) m = some m' ∧ Renamed shapes dim m m' (fun d' k => if d' = d then rep gs k else k) := by
  induction gs with
  | nil => intro m h _ _; exact ⟨m, rfl, (Renamed.refl h).congr (by simp [rep])⟩
  | cons g gs ih =>
    intro m h hnd hlt
    rw [List.flatten_cons, List.nodup_append] at hnd
    obtain ⟨n1, n2, n3⟩ := hnd
    simp only [List.flatten_cons, List.mem_append] at hlt
    obtain ⟨m1, e1, f1⟩ : ∃ m', mergeGroup m d g = some m' ∧ Renamed shapes dim m m' (fun d' k => if d' = d ∧ k ∈ g then g.headD k else k) := by
      cases g with
      | nil => exact ⟨m, rfl, (Renamed.refl h).congr (by simp)⟩
      | cons t ss =>
        rw [List.nodup_cons] at n1
        obtain ⟨m1, e1, f1⟩ := mergeGroup_renamed shapes dim d t hd ss m h
          (fun s hs => ⟨fun hc => n1.1 (hc ▸ hs), hlt s (Or.inl (by simp [hs]))⟩) (hlt t (Or.inl (by simp)))
        refine ⟨m1, e1, f1.congr ?_⟩
        intro d' k
        by_cases hdd : d' = d
        · by_cases hk : k = t
          · simp [hk]
          · simp [hk]
        · simp [hdd]
    obtain ⟨m2, e2, f2⟩ := ih m1 f1.cons n2 (fun k hk => by rw [f1.lens]; exact hlt k (Or.inr hk))
    refine ⟨m2, by simp only [List.foldlM_cons, e1, Option.bind_eq_bind, Option.bind_some]; exact e2, ?_⟩
    apply (f1.trans f2).congr
    intro d' k
    by_cases hdd : d' = d
    · simp only [hdd, true_and, if_true, rep]
      by_cases hk : k ∈ g
      · rw [if_pos hk, if_pos hk]
        apply rep_not_mem
        intro hc
        have : g.headD k ∈ g := by
          cases g with
          | nil => cases hk
          | cons a g => simp
        exact n3 _ this _ hc rfl
      · rw [if_neg hk, if_neg hk]
    · simp [hdd]

/-- The renaming of a plan that starts at dimension `d`. -/
def plan (gss : List (List (List Nat))) (d d' k : Nat) : Nat :=
  if d ≤ d' then rep ((gss[d' - d]?).getD []) k else k

theorem executeFrom_renamed (shapes : List Shape) (dim : Nat) (gss : List (List (List Nat))) : ∀ (d : Nat) (m : Mesh P),
    Consistent shapes dim m → d + gss.length ≤ dim → (∀ (j : Nat) (gs : List (List Nat)), gss[j]? = some gs → gs.flatten.Nodup ∧
      ∀ k ∈ gs.flatten, k < (m.ents (d + j)).length) →
    ∃ m', executeFrom m d gss = some m' ∧ Renamed shapes dim m m' (plan gss d) := by
  induction gss with
  | nil =>
    intro d m h _ _
    exact ⟨m, rfl, (Renamed.refl h).congr (by intro d' k; simp [plan, rep])⟩
  | cons gs gss ih =>
    intro d m h hle hg
    obtain ⟨g1, g2⟩ := hg 0 gs (by simp)
    obtain ⟨m1, e1, f1⟩ := level_renamed shapes dim d (by simp at hle; omega) gs m h g1 g2
    obtain ⟨m2, e2, f2⟩ := ih (d + 1) m1 f1.cons (by simp at hle; omega) (by
      intro j gs' hj
      obtain ⟨a1, a2⟩ := hg (j + 1) gs' (by simpa using hj)
      refine ⟨a1, fun k hk => ?_⟩
      rw [f1.lens]
      have := a2 k hk
      rwa [show d + (j + 1) = d + 1 + j by omega] at this)
    refine ⟨m2, by simp only [executeFrom, e1, Option.bind_eq_bind, Option.bind_some]; exact e2, ?_⟩
    apply (f1.trans f2).congr
    intro d' k
    simp only [plan]
    by_cases h1 : d' = d
    · subst h1; simp
    · by_cases h2 : d + 1 ≤ d'
      · rw [if_pos h2, if_neg h1, if_pos (by omega), show d' - d = (d' - (d + 1)) + 1 by omega, List.getElem?_cons_succ]
      · rw [if_neg h2, if_neg h1, if_neg (by omega)]

/-- Groups give equal representatives exactly to linked entities. -/
theorem rep_linked (pairs : List (Nat × Nat)) (groups : List (List Nat)) (hnd : groups.flatten.Nodup)
    (hmem : ∀ a, a ∈ groups.flatten ↔ ∃ b, b ≠ a ∧ ((a, b) ∈ pairs ∨ (b, a) ∈ pairs))
    (hl : ∀ a ∈ groups.flatten, ∀ b ∈ groups.flatten, (∃ g ∈ groups, a ∈ g ∧ b ∈ g) ↔ UnionFind.Linked pairs a b) (k k' : Nat) :
    rep groups k = rep groups k' ↔ UnionFind.Linked pairs k k' := by
  have hboth : ∀ a b, UnionFind.Linked pairs a b → a = b ∨ (a ∈ groups.flatten ∧ b ∈ groups.flatten) := by
    intro a b h
    induction h with
    | rel x y hxy =>
      by_cases hne : x = y
      · exact Or.inl hne
      · exact Or.inr ⟨(hmem x).2 ⟨y, fun h => hne h.symm, Or.inl hxy⟩, (hmem y).2 ⟨x, hne, Or.inr hxy⟩⟩
    | refl x => exact Or.inl rfl
    | symm x y _ ih =>
      rcases ih with h | h
      · exact Or.inl h.symm
      · exact Or.inr ⟨h.2, h.1⟩
    | trans x y z _ _ ih1 ih2 =>
      rcases ih1 with rfl | h1
      · exact ih2
      · rcases ih2 with rfl | h2
        · exact Or.inr h1
        · exact Or.inr ⟨h1.1, h2.2⟩
  constructor
  · intro h
    by_cases hk : k ∈ groups.flatten
    · obtain ⟨g, g1, g2, g3⟩ := rep_mem groups k hk
      by_cases hk' : k' ∈ groups.flatten
      · obtain ⟨g', g1', g2', g3'⟩ := rep_mem groups k' hk'
        have m1 : rep groups k ∈ groups.flatten := List.mem_flatten.2 ⟨g, g1, g3⟩
        have l1 := (hl k hk _ m1).1 ⟨g, g1, g2, g3⟩
        have l2 := (hl k' hk' _ (h ▸ m1)).1 ⟨g', g1', g2', g3'⟩
        rw [← h] at l2
        exact l1.trans _ _ _ (l2.symm _ _)
      · rw [rep_not_mem groups k' hk'] at h
        exact absurd (List.mem_flatten.2 ⟨g, g1, h ▸ g3⟩) hk'
    · rw [rep_not_mem groups k hk] at h
      by_cases hk' : k' ∈ groups.flatten
      · obtain ⟨g', g1', g2', g3'⟩ := rep_mem groups k' hk'
        exact absurd (List.mem_flatten.2 ⟨g', g1', h ▸ g3'⟩) hk
      · rw [rep_not_mem groups k' hk'] at h
        subst h; exact Relation.EqvGen.refl _
  · intro h
    rcases hboth k k' h with rfl | ⟨h1, h2⟩
    · rfl
    · obtain ⟨g, g1, g2, g3⟩ := (hl k h1 k' h2).2 h
      exact rep_same groups hnd g g1 k k' g2 g3

end Verif.MergePlan
