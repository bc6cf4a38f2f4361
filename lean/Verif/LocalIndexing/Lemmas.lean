import Verif.LocalIndexing.Spec
import Verif.Common.Prefix
import Mathlib.Tactic.Linarith

set_option linter.all false
namespace Verif.LocalIndexing
open ELI

theorem getD_set' (l : List Nat) (i j v d : Nat) (hi : i < l.length) :
    (l.set i v).getD j d = if j = i then v else l.getD j d := by
  simp only [List.getD_eq_getElem?_getD, List.getElem?_set]
  by_cases h : i = j
  · subst h; simp [hi]
  · have : ¬ j = i := fun e => h e.symm
    simp [h, this]

theorem loop_spec (e : Elem) : ∀ (l : List Nat) (t : Nat) (o s : List Nat), l.Nodup →
    (∀ u ∈ l, u < o.length) → o.length = s.length →
    (loop e l t o s).1.length = o.length ∧ (loop e l t o s).2.length = s.length ∧
    (∀ u, (loop e l t o s).1.getD u UNKNOWN_NOT_INCLUDED =
      if u ∈ l then t + prefixOffset e l u else o.getD u UNKNOWN_NOT_INCLUDED) ∧
    (∀ u, (loop e l t o s).2.getD u 0 = if u ∈ l then e u else s.getD u 0) := by
  intro l
  induction l with
  | nil => intro t o s _ _ _; simp [loop]
  | cons a l ih =>
    intro t o s hn hl ho
    obtain ⟨ha, hn'⟩ := List.nodup_cons.1 hn
    have hao : a < o.length := hl a (by simp)
    obtain ⟨h1, h2, h3, h4⟩ := ih (t + e a) (o.set a t) (s.set a (e a)) hn'
      (by intro u hu; simpa using hl u (by simp [hu])) (by simpa using ho)
    simp only [List.length_set] at h1 h2
    refine ⟨h1, h2, fun u => ?_, fun u => ?_⟩
    · simp only [loop]
      rw [h3, getD_set' _ _ _ _ _ hao]
      by_cases h : u = a
      · subst h; simp [ha, prefixOffset]
      · by_cases h' : u ∈ l <;> simp [h, h', prefixOffset]; omega
    · simp only [loop]
      rw [h4, getD_set' _ _ _ _ _ (by omega)]
      by_cases h : u = a
      · subst h; simp [ha]
      · by_cases h' : u ∈ l <;> simp [h, h']

structure Inv (s : ELI) (U : List Nat) (E : Option Elem) : Prop where
  elem : s.element = E
  perm : s.included.Perm U
  sorted : s.included.Pairwise (· < ·)
  bound : ∀ u ∈ s.included, u < s.offsets.length
  len : s.offsets.length = s.sizes.length
  off : ∀ u, s.offsets.getD u UNKNOWN_NOT_INCLUDED =
    if E.isSome ∧ u ∈ s.included then prefixOffset (dofs E) s.included u else UNKNOWN_NOT_INCLUDED
  size : ∀ u, s.sizes.getD u 0 = if u ∈ s.included then dofs E u else 0

theorem getD_map_const (l : List Nat) (u c : Nat) : (l.map fun _ => c).getD u c = c := by
  simp only [List.getD_eq_getElem?_getD, List.getElem?_map]
  cases l[u]? <;> rfl

theorem inv_init : Inv init [] none :=
  ⟨rfl, List.Perm.refl _, List.Pairwise.nil, by simp [init], rfl, by simp [init], by simp [init]⟩

theorem Inv.element {s : ELI} {U : List Nat} {E : Option Elem} (h : Inv s U E) (e : Option Elem) :
    Inv (s.reinitElement e) U e := by
  cases e with
  | none =>
    refine ⟨rfl, h.perm, h.sorted, ?_, ?_, ?_, ?_⟩
    · simpa [reinitElement, clear] using h.bound
    · simpa [reinitElement, clear] using h.len
    · intro u
      simp only [reinitElement, clear, Option.isSome_none, Bool.false_eq_true, false_and, if_false]
      exact getD_map_const _ _ _
    · intro u
      simp only [reinitElement, clear, dofs]
      rw [getD_map_const]; exact (ite_self 0).symm
  | some e =>
    obtain ⟨a, b, c, d⟩ := loop_spec e s.included 0 s.offsets s.sizes
      (h.sorted.imp (fun hab => Nat.ne_of_lt hab)) h.bound h.len
    refine ⟨rfl, h.perm, h.sorted, ?_, ?_, ?_, ?_⟩
    · intro u hu; simp only [reinitElement]; rw [a]; exact h.bound u hu
    · simp only [reinitElement]; rw [a, b]; exact h.len
    · intro u
      simp only [reinitElement]
      rw [c, h.off]
      by_cases hu : u ∈ s.included
      · simp only [hu, if_true, Option.isSome_some, and_self, Nat.zero_add]; rfl
      · simp [hu]
    · intro u
      simp only [reinitElement]
      rw [d, h.size]
      by_cases hu : u ∈ s.included <;> simp [hu, dofs]

theorem getD_extend (l : List Nat) (n v u : Nat) : (extend l n v).getD u v = l.getD u v := by
  simp only [extend, List.getD_eq_getElem?_getD]
  by_cases h : u < l.length
  · rw [List.getElem?_append_left h]
  · rw [List.getElem?_append_right (by omega), List.getElem?_replicate,
      List.getElem?_eq_none (by omega : l.length ≤ u)]
    split_ifs <;> rfl

theorem length_extend (l : List Nat) (n v : Nat) : (extend l n v).length = max l.length n := by
  simp [extend]; omega

theorem sorted_last {l : List Nat} (h : l.Pairwise (· < ·)) {m : Nat} (hm : l.getLast? = some m) :
    ∀ u ∈ l, u ≤ m := by
  intro u hu
  obtain ⟨ys, rfl⟩ := List.getLast?_eq_some_iff.1 hm
  rw [List.pairwise_append] at h
  rcases List.mem_append.1 hu with hu | hu
  · exact Nat.le_of_lt (h.2.2 u hu m (by simp))
  · simp at hu; omega

/-- The state between extending the tables and filling them. -/
def mid (s : ELI) (unknowns : List Nat) : ELI :=
  let inc := unknowns.mergeSort (fun a b => decide (a ≤ b))
  let s := { s with included := inc }
  match inc.getLast? with
    | none => s
    | some m =>
      if m ≥ s.sizes.length then
        { s with sizes := extend s.sizes (m + 1) 0,
                 offsets := extend s.offsets (m + 1) UNKNOWN_NOT_INCLUDED }
      else s

theorem reinitUnknowns_eq (s : ELI) (U : List Nat) :
    s.reinitUnknowns U = match (mid s U).element with
      | none => mid s U
      | some e => (clear (mid s U)).reinitElement (some e) := rfl

theorem mid_spec {s : ELI} {U' : List Nat} {E : Option Elem} (h : Inv s U' E) {U : List Nat} (hU : U.Nodup) :
    (mid s U).element = E ∧ (mid s U).included.Perm U ∧ (mid s U).included.Pairwise (· < ·) ∧
    (∀ u ∈ (mid s U).included, u < (mid s U).offsets.length) ∧
    (mid s U).offsets.length = (mid s U).sizes.length ∧
    (∀ u, (mid s U).offsets.getD u UNKNOWN_NOT_INCLUDED = s.offsets.getD u UNKNOWN_NOT_INCLUDED) ∧
    (∀ u, (mid s U).sizes.getD u 0 = s.sizes.getD u 0) := by
  have hperm := List.mergeSort_perm U (fun a b => decide (a ≤ b))
  have hsort : (U.mergeSort (fun a b => decide (a ≤ b))).Pairwise (· < ·) := by
    have h1 := List.pairwise_mergeSort (le := fun a b => decide (a ≤ b))
      (by intro a b c; simp; omega) (by intro a b; simp; omega) U
    have h2 : (U.mergeSort (fun a b => decide (a ≤ b))).Nodup := hperm.nodup_iff.2 hU
    refine (h1.and h2).imp ?_
    rintro a b ⟨hab, hne⟩
    simp at hab
    omega
  unfold mid
  dsimp only
  generalize U.mergeSort (fun a b => decide (a ≤ b)) = inc at hperm hsort
  cases hl : inc.getLast? with
  | none =>
    rw [List.getLast?_eq_none_iff] at hl
    subst hl
    exact ⟨h.elem, hperm, hsort, by simp, h.len, fun _ => rfl, fun _ => rfl⟩
  | some m =>
    have hle := sorted_last hsort hl
    dsimp only
    split_ifs with hm
    · refine ⟨h.elem, hperm, hsort, ?_, ?_, ?_, ?_⟩
      · intro u hu; simp only [length_extend]; have := hle u hu; omega
      · simp only [length_extend]; have := h.len; omega
      · intro u; exact getD_extend _ _ _ _
      · intro u; exact getD_extend _ _ _ _
    · refine ⟨h.elem, hperm, hsort, ?_, h.len, fun _ => rfl, fun _ => rfl⟩
      intro u hu
      have h1 := hle u hu
      have h2 := h.len
      dsimp only
      omega

theorem Inv.unknowns {s : ELI} {U' : List Nat} {E : Option Elem} (h : Inv s U' E) {U : List Nat}
    (hU : U.Nodup) : Inv (s.reinitUnknowns U) U E := by
  obtain ⟨h1, h2, h3, h4, h5, h6, h7⟩ := mid_spec h hU
  rw [reinitUnknowns_eq, h1]
  cases E with
  | none =>
    refine ⟨h1, h2, h3, h4, h5, fun u => ?_, fun u => ?_⟩
    · rw [h6, h.off]; simp
    · rw [h7, h.size]; simp [dofs]
  | some e =>
    dsimp only
    have hc : Inv (clear { mid s U with element := none }) U none := by
      refine ⟨rfl, h2, h3, ?_, ?_, ?_, ?_⟩
      · simpa [clear] using h4
      · simpa [clear] using h5
      · intro u
        simp only [clear, Option.isSome_none, Bool.false_eq_true, false_and, if_false]
        exact getD_map_const _ _ _
      · intro u
        simp only [clear, dofs]
        rw [getD_map_const]; exact (ite_self 0).symm
    exact hc.element (some e)

theorem inv_run (h : List Op) (hv : Valid h) : Inv (run h) (asked h).1 (asked h).2 := by
  have key : ∀ (h : List Op) (s : ELI) (a : List Nat × Option Elem), Valid h → Inv s a.1 a.2 →
      Inv (h.foldl (fun s op => match op with
        | .unknowns l => s.reinitUnknowns l
        | .element e => s.reinitElement e) s)
        (h.foldl (fun a op => match op with
          | .unknowns l => (l, a.2)
          | .element e => (a.1, e)) a).1
        (h.foldl (fun a op => match op with
          | .unknowns l => (l, a.2)
          | .element e => (a.1, e)) a).2 := by
    intro h
    induction h with
    | nil => intro s a _ hi; exact hi
    | cons op t ih =>
      intro s a hv hi
      simp only [List.foldl_cons]
      apply ih _ _ (fun l hl => hv l (List.mem_cons_of_mem _ hl))
      cases op with
      | unknowns l => exact hi.unknowns (hv l (by simp))
      | element e => exact hi.element e
  exact key h ELI.init ([], none) hv inv_init

theorem Inv.getOffset {s : ELI} {U : List Nat} {E : Option Elem} (h : Inv s U E) (u : Nat) :
    s.getDoFOffset u = if E.isSome ∧ u ∈ s.included then prefixOffset (dofs E) s.included u
      else UNKNOWN_NOT_INCLUDED := by
  rw [← h.off]
  unfold ELI.getDoFOffset
  split_ifs with hl
  · rw [List.getD_eq_getElem?_getD, List.getElem?_eq_none hl]; rfl
  · rfl

theorem Inv.getSize {s : ELI} {U : List Nat} {E : Option Elem} (h : Inv s U E) (u : Nat) :
    s.getNumberOfDoFs u = if u ∈ U then dofs E u else 0 := by
  have := h.size u
  simp only [h.perm.mem_iff] at this
  rw [← this]
  unfold ELI.getNumberOfDoFs
  split_ifs with hl
  · rw [List.getD_eq_getElem?_getD, List.getElem?_eq_none hl]; rfl
  · rfl

theorem foldl_sum (f : Nat → Nat) (l : List Nat) (t : Nat) :
    l.foldl (fun t u => t + f u) t = t + (l.map f).sum := by
  induction l generalizing t with
  | nil => simp
  | cons a l ih => simp [ih]; omega

theorem Inv.total_eq' {s : ELI} {U : List Nat} {E : Option Elem} (h : Inv s U E) :
    s.total = (s.included.map (dofs E)).sum := by
  unfold ELI.total
  rw [foldl_sum, Nat.zero_add]
  congr 1
  apply List.map_congr_left
  intro u hu
  rw [h.size, if_pos hu]

theorem Inv.total_eq {s : ELI} {U : List Nat} {E : Option Elem} (h : Inv s U E) :
    s.total = (U.map (dofs E)).sum := by
  rw [h.total_eq']
  exact (h.perm.map _).sum_eq

theorem Inv.offset_eq {s : ELI} {U : List Nat} {e : Elem} (h : Inv s U (some e)) {u : Nat} (hu : u ∈ U) :
    s.getDoFOffset u = ((U.filter (· < u)).map e).sum := by
  rw [h.getOffset, if_pos ⟨rfl, h.perm.mem_iff.2 hu⟩,
    prefixOffset_sorted _ _ h.sorted _ (h.perm.mem_iff.2 hu)]
  exact ((h.perm.filter _).map _).sum_eq

theorem Inv.bijOn {s : ELI} {U : List Nat} {E : Option Elem} (h : Inv s U E) :
    Set.BijOn (fun p : Nat × Nat => s.getDoFOffset p.1 + p.2) {p | p.1 ∈ U ∧ p.2 < dofs E p.1}
      (Set.Iio s.total) := by
  rw [h.total_eq']
  have := prefix_bijOn (dofs E) s.included (h.sorted.imp (fun hab => Nat.ne_of_lt hab))
  have e : {p : Nat × Nat | p.1 ∈ U ∧ p.2 < dofs E p.1} =
      {p | p.1 ∈ s.included ∧ p.2 < dofs E p.1} := by
    ext p; simp only [Set.mem_ofPred_eq, h.perm.mem_iff]
  rw [e]
  refine this.congr ?_
  rintro ⟨u, k⟩ ⟨hu, hk⟩
  dsimp only at hu hk ⊢
  rw [h.getOffset, if_pos]
  refine ⟨?_, hu⟩
  cases E with
  | none => simp [dofs] at hk
  | some e => rfl

/-! ### Faces -/

theorem invFace_run (h : List FOp) (hv : ValidFace h) :
    ∃ s, runFace h = some s ∧
      Inv s.left (askedFace h).1 (sideElement (askedFace h).2 .left) ∧
      Inv s.right (askedFace h).1 (sideElement (askedFace h).2 .right) := by
  have key : ∀ (h : List FOp) (s : FLI) (a : List Nat × Option Face), ValidFace h →
      Inv s.left a.1 (sideElement a.2 .left) → Inv s.right a.1 (sideElement a.2 .right) →
      ∃ r, h.foldlM (fun s op => match op with
          | .unknowns l => some (s.reinitUnknowns l)
          | .face f => s.reinitFace f) s = some r ∧
        Inv r.left (h.foldl (fun a op => match op with
          | .unknowns l => (l, a.2)
          | .face f => (a.1, f)) a).1 (sideElement (h.foldl (fun a op => match op with
          | .unknowns l => (l, a.2)
          | .face f => (a.1, f)) a).2 .left) ∧
        Inv r.right (h.foldl (fun a op => match op with
          | .unknowns l => (l, a.2)
          | .face f => (a.1, f)) a).1 (sideElement (h.foldl (fun a op => match op with
          | .unknowns l => (l, a.2)
          | .face f => (a.1, f)) a).2 .right) := by
    intro h
    induction h with
    | nil => intro s a _ h1 h2; exact ⟨s, rfl, h1, h2⟩
    | cons op t ih =>
      intro s a hv h1 h2
      have hv' : ValidFace t :=
        ⟨fun l hl => hv.1 l (List.mem_cons_of_mem _ hl), fun hl => hv.2 (List.mem_cons_of_mem _ hl)⟩
      simp only [List.foldl_cons, List.foldlM_cons]
      cases op with
      | unknowns l =>
        have hl := hv.1 l (by simp)
        exact ih (s.reinitUnknowns l) (l, a.2) hv' (h1.unknowns hl) (h2.unknowns hl)
      | face f =>
        cases f with
        | none => exact absurd (by simp) hv.2
        | some f =>
          exact ih ⟨s.left.reinitElement (some f.left), s.right.reinitElement f.right⟩ (a.1, some f) hv'
            (h1.element (some f.left)) (h2.element f.right)
  exact key h FLI.init ([], none) hv inv_init inv_init

end Verif.LocalIndexing
