import Verif.GlobalIndexing.Spec
import Verif.GlobalIndexing.LemmasPrefix
import Mathlib.Data.List.Flatten

set_option linter.all false
namespace Verif.GlobalIndexing
open Function (update)

/-! ### Lists -/

theorem foldl_flatMap' {α β σ : Type} (f : σ → β → σ) (g : α → List β) (l : List α) (s : σ) :
    (l.flatMap g).foldl f s = l.foldl (fun s a => (g a).foldl f s) s := by
  induction l generalizing s with
  | nil => rfl
  | cons a l ih => simp [List.foldl_append, ih]

/-- The objects numbered with element `e`. -/
def visitList (m : Mesh) (e : Nat) : List Obj :=
  ⟨.element, e⟩ :: ((m.sub .face e).filter (fun x => decide (m.first .face x = e))).map (fun x => (⟨.face, x⟩ : Obj)) ++
    ((m.sub .edge e).filter (fun x => decide (m.first .edge x = e))).map (fun x => (⟨.edge, x⟩ : Obj)) ++
    (if m.dim > 1 then ((m.sub .node e).filter (fun x => decide (m.first .node x = e))).map (fun x => (⟨.node, x⟩ : Obj)) else [])

theorem foldl_if {σ : Type} (visit : σ → Obj → σ) (k : Kind) (c : Nat → Prop) [DecidablePred c]
    (l : List Nat) (s : σ) :
    l.foldl (fun s x => if c x then visit s ⟨k, x⟩ else s) s =
      ((l.filter (fun x => decide (c x))).map (fun x => (⟨k, x⟩ : Obj))).foldl visit s := by
  induction l generalizing s with
  | nil => rfl
  | cons a l ih =>
    by_cases h : c a <;> simp [h, ih]

theorem overElement_eq (m : Mesh) (visit) (s : Loop) (e : Nat) :
    overElement m visit s e = (visitList m e).foldl visit s := by
  simp only [overElement, visitList, foldl_if]
  split_ifs <;> simp [List.foldl_append]

/-- The objects a rank numbers. -/
def ownedObjs (m : Mesh) (p : Nat) : List Obj := (m.owned p).flatMap (visitList m)

theorem overElements_eq (m : Mesh) (visit) (s : Loop) (p : Nat) :
    (m.owned p).foldl (overElement m visit) s = (ownedObjs m p).foldl visit s := by
  rw [ownedObjs, foldl_flatMap']
  congr 1
  funext s e
  exact overElement_eq m visit s e

theorem mem_visitList (m : Mesh) (e : Nat) (o : Obj) : o ∈ visitList m e ↔
    match o.kind with
    | .element => o.id = e
    | .node => m.dim > 1 ∧ o.id ∈ m.sub .node e ∧ m.first .node o.id = e
    | k => o.id ∈ m.sub k e ∧ m.first k o.id = e := by
  obtain ⟨k, i⟩ := o
  cases k <;> simp [visitList] <;> split_ifs <;> simp_all

theorem mem_ownedObjs (m : Mesh) (p : Nat) (o : Obj) : o ∈ ownedObjs m p ↔ m.Owns p o := by
  obtain ⟨k, i⟩ := o
  simp only [ownedObjs, List.mem_flatMap, mem_visitList, Mesh.Owns]
  cases k <;> simp
  grind

theorem visitList_nodup (m : Mesh) (hm : m.Valid) (p e : Nat) (hp : p < m.ranks) (he : e ∈ m.owned p) :
    (visitList m e).Nodup := by
  have hs := hm.sub_nodup p hp e he
  have inj : ∀ k, Function.Injective (fun x => (⟨k, x⟩ : Obj)) := fun k a b h => by simpa using h
  unfold visitList
  rw [List.cons_append, List.cons_append, List.nodup_cons, List.nodup_append, List.nodup_append]
  refine ⟨?_, ⟨((hs _).filter _).map (inj _), ((hs _).filter _).map (inj _), ?_⟩, ?_, ?_⟩
  · split_ifs <;> simp
  · simp; grind
  · split_ifs
    · exact ((hs _).filter _).map (inj _)
    · simp
  · split_ifs
    · simp; grind
    · simp

theorem ownedObjs_nodup (m : Mesh) (hm : m.Valid) (p : Nat) (hp : p < m.ranks) :
    (ownedObjs m p).Nodup := by
  unfold ownedObjs
  rw [List.nodup_flatMap]
  refine ⟨fun e he => visitList_nodup m hm p e hp he, ?_⟩
  refine (hm.owned_nodup p hp).imp ?_
  intro a b hab
  intro o ha hb
  rw [mem_visitList] at ha hb
  obtain ⟨k, i⟩ := o
  cases k <;> grind

/-- An object has at most one owner. -/
theorem owns_unique (m : Mesh) (hm : m.Valid) (p q : Nat) (hp : p < m.ranks) (hq : q < m.ranks) (o : Obj)
    (h1 : m.Owns p o) (h2 : m.Owns q o) : p = q := by
  obtain ⟨k, i⟩ := o
  have key : ∀ e, e ∈ m.owned p → e ∈ m.owned q → p = q := fun e h h' => by
    rw [← hm.owner_eq p hp e h, ← hm.owner_eq q hq e h']
  cases k <;> simp [Mesh.Owns] at h1 h2
  · exact key i h1 h2
  · obtain ⟨h, a⟩ := h1; obtain ⟨h', b⟩ := h2; exact key _ h h'
  · obtain ⟨h, a⟩ := h1; obtain ⟨h', b⟩ := h2; exact key _ h h'
  · obtain ⟨_, h, a⟩ := h1; obtain ⟨_, h', b⟩ := h2; exact key _ h h'

/-! ### The numbering loop -/

theorem find_set (t : Table) (o o' : Obj) (u u' v : Nat) :
    (t.set o u v).find o' u' = if (o', u') = (o, u) then some v else t.find o' u' := by
  obtain ⟨k, i⟩ := o
  obtain ⟨k', i'⟩ := o'
  by_cases hu : u' = u
  · subst hu
    by_cases hk : k' = k
    · subst hk
      simp [Table.set, Table.find, SMap.find_insert]
    · simp [Table.set, Table.find, Function.update_of_ne hk, hk]
  · simp [Table.set, Table.find, Function.update_of_ne hu, hu]

/-- Everything but the maps. -/
def SameBlock (a b : Offsets) : Prop :=
  a.blockStart = b.blockStart ∧ a.localOffset = b.localOffset ∧ a.number = b.number ∧
    a.included = b.included

theorem sameBlock_set (t : Table) (o u v u') : SameBlock (t.set o u v u') (t u') := by
  by_cases h : u' = u
  · subst h; simp [SameBlock, Table.set]
  · simp [SameBlock, Table.set, Function.update_of_ne h]

theorem SameBlock.trans {a b c} (h : SameBlock a b) (h' : SameBlock b c) : SameBlock a c := by
  unfold SameBlock at *; grind

/-- One step of the numbering. -/
def step (m : Mesh) (s : Loop) (x : Obj × Nat) : Loop := number m s x.1 x.2

theorem run_index (m : Mesh) (L : List (Obj × Nat)) (s : Loop) :
    (L.foldl (step m) s).index = s.index + (L.map fun x => m.count x.1 x.2).sum := by
  induction L generalizing s with
  | nil => simp
  | cons x L ih => simp only [List.foldl_cons, ih]; simp [step, number]; omega

theorem run_same (m : Mesh) (L : List (Obj × Nat)) (s : Loop) (u) :
    SameBlock ((L.foldl (step m) s).table u) (s.table u) := by
  induction L generalizing s with
  | nil => simp [SameBlock]
  | cons x L ih => exact (ih _).trans (sameBlock_set _ _ _ _ _)

theorem run_find (m : Mesh) (L : List (Obj × Nat)) (hL : L.Nodup) (s : Loop) (o u) :
    (L.foldl (step m) s).table.find o u =
      if (o, u) ∈ L then some (s.index + prefixOffset (fun x => m.count x.1 x.2) L (o, u))
      else s.table.find o u := by
  induction L generalizing s with
  | nil => simp
  | cons x L ih =>
    obtain ⟨hx, hL⟩ := List.nodup_cons.1 hL
    rw [List.foldl_cons, ih hL]
    by_cases h : (o, u) = x
    · subst h
      simp [hx, prefixOffset, step, number, find_set]
    · simp only [List.mem_cons, h, false_or, prefixOffset, if_false]
      split_ifs with h1
      · simp [step, number]; omega
      · simp only [step, number, find_set]
        rw [if_neg (by simpa using h)]

/-- The pairs numbered by `constructUnblocked`. -/
def pairsU (m : Mesh) (inc : List Nat) (p : Nat) : List (Obj × Nat) :=
  (ownedObjs m p).flatMap fun o => inc.map fun u => (o, u)

theorem localUnblocked_eq (m : Mesh) (inc t p) :
    localUnblocked m inc t p = (pairsU m inc p).foldl (step m) ⟨t, 0⟩ := by
  rw [localUnblocked, overElements_eq, pairsU, foldl_flatMap']
  congr 1
  funext s o
  rw [List.foldl_map]; rfl

theorem localBlockedOne_eq (m : Mesh) (t p u) :
    localBlockedOne m t p u = ((ownedObjs m p).map fun o => (o, u)).foldl (step m) ⟨t, 0⟩ := by
  rw [localBlockedOne, overElements_eq, List.foldl_map]; rfl

theorem mem_pairsU (m : Mesh) (inc p) (o u) : (o, u) ∈ pairsU m inc p ↔ m.Owns p o ∧ u ∈ inc := by
  simp [pairsU, ← mem_ownedObjs]

theorem pairsU_nodup (m : Mesh) (hm : m.Valid) (inc) (hi : inc.Nodup) (p) (hp : p < m.ranks) :
    (pairsU m inc p).Nodup := by
  unfold pairsU
  rw [List.nodup_flatMap]
  refine ⟨fun o _ => hi.map (fun a b h => by simpa using h), ?_⟩
  refine (ownedObjs_nodup m hm p hp).imp ?_
  intro a b hab
  intro x hx hy
  simp only [List.mem_map] at hx hy
  obtain ⟨u, _, rfl⟩ := hx
  obtain ⟨u', _, h⟩ := hy
  simp at h; exact hab h.1.symm

theorem mapPair_nodup (m : Mesh) (hm : m.Valid) (p u : Nat) (hp : p < m.ranks) :
    ((ownedObjs m p).map fun o => (o, u)).Nodup :=
  (ownedObjs_nodup m hm p hp).map (fun a b h => by simpa using h)

/-- The number of basis functions of a rank for an unknown. -/
def cnt (m : Mesh) (p u : Nat) : Nat := ((ownedObjs m p).map fun o => m.count o u).sum

theorem localBlocked_spec (m : Mesh) (hm : m.Valid) (inc : List Nat) (hi : inc.Nodup) (t p) (hp : p < m.ranks) :
    let b := localBlocked m inc t p
    (∀ u ∈ inc, b.numberOfBasisFunctions u = cnt m p u) ∧ b.localNumber = (inc.map (cnt m p)).sum ∧
    (∀ u, SameBlock (b.table u) (t u)) ∧
    (∀ o u, m.Owns p o → u ∈ inc → b.table.find o u = some (prefixOffset (fun o => m.count o u) (ownedObjs m p) o)) ∧
    (∀ o u, ¬ (m.Owns p o ∧ u ∈ inc) → b.table.find o u = t.find o u) := by
  classical
  have gen : ∀ (l : List Nat), l.Nodup → ∀ (s : Blocked),
      let b := l.foldl (fun s u =>
        let r := localBlockedOne m s.table p u
        (⟨r.table, update s.numberOfBasisFunctions u r.index, s.localNumber + r.index⟩ : Blocked)) s
      (∀ u ∈ l, b.numberOfBasisFunctions u = cnt m p u) ∧
      (∀ u, u ∉ l → b.numberOfBasisFunctions u = s.numberOfBasisFunctions u) ∧
      b.localNumber = s.localNumber + (l.map (cnt m p)).sum ∧
      (∀ u, SameBlock (b.table u) (s.table u)) ∧
      (∀ o u, m.Owns p o → u ∈ l → b.table.find o u = some (prefixOffset (fun o => m.count o u) (ownedObjs m p) o)) ∧
      (∀ o u, ¬ (m.Owns p o ∧ u ∈ l) → b.table.find o u = s.table.find o u) := by
    intro l
    induction l with
    | nil => intro _ s; simp [SameBlock]
    | cons a l ih =>
      intro hl s
      obtain ⟨ha, hl⟩ := List.nodup_cons.1 hl
      obtain ⟨h1, h2, h3, h4, h5, h6⟩ := ih hl
        (⟨(localBlockedOne m s.table p a).table,
          update s.numberOfBasisFunctions a (localBlockedOne m s.table p a).index,
          s.localNumber + (localBlockedOne m s.table p a).index⟩ : Blocked)
      have hidx : (localBlockedOne m s.table p a).index = cnt m p a := by
        rw [localBlockedOne_eq, run_index, cnt]; simp [Function.comp_def]
      have hf : ∀ o u, (localBlockedOne m s.table p a).table.find o u =
          if m.Owns p o ∧ u = a then some (prefixOffset (fun o => m.count o u) (ownedObjs m p) o)
          else s.table.find o u := by
        intro o u
        rw [localBlockedOne_eq, run_find m _ (mapPair_nodup m hm p a hp)]
        by_cases h : m.Owns p o ∧ u = a
        · obtain ⟨h, rfl⟩ := h
          have : (o, u) ∈ (ownedObjs m p).map fun o => (o, u) := by
            simpa [mem_ownedObjs] using h
          rw [if_pos this, if_pos ⟨h, rfl⟩]
          have := prefixOffset_map (fun x : Obj × Nat => m.count x.1 x.2) (ownedObjs m p)
            (fun o => (o, u)) (fun a b h => by simpa using h) o
          simp only [this]; simp
        · have : (o, u) ∉ (ownedObjs m p).map fun o => (o, a) := by
            simp [mem_ownedObjs]; intro h' e; exact h ⟨h', e.symm⟩
          rw [if_neg this, if_neg h]
      refine ⟨?_, ?_, ?_, ?_, ?_, ?_⟩
      · intro u hu
        rcases List.mem_cons.1 hu with rfl | hu
        · rw [List.foldl_cons, h2 u ha]; simp [hidx]
        · exact h1 u hu
      · intro u hu
        simp only [List.mem_cons, not_or] at hu
        rw [List.foldl_cons, h2 u hu.2]; simp [Function.update_of_ne hu.1]
      · rw [List.foldl_cons, h3, List.map_cons, List.sum_cons]; simp only [hidx]; omega
      · intro u
        refine (h4 u).trans ?_
        simp only
        rw [localBlockedOne_eq]
        exact run_same m _ _ u
      · intro o u ho hu
        rcases List.mem_cons.1 hu with rfl | hu
        · rw [List.foldl_cons, h6 o u (by simp [ha])]
          simp only [hf]; simp [ho]
        · exact h5 o u ho hu
      · intro o u hn
        rw [List.foldl_cons, h6 o u (by intro hh; exact hn ⟨hh.1, by simp [hh.2]⟩)]
        simp only [hf]
        rw [if_neg (by intro hh; exact hn ⟨hh.1, by simp [hh.2]⟩)]
  obtain ⟨h1, h2, h3, h4, h5, h6⟩ := gen inc hi ⟨t, fun _ => 0, 0⟩
  refine ⟨h1, ?_, h4, h5, h6⟩
  rw [localBlocked, h3]; simp

/-! ### The block starts -/

theorem partialSums_getD (l : List Nat) (i : Nat) (hi : i < l.length) :
    (partialSums l).getD i 0 = (l.take (i + 1)).sum := by
  induction l generalizing i with
  | nil => simp at hi
  | cons a l ih =>
    cases i with
    | zero => simp [partialSums]
    | succ i =>
      have hlen : (partialSums l).length = l.length := by
        clear ih hi
        induction l with
        | nil => rfl
        | cons b l ih => simp [partialSums, ih]
      simp at hi
      have := ih i hi
      simp only [partialSums, List.getD_eq_getElem?_getD, List.getElem?_cons_succ, List.getElem?_map] at this ⊢
      rw [List.getElem?_eq_getElem (by omega)] at this ⊢
      simp at this ⊢
      omega

theorem globalOffset_getD (m : Mesh) (base : Nat) (v : Nat → Nat) (r : Nat) (hr : r ≤ m.ranks) :
    (globalOffset m base v).getD r 0 = base + ((List.range r).map v).sum := by
  rw [globalOffset, partialSums_getD _ _ (by simp; omega)]
  rw [List.take_succ_cons, List.sum_cons, ← List.map_take, List.take_range, Nat.min_eq_left hr]

theorem smap_find_add (s : SMap Nat) (g i : Nat) :
    SMap.find (s.map fun (i, v) => (i, v + g)) i = (s.find i).map (· + g) := by
  induction s with
  | nil => rfl
  | cons p s ih =>
    obtain ⟨a, v⟩ := p
    simp only [List.map_cons, SMap.find]
    split_ifs
    · rfl
    · exact ih

theorem find_setOffset (o : Offsets) (g l n : Nat) (k i) :
    SMap.find ((o.setOffset g l n).maps k) i = ((o.maps k).find i).map (· + g) := by
  unfold Offsets.setOffset
  by_cases h : g = 0
  · simp only [ne_eq, h, not_true, if_false]; simp
  · simp only [ne_eq, h, not_false_iff, if_true]; exact smap_find_add _ _ _

/-- The block of an unknown after the construction. -/
def IsBlock (t : Table) (u G L N : Nat) : Prop :=
  (t u).blockStart = G ∧ (t u).localOffset = L ∧ (t u).number = N

theorem processorLoop_spec (c : Nat → Nat) (G : Nat) : ∀ (l : List Nat), l.Nodup → ∀ lo t,
    (∀ u ∈ l, processorLoop c G l lo t u = (t u).setOffset (G + (lo + prefixOffset c l u)) (lo + prefixOffset c l u) (c u)) ∧
    (∀ u, u ∉ l → processorLoop c G l lo t u = t u) := by
  intro l
  induction l with
  | nil => intro _ lo t; simp [processorLoop]
  | cons a l ih =>
    intro hl lo t
    obtain ⟨ha, hl⟩ := List.nodup_cons.1 hl
    obtain ⟨h1, h2⟩ := ih hl (lo + c a) (update t a ((t a).setOffset (G + lo) lo (c a)))
    constructor
    · intro u hu
      by_cases h : u = a
      · subst h; rw [processorLoop, h2 u ha]; simp [prefixOffset]
      · rw [processorLoop, h1 u ((List.mem_cons.1 hu).resolve_left h)]
        simp [Function.update_of_ne h, prefixOffset, h, Nat.add_assoc]
    · intro u hu
      simp only [List.mem_cons, not_or] at hu
      rw [processorLoop, h2 u hu.2, Function.update_of_ne hu.1]

theorem globalLoop_spec (m : Mesh) (c : Nat → Nat → Nat) (p : Nat) (hp : p < m.ranks) : ∀ (l : List Nat),
    l.Nodup → ∀ b lo t n,
    (∀ u ∈ l, (globalLoop m c p l b lo t n).1 u = (t u).setOffset
      (b + prefixOffset (fun u => ((List.range m.ranks).map fun q => c q u).sum) l u + ((List.range p).map fun q => c q u).sum)
      (lo + prefixOffset (c p) l u) (c p u)) ∧
    (∀ u, u ∉ l → (globalLoop m c p l b lo t n).1 u = t u) ∧
    (globalLoop m c p l b lo t n).2 = if l = [] then n else b + (l.map fun u => ((List.range m.ranks).map fun q => c q u).sum).sum := by
  intro l
  induction l with
  | nil => intro _ b lo t n; simp [globalLoop]
  | cons a l ih =>
    intro hl b lo t n
    obtain ⟨ha, hl⟩ := List.nodup_cons.1 hl
    have e1 := globalOffset_getD m b (fun q => c q a) m.ranks (Nat.le_refl _)
    have e2 := globalOffset_getD m b (fun q => c q a) p (Nat.le_of_lt hp)
    simp only [globalLoop, e1, e2]
    obtain ⟨h1, h2, h3⟩ := ih hl (b + ((List.range m.ranks).map fun q => c q a).sum) (lo + c p a)
      (update t a ((t a).setOffset (b + ((List.range p).map fun q => c q a).sum) lo (c p a)))
      (b + ((List.range m.ranks).map fun q => c q a).sum)
    refine ⟨?_, ?_, ?_⟩
    · intro u hu
      by_cases h : u = a
      · subst h; rw [h2 u ha]; simp [prefixOffset]
      · rw [h1 u ((List.mem_cons.1 hu).resolve_left h)]
        simp [Function.update_of_ne h, prefixOffset, h, Nat.add_assoc]
    · intro u hu
      simp only [List.mem_cons, not_or] at hu
      rw [h2 u hu.2, Function.update_of_ne hu.1]
    · rw [h3]
      by_cases hn : l = []
      · subst hn; simp
      · simp [hn, Nat.add_assoc]

end Verif.GlobalIndexing
