import Verif.GlobalIndexing.Lemmas

set_option linter.all false
namespace Verif.GlobalIndexing
open Function (update)

/-- Size of an item. -/
def sz (m : Mesh) (x : Obj × Nat) : Nat := m.count x.1 x.2

def blockList (layout : Layout) (m : Mesh) (inc : List Nat) (p u : Nat) : List (Obj × Nat) :=
  match layout with
  | .sequential => pairsU m inc p
  | _ => (ownedObjs m p).map fun o => (o, u)

def locN (m : Mesh) (inc : List Nat) (p : Nat) : Nat := (inc.map (cnt m p)).sum

def start (layout : Layout) (m : Mesh) (inc : List Nat) (p u : Nat) : Nat :=
  match layout with
  | .sequential => ((List.range p).map (locN m inc)).sum
  | .blockedProcessor => ((List.range p).map (locN m inc)).sum + prefixOffset (cnt m p) inc u
  | .blockedGlobal => prefixOffset (fun u => ((List.range m.ranks).map fun q => cnt m q u).sum) inc u +
      ((List.range p).map fun q => cnt m q u).sum

def lstart (layout : Layout) (m : Mesh) (inc : List Nat) (p u : Nat) : Nat :=
  match layout with
  | .sequential => 0
  | _ => prefixOffset (cnt m p) inc u

theorem sum_sum_comm {α β : Type} (f : α → β → Nat) (l : List α) (l' : List β) :
    (l.map fun a => (l'.map fun b => f a b).sum).sum = (l'.map fun b => (l.map fun a => f a b).sum).sum := by
  induction l with
  | nil => simp
  | cons a l ih =>
    simp only [List.map_cons, List.sum_cons, ih]
    clear ih
    induction l' with
    | nil => rfl
    | cons b l' ih' => simp only [List.map_cons, List.sum_cons, ← ih']; omega

theorem sum_pairsU (m : Mesh) (inc p) : ((pairsU m inc p).map (sz m)).sum = locN m inc p := by
  unfold pairsU locN cnt
  rw [sum_flatMap]
  simp only [List.map_map, Function.comp_def, sz]
  exact sum_sum_comm (fun o u => m.count o u) _ _

theorem sum_objs (m : Mesh) (p u) : (((ownedObjs m p).map fun o => (o, u)).map (sz m)).sum = cnt m p u := by
  simp [cnt, sz, Function.comp_def]

theorem localUnblocked_index (m : Mesh) (inc t p) : (localUnblocked m inc t p).index = locN m inc p := by
  rw [localUnblocked_eq, run_index, ← sum_pairsU]; simp [sz]; rfl

structure ResetSpec (layout : Layout) (m : Mesh) (inc : List Nat) (p : Nat) (s : State) : Prop where
  unknowns : s.unknowns = m.unknowns
  included : s.included = inc
  localNumber : s.localNumber = locN m inc p
  globalNumber : s.globalNumber = ((List.range m.ranks).map (locN m inc)).sum
  flag : ∀ u, (s.table u).included = decide (u ∈ inc)
  block : ∀ u ∈ inc, (s.table u).blockStart = start layout m inc p u ∧
    (s.table u).localOffset = lstart layout m inc p u ∧
    (s.table u).number = ((blockList layout m inc p u).map (sz m)).sum
  find : ∀ u ∈ inc, ∀ o, m.Owns p o → s.table.find o u =
    some (start layout m inc p u + prefixOffset (sz m) (blockList layout m inc p u) (o, u))
  none : ∀ u o, ¬ (m.Owns p o ∧ u ∈ inc) → s.table.find o u = none

theorem find_table_setOffset (t : Table) (t' : Table) (o u g l n) (h : t' u = (t u).setOffset g l n) :
    t'.find o u = (t.find o u).map (· + g) := by
  simp only [Table.find, h]; exact find_setOffset _ _ _ _ _ _

theorem unblocked_spec (m : Mesh) (hm : m.Valid) (inc : List Nat) (hi : inc.Nodup)
    (hlt : ∀ u ∈ inc, u < m.unknowns) (p : Nat) (hp : p < m.ranks) :
    ResetSpec .sequential m inc p (constructUnblocked m inc (fun u => { included := u ∈ inc }) p) := by
  have hidx : (localUnblocked m inc (fun u => { included := u ∈ inc }) p).index = locN m inc p :=
    localUnblocked_index _ _ _ _
  have hsame : ∀ u, SameBlock ((localUnblocked m inc (fun u => { included := u ∈ inc }) p).table u)
      { included := u ∈ inc } := by
    intro u; rw [localUnblocked_eq]; exact run_same m _ _ u
  have hfind : ∀ o u, (localUnblocked m inc (fun u => { included := u ∈ inc }) p).table.find o u =
      if (o, u) ∈ pairsU m inc p then some (prefixOffset (sz m) (pairsU m inc p) (o, u)) else none := by
    intro o u
    rw [localUnblocked_eq, run_find m _ (pairsU_nodup m hm inc hi p hp)]
    simp only [Nat.zero_add]
    rfl
  have hg : ∀ r ≤ m.ranks, (globalOffset m 0 fun q => (localUnblocked m inc (fun u => { included := u ∈ inc }) q).index).getD r 0
      = ((List.range r).map (locN m inc)).sum := by
    intro r hr
    rw [globalOffset_getD _ _ _ _ hr]
    simp only [localUnblocked_index, Nat.zero_add]
  generalize hS : localUnblocked m inc (fun u => { included := u ∈ inc }) p = S at *
  have htab : ∀ u ∈ inc, (constructUnblocked m inc (fun u => { included := u ∈ inc }) p).table u =
      (S.table u).setOffset ((List.range p).map (locN m inc)).sum 0 S.index := by
    intro u hu
    simp only [constructUnblocked, hS]
    rw [if_pos ⟨hlt u hu, by rw [(hsame u).2.2.2]; simpa using hu⟩, hg p (Nat.le_of_lt hp)]
  have htab' : ∀ u, u ∉ inc → (constructUnblocked m inc (fun u => { included := u ∈ inc }) p).table u = S.table u := by
    intro u hu
    simp only [constructUnblocked, hS]
    rw [if_neg]
    rintro ⟨_, h⟩
    rw [(hsame u).2.2.2] at h
    exact hu (by simpa using h)
  refine ⟨rfl, rfl, ?_, ?_, ?_, ?_, ?_, ?_⟩
  · simp only [constructUnblocked, hS]; exact hidx
  · simp only [constructUnblocked]; exact hg _ (Nat.le_refl _)
  · intro u
    by_cases hu : u ∈ inc
    · rw [htab u hu]; simp only [Offsets.setOffset, (hsame u).2.2.2]
    · rw [htab' u hu, (hsame u).2.2.2]
  · intro u hu
    rw [htab u hu]
    simp only [Offsets.setOffset, start, lstart, blockList, hidx, sum_pairsU]
    simp
  · intro u hu o ho
    rw [find_table_setOffset S.table _ o u _ _ _ (htab u hu), hfind, if_pos ((mem_pairsU ..).2 ⟨ho, hu⟩)]
    simp only [Option.map_some, start, blockList, Nat.add_comm]
  · intro u o hn
    have h0 : S.table.find o u = none := by rw [hfind, if_neg (by rw [mem_pairsU]; exact hn)]
    by_cases hu : u ∈ inc
    · rw [find_table_setOffset S.table _ o u _ _ _ (htab u hu), h0]; rfl
    · unfold Table.find at h0 ⊢
      rw [htab' u hu]; exact h0

theorem prefix_objs (m : Mesh) (p u o) :
    prefixOffset (sz m) ((ownedObjs m p).map fun o => (o, u)) (o, u) =
      prefixOffset (fun o => m.count o u) (ownedObjs m p) o :=
  prefixOffset_map (sz m) (ownedObjs m p) (fun o => (o, u)) (fun a b h => by simpa using h) o

theorem blocked_spec (m : Mesh) (hm : m.Valid) (inc : List Nat) (hi : inc.Nodup)
    (p : Nat) (hp : p < m.ranks) (old : Nat) (g : Bool) (hold : inc = [] → old = 0) :
    ResetSpec (if g then .blockedGlobal else .blockedProcessor) m inc p
      (constructBlocked m inc (fun u => { included := u ∈ inc }) g p old) := by
  obtain ⟨h1, h2, h3, h4, h5⟩ := localBlocked_spec m hm inc hi (fun u => { included := u ∈ inc }) p hp
  have hc : ∀ q < m.ranks, ∀ u ∈ inc,
      (localBlocked m inc (fun u => { included := u ∈ inc }) q).numberOfBasisFunctions u = cnt m q u :=
    fun q hq => (localBlocked_spec m hm inc hi (fun u => { included := u ∈ inc }) q hq).1
  have hl : ∀ q < m.ranks, (localBlocked m inc (fun u => { included := u ∈ inc }) q).localNumber = locN m inc q :=
    fun q hq => (localBlocked_spec m hm inc hi (fun u => { included := u ∈ inc }) q hq).2.1
  have hsum : ∀ r ≤ m.ranks, ∀ u ∈ inc, ((List.range r).map fun q =>
      (localBlocked m inc (fun u => { included := u ∈ inc }) q).numberOfBasisFunctions u).sum =
      ((List.range r).map fun q => cnt m q u).sum := by
    intro r hr u hu
    congr 1
    apply List.map_congr_left
    intro q hq
    exact hc q (by simp at hq; omega) u hu
  cases g with
  | true =>
    obtain ⟨k1, k2, k3⟩ := globalLoop_spec m
      (fun q => (localBlocked m inc (fun u => { included := u ∈ inc }) q).numberOfBasisFunctions) p hp inc hi 0 0
      (localBlocked m inc (fun u => { included := u ∈ inc }) p).table old
    have pe : ∀ u, prefixOffset (localBlocked m inc (fun u => { included := u ∈ inc }) p).numberOfBasisFunctions inc u =
        prefixOffset (cnt m p) inc u := fun u => prefixOffset_congr _ _ _ h1 u
    have pe2 : ∀ u, prefixOffset (fun u => ((List.range m.ranks).map fun q =>
      (localBlocked m inc (fun u => { included := u ∈ inc }) q).numberOfBasisFunctions u).sum) inc u =
        prefixOffset (fun u => ((List.range m.ranks).map fun q => cnt m q u).sum) inc u :=
      fun u => prefixOffset_congr _ _ _ (fun u hu => hsum _ (Nat.le_refl _) u hu) u
    refine ⟨rfl, rfl, h2, ?_, ?_, ?_, ?_, ?_⟩
    · simp only [constructBlocked, if_true, k3]
      have e : (inc.map fun u => ((List.range m.ranks).map fun q =>
          (localBlocked m inc (fun u => { included := u ∈ inc }) q).numberOfBasisFunctions u).sum).sum =
          ((List.range m.ranks).map (locN m inc)).sum := by
        unfold locN
        rw [sum_sum_comm (fun q u => cnt m q u)]
        congr 1
        exact List.map_congr_left fun u hu => hsum _ (Nat.le_refl _) u hu
      rw [e]
      split_ifs with hh
      · rw [hold hh, hh]; unfold locN; clear * -; induction m.ranks with
        | zero => rfl
        | succ n ih => rw [List.range_succ, List.map_append, List.sum_append, ← ih]; rfl
      · omega
    · intro u
      simp only [constructBlocked, if_true]
      by_cases hu : u ∈ inc
      · rw [k1 u hu]; simp only [Offsets.setOffset]; rw [(h3 u).2.2.2]
      · rw [k2 u hu, (h3 u).2.2.2]
    · intro u hu
      simp only [constructBlocked, if_true]
      rw [k1 u hu]
      simp only [Offsets.setOffset, start, lstart, blockList, sum_objs, pe, pe2, h1 u hu, hsum p (Nat.le_of_lt hp) u hu]
      simp
    · intro u hu o ho
      simp only [constructBlocked, if_true]
      rw [find_table_setOffset _ _ o u _ _ _ (k1 u hu), h4 o u ho hu]
      simp only [start, blockList, pe2, hsum p (Nat.le_of_lt hp) u hu, prefix_objs]
      simp; omega
    · intro u o hn
      have h0 := h5 o u hn
      have h0' : (localBlocked m inc (fun u => { included := u ∈ inc }) p).table.find o u = none := by
        rw [h0]; rfl
      simp only [constructBlocked, if_true]
      by_cases hu : u ∈ inc
      · rw [find_table_setOffset _ _ o u _ _ _ (k1 u hu), h0']; rfl
      · unfold Table.find at h0' ⊢
        rw [k2 u hu]; exact h0'
  | false =>
    obtain ⟨k1, k2⟩ := processorLoop_spec
      (localBlocked m inc (fun u => { included := u ∈ inc }) p).numberOfBasisFunctions
      ((globalOffset m 0 fun q => (localBlocked m inc (fun u => { included := u ∈ inc }) q).localNumber).getD p 0)
      inc hi 0 (localBlocked m inc (fun u => { included := u ∈ inc }) p).table
    have pe : ∀ u, prefixOffset (localBlocked m inc (fun u => { included := u ∈ inc }) p).numberOfBasisFunctions inc u =
        prefixOffset (cnt m p) inc u := fun u => prefixOffset_congr _ _ _ h1 u
    have hg : ∀ r ≤ m.ranks, (globalOffset m 0 fun q =>
        (localBlocked m inc (fun u => { included := u ∈ inc }) q).localNumber).getD r 0 =
        ((List.range r).map (locN m inc)).sum := by
      intro r hr
      rw [globalOffset_getD _ _ _ _ hr, Nat.zero_add]
      congr 1
      exact List.map_congr_left fun q hq => hl q (by simp at hq; omega)
    rw [hg p (Nat.le_of_lt hp)] at k1 k2
    have hgp := hg p (Nat.le_of_lt hp)
    refine ⟨rfl, rfl, h2, ?_, ?_, ?_, ?_, ?_⟩
    · exact hg _ (Nat.le_refl _)
    · intro u
      simp only [constructBlocked, hgp]
      by_cases hu : u ∈ inc
      · simp only [Bool.false_eq_true, if_false]; rw [k1 u hu]; simp only [Offsets.setOffset]; rw [(h3 u).2.2.2]
      · simp only [Bool.false_eq_true, if_false]; rw [k2 u hu, (h3 u).2.2.2]
    · intro u hu
      simp only [constructBlocked, hgp, Bool.false_eq_true, if_false]
      rw [k1 u hu]
      simp only [Offsets.setOffset, start, lstart, blockList, sum_objs, pe, h1 u hu]
      simp
    · intro u hu o ho
      simp only [constructBlocked, hgp, Bool.false_eq_true, if_false]
      rw [find_table_setOffset _ _ o u _ _ _ (k1 u hu), h4 o u ho hu]
      simp only [start, blockList, prefix_objs, pe]
      simp; omega
    · intro u o hn
      have h0 := h5 o u hn
      have h0' : (localBlocked m inc (fun u => { included := u ∈ inc }) p).table.find o u = none := by
        rw [h0]; rfl
      simp only [constructBlocked, hgp, Bool.false_eq_true, if_false]
      by_cases hu : u ∈ inc
      · rw [find_table_setOffset _ _ o u _ _ _ (k1 u hu), h0']; rfl
      · unfold Table.find at h0' ⊢
        rw [k2 u hu]; exact h0'

end Verif.GlobalIndexing
