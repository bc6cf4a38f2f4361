import Verif.Assembly.LemmasSum
import Verif.Assembly.Example

/-! # Time integration vectors in the global vector -/
namespace Verif.Assembly
open GlobalIndexing

private theorem foldl_update {α : Type} (l : List (Nat × α)) (b : Nat → α) (i : Nat) (a : α)
    (h : ∀ x ∈ l, x.1 = i → x.2 = a) (hi : b i = a ∨ ∃ x ∈ l, x.1 = i) :
    l.foldl (fun b (x : Nat × α) => Function.update b x.1 x.2) b i = a := by
  induction l generalizing b with
  | nil => simpa using hi
  | cons x l ih =>
    rw [List.foldl_cons]
    refine ih _ (fun y hy => h y (List.mem_cons_of_mem _ hy)) ?_
    by_cases hx : x.1 = i
    · left; rw [hx, Function.update_self]; exact h x List.mem_cons_self hx
    · rcases hi with hi | ⟨y, hy, hyi⟩
      · left; rw [Function.update_of_ne (Ne.symm hx)]; exact hi
      · rcases List.mem_cons.1 hy with rfl | hy
        · exact absurd hyi hx
        · right; exact ⟨y, hy, hyi⟩

private theorem foldl_insert {α : Type} (l : List (VCall α)) (b : Nat → α) :
    l.foldl VCall.insert b =
      (l.flatMap fun c => c.rows.zip c.data).foldl (fun b (x : Nat × α) => Function.update b x.1 x.2) b := by
  rw [List.foldl_flatMap]; rfl

section
variable {α : Type} [Zero α] (m : Mesh) (hm : m.Valid) (hg : m.Ghosts) (h0 : 0 < m.unknowns) (P : Parts)
  (hL : Layer m P) (layout : Layout) (s : Nat → State)
include hm hg h0

/-- C61. Suppose the time integration vectors of the elements give each basis function `d` one coefficient `x d`. Then
the construction of the global vector succeeds on all ranks, and in whatever order the values of the ranks arrive the
global vector has the coefficient `x d` at the global index of `d`. -/
theorem construct_vector (unk : Option (List Nat)) (hI : Indexing m layout unk s) (v : Nat → List α) (x : Dof → α)
    (hv : ∀ e ∈ elements m, v e = (localDofs m unk e).map x) :
    ∃ calls : Nat → List (VCall α), (∀ p < m.ranks, constructCalls m v (s p) p = some (calls p)) ∧
      ∀ all, all.Perm ((List.range m.ranks).flatMap calls) → ∀ p < m.ranks, ∀ d ∈ m.dofs (requested m unk) p,
        constructed all ((s p).global d) = x d := by
  obtain ⟨g, F⟩ := hI.facts hm hg h0
  refine ⟨fun p => (m.owned p).map fun e => ⟨(localDofs m unk e).map g, (localDofs m unk e).map x⟩, fun p hp => ?_,
    fun all hall p hp d hd => ?_⟩
  · refine mapM_some _ _ _ fun e he => ?_
    rw [F.indices p hp e (.inl he), hv e (mem_elements.2 ⟨p, hp, he⟩)]
    simp [List.take_of_length_le]
  · rw [constructed, foldl_insert, F.global p hp d hd]
    refine foldl_update _ _ _ _ ?_ (.inr ?_)
    · intro y hy hyd
      obtain ⟨c, hc, hy⟩ := List.mem_flatMap.1 hy
      obtain ⟨q, hq, hc⟩ := List.mem_flatMap.1 (hall.mem_iff.1 hc)
      obtain ⟨e, he, rfl⟩ := List.mem_map.1 hc
      simp only [List.zip_map', List.mem_map] at hy
      obtain ⟨d', hd', rfl⟩ := hy
      have hq' := List.mem_range.1 hq
      have : d' = d := F.inj d' d (localDofs_all hm hg F hq' (.inl he) hd') ⟨p, hp, hd⟩ hyd
      rw [this]
    · have hobj : ∃ e ∈ m.owned p, d.obj ∈ objects m e := by
        obtain ⟨ho, _, _⟩ := hd
        rcases hdo : d.obj with ⟨k, y⟩
        rw [hdo] at ho
        cases k
        · exact ⟨y, ho, by simp [objects]⟩
        · obtain ⟨e, h1, h2, _⟩ := ho; exact ⟨e, h1, by simp [objects, h2]⟩
        · obtain ⟨e, h1, h2, _⟩ := ho; exact ⟨e, h1, by simp [objects, h2]⟩
        · obtain ⟨hdim, e, h1, h2, _⟩ := ho; exact ⟨e, h1, by simp [objects, h2, hdim]⟩
      obtain ⟨e, he, hoe⟩ := hobj
      refine ⟨(g d, x d), List.mem_flatMap.2 ⟨⟨(localDofs m unk e).map g, (localDofs m unk e).map x⟩,
        hall.mem_iff.2 (List.mem_flatMap.2 ⟨p, List.mem_range.2 hp, List.mem_map.2 ⟨e, he, rfl⟩⟩), ?_⟩, rfl⟩
      simp only [List.zip_map', List.mem_map]
      exact ⟨d, mem_localDofs.2 ⟨hoe, hd.2⟩, rfl⟩

include hL

/-- C61. Writing the global vector back after its construction restores the time integration vectors of all elements of
all ranks, including the elements a rank does not own. All unknowns are included. -/
theorem write_back_restores (hI : Indexing m layout none s) (v : Nat → List α) (x : Dof → α)
    (hv : ∀ e ∈ elements m, v e = (localDofs m none e).map x) :
    ∃ calls : Nat → List (VCall α), (∀ p < m.ranks, constructCalls m v (s p) p = some (calls p)) ∧
      ∀ all, all.Perm ((List.range m.ranks).flatMap calls) → ∀ p < m.ranks,
        writeBack m P (s p) (constructed all) p = some ((P.present p).map fun e => (e, v e)) := by
  obtain ⟨calls, h1, h2⟩ := construct_vector m hm hg h0 layout s none hI v x hv
  refine ⟨calls, h1, fun all hall p hp => ?_⟩
  obtain ⟨g, F⟩ := hI.facts hm hg h0
  have hval : ∀ d, AllDofs m none d → constructed all (g d) = x d := by
    rintro d ⟨q, hq, hd⟩
    rw [← F.global q hq d hd]; exact h2 all hall q hq d hd
  have hord : order m none = List.range m.unknowns := by
    refine ((List.mergeSort_perm _ _).eq_of_pairwise (le := (· ≤ ·)) (fun a b _ _ h1 h2 => Nat.le_antisymm h1 h2) ?_ ?_)
    · have := List.pairwise_mergeSort (le := fun a b : Nat => decide (a ≤ b)) (by simp; omega) (by simp; omega)
        (requested m none)
      simpa [order] using this
    · exact (List.pairwise_lt_range).imp fun h => Nat.le_of_lt h
  unfold writeBack
  refine mapM_some _ _ _ fun e he => ?_
  have hh := (hL.present_iff p hp e).1 he
  have hel : e ∈ elements m := mem_elements.2 (has_owner hm hg hp hh)
  rw [mapM_some _ (fun u => ((objects m e).map fun o => (List.range (m.count o u)).map fun i => x ⟨o, u, i⟩).flatten)]
  · simp only [Option.bind_eq_bind, Option.bind_some, hv e hel, localDofs, hord, List.map_flatMap, List.map_map]
    simp [List.flatMap, Function.comp_def]
  · intro u hu
    rw [mapM_some _ (fun o => (List.range (m.count o u)).map fun i => x ⟨o, u, i⟩)]
    · rfl
    · intro o ho
      rw [F.get p hp e hh o ho u (by simpa [requested] using hu)]
      simp only [Option.bind_eq_bind, Option.bind_some, Option.some.injEq]
      refine List.map_congr_left fun i hi => ?_
      have hd : AllDofs m none ⟨o, u, i⟩ := localDofs_all hm hg F hp hh
        (mem_localDofs.2 ⟨ho, by simpa [requested] using hu, by simpa using hi⟩)
      rw [← hval _ hd, F.start ⟨o, u, i⟩]

omit hm hg h0 in
/-- C61, violated. If some unknown is not included, writing back fails on every rank that has an element. -/
theorem write_back_needs_all (hm : m.Valid) (hg : m.Ghosts) (h0 : 0 < m.unknowns) (unk : Option (List Nat))
    (hI : Indexing m layout unk s) (u : Nat) (hu : u < m.unknowns) (hnot : u ∉ requested m unk) (b : Nat → α) (p : Nat)
    (hp : p < m.ranks) (hne : P.present p ≠ []) : writeBack m P (s p) b p = none := by
  obtain ⟨hn, S, strict, c, hS, hc, hd, hs⟩ := hI
  obtain ⟨inc, h1, h2, h3, h4, h5⟩ := resets_spec hm h0 hn hS (by omega)
  have hnone : ∀ o, (s p).getGlobalIndex o u = none := by
    intro o
    cases h : (s p).getGlobalIndex o u with
    | none => rfl
    | some w =>
      rw [hs p hp] at h
      obtain ⟨q, hq, _, hw⟩ := (exchange_sound m hm h0 layout unk hn S hS hg strict c hc p hp o u).1 w h
      unfold State.getGlobalIndex at hw
      split_ifs at hw with hcond
      have := hcond.2
      rw [(h5 q hq).flag] at this
      exact absurd ((h4 u).1 (by simpa using this)) hnot
  have hfail : ∀ {β γ : Type} (f : β → Option γ) (l : List β) (a : β), a ∈ l → f a = none → l.mapM f = none := by
    intro β γ f l a ha hf
    induction l with
    | nil => simp at ha
    | cons y l ih =>
      rw [List.mapM_cons]
      rcases List.mem_cons.1 ha with rfl | ha
      · rw [hf]; rfl
      · rw [ih ha]; cases f y <;> rfl
  obtain ⟨e, he⟩ := List.exists_mem_of_ne_nil _ hne
  refine hfail _ _ e he ?_
  rw [hfail _ _ u (List.mem_range.2 hu)]
  · rfl
  · rw [hfail _ _ ⟨.element, e⟩ (by simp [objects])]
    · rfl
    · rw [hnone]; rfl

end

/-- Three intervals on three ranks with a basis function on each interval and one on each end point: the coefficients
can be any. -/
example (layout : Layout) (x : Dof → Int) : ∃ s, Indexing row3 layout none s ∧
    ∀ e ∈ elements row3, (localDofs row3 none e).map x =
      [x ⟨⟨.element, e⟩, 0, 0⟩, x ⟨⟨.face, e⟩, 1, 0⟩, x ⟨⟨.face, e + 1⟩, 1, 0⟩] := by
  obtain ⟨s, hs⟩ := exists_indexing row3 row3_valid (by decide) row3_ghosts layout none (by decide) (by simp)
  refine ⟨s, hs, fun e _ => ?_⟩
  have h : order row3 none = [0, 1] := by simp [order, requested, row3, List.range_succ, List.mergeSort, List.merge]
  simp only [localDofs, h]
  simp [objects, row3]

end Verif.Assembly
