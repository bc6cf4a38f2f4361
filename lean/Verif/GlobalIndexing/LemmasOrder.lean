import Verif.GlobalIndexing.LemmasFinal

set_option linter.all false
namespace Verif.GlobalIndexing
variable {layout : Layout} {m : Mesh} {inc : List Nat} {S : Nat → State}

theorem prefix_sorted_order (e : Nat → Nat) (l : List Nat) (hn : l.Nodup) (hs : l.Pairwise (· ≤ ·)) (u u' : Nat)
    (hu : u ∈ l) (hu' : u' ∈ l) (h : u < u') : prefixOffset e l u + e u ≤ prefixOffset e l u' := by
  induction l with
  | nil => simp at hu
  | cons a l ih =>
    obtain ⟨h1, h2⟩ := List.pairwise_cons.1 hs
    obtain ⟨n1, n2⟩ := List.nodup_cons.1 hn
    simp only [prefixOffset]
    by_cases e1 : a = u
    · subst e1
      have : u' ≠ a := by omega
      simp [this]
    · have m1 : u ∈ l := by
        rcases List.mem_cons.1 hu with h | h
        · exact absurd h.symm e1
        · exact h
      have : a ≠ u' := by
        rintro rfl
        have := h1 u m1; omega
      have m2 : u' ∈ l := by
        rcases List.mem_cons.1 hu' with h | h
        · exact absurd h.symm this
        · exact h
      have := ih n2 h2 m1 m2
      simp [e1, this]
      split_ifs <;> omega

theorem in_block (hu : u ∈ inc) (p : Nat) (o : Obj) (ho : m.Owns p o) (i : Nat) (hi : i < m.count o u) :
    prefixOffset (sz m) ((ownedObjs m p).map fun o => (o, u)) (o, u) + i < cnt m p u := by
  have := prefixOffset_lt_sum (sz m) ((ownedObjs m p).map fun o => (o, u)) (o, u)
    (by simpa [mem_ownedObjs] using ho)
  rw [sum_objs] at this
  simp only [sz] at this ⊢
  omega

theorem blocked_order (h1 : inc.Nodup) (h2 : inc.Pairwise (· ≤ ·)) (h3 : ∀ u ∈ inc, u < m.unknowns)
    (h5 : ∀ p < m.ranks, ResetSpec .blockedGlobal m inc p (S p)) (p q : Nat) (hp : p < m.ranks) (hq : q < m.ranks)
    (d d' : Dof) (hd : d ∈ m.dofs inc p) (hd' : d' ∈ m.dofs inc q) (hu : d.unknown < d'.unknown) :
    (S p).global d < (S q).global d' := by
  rw [(h5 p hp).global_dof h3 hp d hd, (h5 q hq).global_dof h3 hq d' hd', ← global_eq _ _ _ _ _ _ hp hd.1 hd.2.1,
    ← global_eq _ _ _ _ _ _ hq hd'.1 hd'.2.1]
  have b := in_block hd.2.1 p d.obj hd.1 d.index hd.2.2
  have o := prefix_sorted_order (fun u => ((List.range m.ranks).map fun q => cnt m q u).sum) inc h1 h2 _ _
    hd.2.1 hd'.2.1 hu
  have l := prefixOffset_lt_sum (fun q => cnt m q d.unknown) (List.range m.ranks) p (by simpa using hp)
  rw [prefixOffset_range _ _ _ (Nat.le_of_lt hp)] at l
  simp only [start, blockList] at *
  omega

theorem blocked_order' {p : Nat} {s : State} (h1 : inc.Nodup) (h2 : inc.Pairwise (· ≤ ·)) (h3 : ∀ u ∈ inc, u < m.unknowns)
    (h5 : ResetSpec .blockedProcessor m inc p s) (hp : p < m.ranks)
    (d d' : Dof) (hd : d ∈ m.dofs inc p) (hd' : d' ∈ m.dofs inc p) (hu : d.unknown < d'.unknown) :
    s.global d < s.global d' := by
  rw [h5.global_dof h3 hp d hd, h5.global_dof h3 hp d' hd', ← global_eq _ _ _ _ _ _ hp hd.1 hd.2.1,
    ← global_eq _ _ _ _ _ _ hp hd'.1 hd'.2.1]
  have b := in_block hd.2.1 p d.obj hd.1 d.index hd.2.2
  have o := prefix_sorted_order (cnt m p) inc h1 h2 _ _ hd.2.1 hd'.2.1 hu
  simp only [start, blockList] at *
  omega

theorem seq_range {p : Nat} {s : State} (h3 : ∀ u ∈ inc, u < m.unknowns)
    (h5 : ResetSpec .sequential m inc p s) (hp : p < m.ranks) (d : Dof) (hd : d ∈ m.dofs inc p) :
    ((List.range p).map (locN m inc)).sum + prefixOffset (fun o => ((inc.map fun u => (o, u)).map (sz m)).sum) (ownedObjs m p) d.obj ≤ s.global d ∧
    s.global d < ((List.range p).map (locN m inc)).sum + (prefixOffset (fun o => ((inc.map fun u => (o, u)).map (sz m)).sum) (ownedObjs m p) d.obj +
      ((inc.map fun u => (d.obj, u)).map (sz m)).sum) := by
  rw [h5.global_dof h3 hp d hd, ← global_eq _ _ _ _ _ _ hp hd.1 hd.2.1]
  simp only [start, blockList, pairsU]
  rw [prefixOffset_flatMap (sz m) (ownedObjs m p) (fun o => inc.map fun u => (o, u)) d.obj (d.obj, d.unknown)
    ((mem_ownedObjs ..).2 hd.1) (by simpa using hd.2.1) (by intro b _ hb; simp at hb; exact hb.2)]
  have := prefixOffset_lt_sum (sz m) (inc.map fun u => (d.obj, u)) (d.obj, d.unknown) (by simpa using hd.2.1)
  have hi := hd.2.2
  simp only [sz] at this ⊢
  omega

theorem seq_consecutive {p : Nat} {s : State} (h1 : inc.Nodup) (h3 : ∀ u ∈ inc, u < m.unknowns)
    (h5 : ResetSpec .sequential m inc p s) (hp : p < m.ranks)
    (d d' d'' : Dof) (hd : d ∈ m.dofs inc p) (hd' : d' ∈ m.dofs inc p) (hd'' : d'' ∈ m.dofs inc p)
    (ho : d.obj = d''.obj) (hb : s.global d < s.global d') (hb' : s.global d' < s.global d'') :
    d'.obj = d.obj := by
  by_contra hne
  have r := seq_range h3 h5 hp d hd
  have r' := seq_range h3 h5 hp d' hd'
  have r'' := seq_range h3 h5 hp d'' hd''
  rw [← ho] at r''
  rcases prefixOffset_order (ownedObjs m p) d'.obj d.obj ((mem_ownedObjs ..).2 hd'.1) ((mem_ownedObjs ..).2 hd.1) hne with o | o
  · have := o (fun o => ((inc.map fun u => (o, u)).map (sz m)).sum)
    omega
  · have := o (fun o => ((inc.map fun u => (o, u)).map (sz m)).sum)
    omega

theorem range'_eq (b n : Nat) : List.range' b n = (List.range n).map fun i => b + i := by
  rw [List.range'_eq_map_range]

theorem element_indices_aux (hm : m.Valid) (hg : m.Ghosts) (h1 : inc.Nodup) (h2 : inc.Pairwise (· ≤ ·))
    (h3 : ∀ u ∈ inc, u < m.unknowns) {req : List Nat} (h4 : ∀ u, u ∈ inc ↔ u ∈ req) (hn : req.Nodup)
    (h5 : ∀ p < m.ranks, ResetSpec layout m inc p (S p)) {strict c} (hr : Reachable m strict S c) (p : Nat)
    (hp : p < m.ranks) (hd : (c.rank p).pc = .done) (e : Nat) (he : m.Has p e) :
    ∃ l, (c.rank p).st.getGlobalIndices m e = some l ∧ l.Nodup ∧
      l = (req.mergeSort (· ≤ ·)).flatMap fun u => (objects m e).flatMap fun o =>
        (List.range (m.count o u)).map fun i => (c.rank p).st.global ⟨o, u, i⟩ := by
  obtain ⟨K, hf⟩ := (reachable_inv hm hg h3 h5 hr).final p hp hd
  have hk := hf.knows p hp
  have hK := hf.complete hg p hp e he
  have hsort : req.mergeSort (· ≤ ·) = inc := by
    have hp : (req.mergeSort (fun a b => decide (a ≤ b))).Perm inc := by
      rw [List.perm_ext_iff_of_nodup (((List.mergeSort_perm req _).nodup_iff).2 hn) h1]
      intro a; rw [h4, List.mem_mergeSort]
    refine hp.eq_of_pairwise (le := (· ≤ ·)) (fun a b _ _ h1 h2 => Nat.le_antisymm h1 h2) ?_ h2
    have := List.pairwise_mergeSort (le := fun a b : Nat => decide (a ≤ b)) (by simp; omega) (by simp; omega) req
    simpa using this
  have hfil : (List.range (c.rank p).st.unknowns).filter (fun u => ((c.rank p).st.table u).included) = inc := by
    rw [hk.unknowns]
    have : (fun u => ((c.rank p).st.table u).included) = fun u => decide (u ∈ inc) := by
      funext u
      rw [(hk.same u).2.2.2, (h5 p hp).flag]
    rw [this]
    exact filter_range_inc h1 h2 h3
  have hget : ∀ o ∈ objects m e, ∀ u ∈ inc, (c.rank p).st.getGlobalIndex o u = some (ownerValue m S o u) :=
    fun o ho u hu => (hk.get h3 o u hu).1 (hK o ho)
  refine ⟨_, ?_, ?_, rfl⟩
  · unfold State.getGlobalIndices
    rw [hfil, hsort]
    rw [mapM_some _ (fun u => (objects m e).flatMap fun o => (List.range (m.count o u)).map fun i => (c.rank p).st.global ⟨o, u, i⟩) inc]
    · simp [List.flatMap]
    · intro u hu
      rw [mapM_some _ (fun o => (List.range (m.count o u)).map fun i => (c.rank p).st.global ⟨o, u, i⟩) (objects m e)]
      · simp [List.flatMap]
      · intro o ho
        simp [hget o ho u hu, range'_eq, State.global]
  · rw [hsort]
    -- the element is owned by some rank
    have hown : ∃ q, q < m.ranks ∧ e ∈ m.owned q := by
      rcases he with he | ⟨q, hq, hpush⟩
      · exact ⟨p, hp, he⟩
      · exact ⟨q, hq, hg.push_owned q hq p e hpush⟩
    obtain ⟨q, hq, heq⟩ := hown
    have hbij := bijGlobal (layout := layout) hm h1 h3 S h5
    -- a list of basis functions
    have hlist : (inc.flatMap fun u => (objects m e).flatMap fun o =>
        (List.range (m.count o u)).map fun i => (c.rank p).st.global ⟨o, u, i⟩) =
        (inc.flatMap fun u => (objects m e).flatMap fun o =>
          (List.range (m.count o u)).map fun i => (⟨o, u, i⟩ : Dof)).map (c.rank p).st.global := by
      simp [List.map_flatMap, Function.comp_def]
    rw [hlist]
    apply List.Nodup.map_on
    · intro d hd d' hd' heq'
      simp only [List.mem_flatMap, List.mem_map, List.mem_range] at hd hd'
      obtain ⟨u, hu, o, ho, i, hi, rfl⟩ := hd
      obtain ⟨u', hu', o', ho', i', hi', rfl⟩ := hd'
      obtain ⟨a, ha, hao⟩ := hf.known p hp o (hK o ho)
      obtain ⟨a', ha', hao'⟩ := hf.known p hp o' (hK o' ho')
      have g : ∀ a o u i, a < m.ranks → m.Owns a o → u ∈ inc → o ∈ objects m e →
          (c.rank p).st.global ⟨o, u, i⟩ = (S a).global ⟨o, u, i⟩ := by
        intro a o u i ha hao hu ho
        unfold State.global
        simp only
        rw [hget o ho u hu]
        unfold State.getGlobalIndex
        rw [if_pos ⟨by rw [(h5 a ha).unknowns]; exact h3 u hu, by rw [(h5 a ha).flag]; simpa using hu⟩,
          ownerValue_eq hm h5 a ha o hao u hu]
      rw [g a o u i ha hao hu ho, g a' o' u' i' ha' hao' hu' ho'] at heq'
      have := hbij.2.1 (x₁ := (a, ⟨o, u, i⟩)) ⟨ha, hao, hu, hi⟩ (x₂ := (a', ⟨o', u', i'⟩)) ⟨ha', hao', hu', hi'⟩ heq'
      exact (Prod.mk.inj this).2
    · rw [List.nodup_flatMap]
      refine ⟨fun u _ => ?_, h1.imp ?_⟩
      · rw [List.nodup_flatMap]
        refine ⟨fun o _ => List.nodup_range.map (fun a b h => by simpa using h), (objects_nodup hm q hq e heq).imp ?_⟩
        intro a b hab x hx hy
        simp only [List.mem_map] at hx hy
        obtain ⟨_, _, rfl⟩ := hx
        obtain ⟨_, _, h⟩ := hy
        simp at h; exact hab h.1.symm
      · intro a b hab x hx hy
        simp only [List.mem_flatMap, List.mem_map] at hx hy
        obtain ⟨_, _, _, _, rfl⟩ := hx
        obtain ⟨_, _, _, _, h⟩ := hy
        simp at h; exact hab h.2.1.symm

end Verif.GlobalIndexing
