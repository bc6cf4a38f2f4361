import Verif.GlobalIndexing.LemmasReset

set_option linter.all false
namespace Verif.GlobalIndexing

/-- The local order. -/
def litems (layout : Layout) (m : Mesh) (inc : List Nat) (p : Nat) : List (Obj × Nat) :=
  match layout with
  | .sequential => pairsU m inc p
  | _ => inc.flatMap fun u => (ownedObjs m p).map fun o => (o, u)

/-- The global order. -/
def items (layout : Layout) (m : Mesh) (inc : List Nat) : List (Nat × Obj × Nat) :=
  match layout with
  | .blockedGlobal => inc.flatMap fun u => (List.range m.ranks).flatMap fun p =>
      (ownedObjs m p).map fun o => (p, o, u)
  | l => (List.range m.ranks).flatMap fun p => (litems l m inc p).map fun x => (p, x)

theorem mem_litems (layout m inc p o u) : (o, u) ∈ litems layout m inc p ↔ m.Owns p o ∧ u ∈ inc := by
  cases layout <;> simp [litems, mem_pairsU, mem_ownedObjs, and_comm]

theorem mem_items (layout m inc p o u) :
    (p, o, u) ∈ items layout m inc ↔ p < m.ranks ∧ m.Owns p o ∧ u ∈ inc := by
  cases layout <;> simp [items, mem_litems, mem_ownedObjs]; tauto

theorem litems_nodup (layout m) (hm : Mesh.Valid m) (inc) (hi : inc.Nodup) (p) (hp : p < m.ranks) :
    (litems layout m inc p).Nodup := by
  have key : (inc.flatMap fun u => (ownedObjs m p).map fun o => (o, u)).Nodup := by
    rw [List.nodup_flatMap]
    refine ⟨fun u _ => mapPair_nodup m hm p u hp, hi.imp ?_⟩
    intro a b hab x hx hy
    simp only [List.mem_map] at hx hy
    obtain ⟨o, _, rfl⟩ := hx
    obtain ⟨o', _, h⟩ := hy
    simp at h; exact hab h.2.symm
  cases layout
  · exact pairsU_nodup m hm inc hi p hp
  · exact key
  · exact key

theorem items_nodup (layout m) (hm : Mesh.Valid m) (inc) (hi : inc.Nodup) : (items layout m inc).Nodup := by
  have key : ∀ layout, ((List.range m.ranks).flatMap fun p => (litems layout m inc p).map fun x => (p, x)).Nodup := by
    intro layout
    rw [List.nodup_flatMap]
    refine ⟨fun p hp => (litems_nodup layout m hm inc hi p (by simpa using hp)).map (fun a b h => by simpa using h),
      List.nodup_range.imp ?_⟩
    intro a b hab x hx hy
    simp only [List.mem_map] at hx hy
    obtain ⟨o, _, rfl⟩ := hx
    obtain ⟨o', _, h⟩ := hy
    simp at h; exact hab h.1.symm
  cases layout
  · exact key _
  · exact key _
  · unfold items
    rw [List.nodup_flatMap]
    refine ⟨fun u _ => ?_, hi.imp ?_⟩
    · rw [List.nodup_flatMap]
      refine ⟨fun p hp => (ownedObjs_nodup m hm p (by simpa using hp)).map (fun a b h => by simpa using h),
        List.nodup_range.imp ?_⟩
      intro a b hab x hx hy
      simp only [List.mem_map] at hx hy
      obtain ⟨o, _, rfl⟩ := hx
      obtain ⟨o', _, h⟩ := hy
      simp at h; exact hab h.1.symm
    · intro a b hab x hx hy
      simp only [List.mem_flatMap, List.mem_map] at hx hy
      obtain ⟨_, _, o, _, rfl⟩ := hx
      obtain ⟨_, _, o', _, h⟩ := hy
      simp at h; exact hab h.2.2.symm

theorem sum_litems (layout m inc p) : ((litems layout m inc p).map (sz m)).sum = locN m inc p := by
  cases layout
  · exact sum_pairsU m inc p
  all_goals
    unfold litems
    rw [sum_flatMap]
    simp only [sum_objs]; rfl

def gsz (m : Mesh) (x : Nat × Obj × Nat) : Nat := sz m x.2

theorem sum_items (layout m inc) : ((items layout m inc).map (gsz m)).sum =
    ((List.range m.ranks).map (locN m inc)).sum := by
  have key : ∀ layout, (((List.range m.ranks).flatMap fun p => (litems layout m inc p).map fun x => (p, x)).map (gsz m)).sum =
      ((List.range m.ranks).map (locN m inc)).sum := by
    intro layout
    rw [sum_flatMap]
    simp only [List.map_map, Function.comp_def, gsz]
    congr 1
    exact List.map_congr_left fun p _ => sum_litems layout m inc p
  cases layout
  · exact key _
  · exact key _
  · unfold items
    simp only [sum_flatMap, List.map_map, Function.comp_def, gsz, sz]
    unfold locN cnt
    rw [sum_sum_comm]

theorem local_eq (layout m inc p o u) (ho : Mesh.Owns m p o) (hu : u ∈ inc) :
    lstart layout m inc p u + prefixOffset (sz m) (blockList layout m inc p u) (o, u) =
      prefixOffset (sz m) (litems layout m inc p) (o, u) := by
  have key : prefixOffset (sz m) (inc.flatMap fun u => (ownedObjs m p).map fun o => (o, u)) (o, u) =
      prefixOffset (cnt m p) inc u + prefixOffset (sz m) ((ownedObjs m p).map fun o => (o, u)) (o, u) := by
    rw [prefixOffset_flatMap (sz m) inc (fun u => (ownedObjs m p).map fun o => (o, u)) u (o, u) hu
      (by simpa [mem_ownedObjs] using ho) (by intro b _ hb; simp at hb; exact hb.2)]
    simp only [sum_objs]
  cases layout
  · simp [lstart, blockList, litems]
  · exact key.symm
  · exact key.symm

theorem global_eq (layout m inc p o u) (hp : p < Mesh.ranks m) (ho : Mesh.Owns m p o) (hu : u ∈ inc) :
    start layout m inc p u + prefixOffset (sz m) (blockList layout m inc p u) (o, u) =
      prefixOffset (gsz m) (items layout m inc) (p, o, u) := by
  have key : ∀ layout, prefixOffset (gsz m) ((List.range m.ranks).flatMap fun p => (litems layout m inc p).map fun x => (p, x)) (p, o, u) =
      ((List.range p).map (locN m inc)).sum + prefixOffset (sz m) (litems layout m inc p) (o, u) := by
    intro layout
    rw [prefixOffset_flatMap (gsz m) (List.range m.ranks) (fun p => (litems layout m inc p).map fun x => (p, x)) p (p, o, u)
      (by simpa using hp) (by simp [mem_litems, ho, hu]) (by intro b _ hb; simp at hb; exact hb.2)]
    congr 1
    · rw [prefixOffset_range _ _ _ (Nat.le_of_lt hp)]
      congr 1
      refine List.map_congr_left fun q _ => ?_
      rw [← sum_litems layout]
      simp [gsz, Function.comp_def]
    · exact prefixOffset_map (gsz m) _ (fun x => (p, x)) (fun a b h => by simpa using h) (o, u)
  cases layout
  · rw [items, key]
    · rfl
    · simp
  · rw [items, key, ← local_eq _ _ _ _ _ _ ho hu]
    · simp [start, lstart, Nat.add_assoc]
    · simp
  · unfold items
    dsimp only
    rw [prefixOffset_flatMap (gsz m) inc (fun u => (List.range m.ranks).flatMap fun p =>
      (ownedObjs m p).map fun o => (p, o, u)) u (p, o, u) hu
      (by simpa [mem_ownedObjs] using ⟨hp, ho⟩) (by intro b _ hb; simp at hb; exact hb.2.2),
      prefixOffset_flatMap (gsz m) (List.range m.ranks) (fun p => (ownedObjs m p).map fun o => (p, o, u)) p (p, o, u)
      (by simpa using hp) (by simpa [mem_ownedObjs] using ho) (by intro b _ hb; simp at hb; exact hb.2)]
    rw [prefixOffset_range _ _ _ (Nat.le_of_lt hp)]
    have e1 : ∀ q u, (((ownedObjs m q).map fun o => (q, o, u)).map (gsz m)).sum = cnt m q u := by
      intro q u; simp [gsz, sz, cnt, Function.comp_def]
    have e2 : prefixOffset (gsz m) ((ownedObjs m p).map fun o => (p, o, u)) (p, o, u) =
        prefixOffset (sz m) ((ownedObjs m p).map fun o => (o, u)) (o, u) := by
      rw [prefix_objs]
      exact prefixOffset_map (gsz m) _ (fun o => (p, o, u)) (fun a b h => by simpa using h) o
    simp only [sum_flatMap, e1, e2, start, blockList]
    omega

theorem blockList_nodup (layout m) (hm : Mesh.Valid m) (inc) (hi : inc.Nodup) (p) (hp : p < m.ranks) (u) :
    (blockList layout m inc p u).Nodup := by
  cases layout
  · exact pairsU_nodup m hm inc hi p hp
  · exact mapPair_nodup m hm p u hp
  · exact mapPair_nodup m hm p u hp

theorem mem_blockList (layout m inc p) (u) (hu : u ∈ inc) (o u') (h : (o, u') ∈ blockList layout m inc p u) :
    Mesh.Owns m p o ∧ u' ∈ inc ∧ start layout m inc p u' = start layout m inc p u ∧
      lstart layout m inc p u' = lstart layout m inc p u ∧
      blockList layout m inc p u' = blockList layout m inc p u := by
  cases layout
  · simp only [blockList, mem_pairsU] at h
    exact ⟨h.1, h.2, rfl, rfl, rfl⟩
  all_goals
    simp [blockList, mem_ownedObjs] at h
    obtain ⟨h, rfl⟩ := h
    exact ⟨h, hu, rfl, rfl, rfl⟩

theorem mem_blockList' (layout m inc p) (u) (hu : u ∈ inc) (o) (ho : Mesh.Owns m p o) :
    (o, u) ∈ blockList layout m inc p u := by
  cases layout
  · simp [blockList, mem_pairsU, ho, hu]
  all_goals simp [blockList, mem_ownedObjs, ho]

section
variable {layout : Layout} {m : Mesh} {inc : List Nat} {p : Nat} {s : State}

theorem ResetSpec.getGlobalIndex (h : ResetSpec layout m inc p s) (hlt : ∀ u ∈ inc, u < m.unknowns)
    (hp : p < m.ranks) (o u) (ho : m.Owns p o) (hu : u ∈ inc) :
    s.getGlobalIndex o u = some (prefixOffset (gsz m) (items layout m inc) (p, o, u)) := by
  unfold State.getGlobalIndex
  rw [if_pos ⟨by rw [h.unknowns]; exact hlt u hu, by rw [h.flag]; simpa using hu⟩, h.find u hu o ho,
    global_eq _ _ _ _ _ _ hp ho hu]

theorem ResetSpec.getLocal (h : ResetSpec layout m inc p s) (hlt : ∀ u ∈ inc, u < m.unknowns)
    (hp : p < m.ranks) (o u) (ho : m.Owns p o) (hu : u ∈ inc) :
    s.getProcessorLocalIndex o u = some (prefixOffset (sz m) (litems layout m inc p) (o, u) : Int) := by
  unfold State.getProcessorLocalIndex
  rw [h.getGlobalIndex hlt hp o u ho hu, ← global_eq _ _ _ _ _ _ hp ho hu, ← local_eq _ _ _ _ _ _ ho hu,
    (h.block u hu).1, (h.block u hu).2.1]
  simp; omega

theorem ResetSpec.global_dof (h : ResetSpec layout m inc p s) (hlt : ∀ u ∈ inc, u < m.unknowns)
    (hp : p < m.ranks) (d : Dof) (hd : d ∈ m.dofs inc p) :
    s.global d = prefixOffset (gsz m) (items layout m inc) (p, d.obj, d.unknown) + d.index := by
  rw [State.global, h.getGlobalIndex hlt hp _ _ hd.1 hd.2.1]; rfl

theorem ResetSpec.local_dof (h : ResetSpec layout m inc p s) (hlt : ∀ u ∈ inc, u < m.unknowns)
    (hp : p < m.ranks) (d : Dof) (hd : d ∈ m.dofs inc p) :
    s.local d = ((prefixOffset (sz m) (litems layout m inc p) (d.obj, d.unknown) + d.index : Nat) : Int) := by
  rw [State.local, h.getLocal hlt hp _ _ hd.1 hd.2.1]; rfl

theorem bijGlobal (hm : m.Valid) (hi : inc.Nodup) (hlt : ∀ u ∈ inc, u < m.unknowns) (S : Nat → State)
    (h : ∀ p < m.ranks, ResetSpec layout m inc p (S p)) :
    Set.BijOn (fun x : Nat × Dof => (S x.1).global x.2) {x | x.1 < m.ranks ∧ x.2 ∈ m.dofs inc x.1}
      (Set.Iio ((List.range m.ranks).map (locN m inc)).sum) := by
  have hb := prefix_bijOn (gsz m) (items layout m inc) (items_nodup layout m hm inc hi)
  rw [sum_items] at hb
  have hg : ∀ x : Nat × Dof, x.1 < m.ranks → x.2 ∈ m.dofs inc x.1 → (S x.1).global x.2 =
      prefixOffset (gsz m) (items layout m inc) (x.1, x.2.obj, x.2.unknown) + x.2.index :=
    fun x h1 h2 => (h x.1 h1).global_dof hlt h1 x.2 h2
  refine ⟨?_, ?_, ?_⟩
  · rintro ⟨p, d⟩ ⟨h1, h2⟩
    simp only at h1 h2 ⊢
    rw [hg (p, d) h1 h2]
    exact hb.1 (x := ((p, d.obj, d.unknown), d.index)) ⟨(mem_items ..).2 ⟨h1, h2.1, h2.2.1⟩, h2.2.2⟩
  · rintro ⟨p, d⟩ ⟨h1, h2⟩ ⟨p', d'⟩ ⟨h1', h2'⟩ e
    simp only at h1 h2 h1' h2' e
    rw [hg (p, d) h1 h2, hg (p', d') h1' h2'] at e
    have := hb.2.1 (x₁ := ((p, d.obj, d.unknown), d.index)) ⟨(mem_items ..).2 ⟨h1, h2.1, h2.2.1⟩, h2.2.2⟩
      (x₂ := ((p', d'.obj, d'.unknown), d'.index)) ⟨(mem_items ..).2 ⟨h1', h2'.1, h2'.2.1⟩, h2'.2.2⟩ e
    cases d; cases d'; simp_all
  · intro g hgm
    obtain ⟨⟨⟨p, o, u⟩, i⟩, ⟨k1, k2⟩, k3⟩ := hb.2.2 hgm
    obtain ⟨a, b, c⟩ := (mem_items ..).1 k1
    refine ⟨(p, ⟨o, u, i⟩), ⟨a, b, c, k2⟩, ?_⟩
    simp only
    rw [hg (p, ⟨o, u, i⟩) a ⟨b, c, k2⟩]
    exact k3

theorem bijLocal (hm : m.Valid) (hi : inc.Nodup) (hlt : ∀ u ∈ inc, u < m.unknowns)
    (h : ResetSpec layout m inc p s) (hp : p < m.ranks) :
    Set.BijOn s.local (m.dofs inc p) {l : Int | 0 ≤ l ∧ l < locN m inc p} := by
  have hb := prefix_bijOn (sz m) (litems layout m inc p) (litems_nodup layout m hm inc hi p hp)
  rw [sum_litems] at hb
  refine ⟨?_, ?_, ?_⟩
  · intro d hd
    rw [h.local_dof hlt hp d hd]
    have := hb.1 (x := ((d.obj, d.unknown), d.index)) ⟨(mem_litems ..).2 ⟨hd.1, hd.2.1⟩, hd.2.2⟩
    simp only [Set.mem_Iio] at this
    simp only [Set.mem_ofPred_eq]
    constructor
    · omega
    · exact_mod_cast this
  · intro d hd d' hd' e
    rw [h.local_dof hlt hp d hd, h.local_dof hlt hp d' hd'] at e
    have := hb.2.1 (x₁ := ((d.obj, d.unknown), d.index)) ⟨(mem_litems ..).2 ⟨hd.1, hd.2.1⟩, hd.2.2⟩
      (x₂ := ((d'.obj, d'.unknown), d'.index)) ⟨(mem_litems ..).2 ⟨hd'.1, hd'.2.1⟩, hd'.2.2⟩ (by exact_mod_cast e)
    cases d; cases d'; simp_all
  · rintro l ⟨h0, h1⟩
    obtain ⟨n, rfl⟩ := Int.eq_ofNat_of_zero_le h0
    obtain ⟨⟨⟨o, u⟩, i⟩, ⟨k1, k2⟩, k3⟩ := hb.2.2 (show n ∈ Set.Iio (locN m inc p) by
      simp only [Set.mem_Iio]; exact_mod_cast h1)
    obtain ⟨b, c⟩ := (mem_litems ..).1 k1
    refine ⟨⟨o, u, i⟩, ⟨b, c, k2⟩, ?_⟩
    rw [h.local_dof hlt hp ⟨o, u, i⟩ ⟨b, c, k2⟩]
    exact_mod_cast k3

theorem contiguous (hl : layout ≠ .blockedGlobal) (hlt : ∀ u ∈ inc, u < m.unknowns)
    (h : ResetSpec layout m inc p s) (hp : p < m.ranks) (d : Dof) (hd : d ∈ m.dofs inc p) :
    (s.global d : Int) = ((List.range p).map (locN m inc)).sum + s.local d := by
  rw [h.global_dof hlt hp d hd, h.local_dof hlt hp d hd, ← global_eq _ _ _ _ _ _ hp hd.1 hd.2.1,
    ← local_eq _ _ _ _ _ _ hd.1 hd.2.1]
  cases layout
  · simp [start, lstart]; omega
  · simp [start, lstart]; omega
  · exact absurd rfl hl

theorem ordered (hlt : ∀ u ∈ inc, u < m.unknowns) (hi : inc.Nodup)
    (h : ResetSpec layout m inc p s) (hp : p < m.ranks) (d d' : Dof) (hd : d ∈ m.dofs inc p)
    (hd' : d' ∈ m.dofs inc p) : s.global d < s.global d' ↔ s.local d < s.local d' := by
  by_cases hl : layout ≠ .blockedGlobal
  · have e1 := contiguous hl hlt h hp d hd
    have e2 := contiguous hl hlt h hp d' hd'
    omega
  · simp only [ne_eq, not_not] at hl
    subst hl
    rw [h.global_dof hlt hp d hd, h.local_dof hlt hp d hd, h.global_dof hlt hp d' hd', h.local_dof hlt hp d' hd',
      ← global_eq _ _ _ _ _ _ hp hd.1 hd.2.1, ← local_eq _ _ _ _ _ _ hd.1 hd.2.1,
      ← global_eq _ _ _ _ _ _ hp hd'.1 hd'.2.1, ← local_eq _ _ _ _ _ _ hd'.1 hd'.2.1]
    simp only [start, lstart]
    by_cases hu : d.unknown = d'.unknown
    · rw [hu]; omega
    · have b1 := prefixOffset_lt_sum (sz m) (blockList .blockedGlobal m inc p d.unknown) (d.obj, d.unknown)
        (mem_blockList' _ _ _ _ _ hd.2.1 _ hd.1)
      have b2 := prefixOffset_lt_sum (sz m) (blockList .blockedGlobal m inc p d'.unknown) (d'.obj, d'.unknown)
        (mem_blockList' _ _ _ _ _ hd'.2.1 _ hd'.1)
      have c1 := hd.2.2
      have c2 := hd'.2.2
      have n1 : ((blockList .blockedGlobal m inc p d.unknown).map (sz m)).sum = cnt m p d.unknown := sum_objs ..
      have n2 : ((blockList .blockedGlobal m inc p d'.unknown).map (sz m)).sum = cnt m p d'.unknown := sum_objs ..
      rw [n1] at b1; rw [n2] at b2
      have hle : ∀ u, ((List.range p).map fun q => cnt m q u).sum + cnt m p u ≤
          ((List.range m.ranks).map fun q => cnt m q u).sum := by
        intro u
        have := prefixOffset_lt_sum (fun q => cnt m q u) (List.range m.ranks) p (by simpa using hp)
        rwa [prefixOffset_range _ _ _ (Nat.le_of_lt hp)] at this
      have l1 := hle d.unknown
      have l2 := hle d'.unknown
      simp only [sz] at b1 b2
      rcases prefixOffset_order inc d.unknown d'.unknown hd.2.1 hd'.2.1 hu with hh | hh
      · have a1 := hh (cnt m p)
        have a2 := hh (fun u => ((List.range m.ranks).map fun q => cnt m q u).sum)
        constructor <;> intro <;> omega
      · have a1 := hh (cnt m p)
        have a2 := hh (fun u => ((List.range m.ranks).map fun q => cnt m q u).sum)
        constructor <;> intro <;> omega

/-- The conversion of global to local indices. -/
theorem toLocal (hm : m.Valid) (hlt : ∀ u ∈ inc, u < m.unknowns) (hi : inc.Nodup)
    (h : ResetSpec layout m inc p s) (hp : p < m.ranks) (g : Int) :
    (∀ d ∈ m.dofs inc p, (s.global d : Int) = g → s.globalToProcessorLocalIndex g = s.local d) ∧
    ((¬ ∃ d ∈ m.dofs inc p, (s.global d : Int) = g) → s.globalToProcessorLocalIndex g = -1) := by
  have sound : ∀ u, (s.table u).owns g = true → u ∈ inc ∧ ∃ d ∈ m.dofs inc p, (s.global d : Int) = g ∧
      s.local d = g - (s.table u).blockStart + (s.table u).localOffset := by
    intro u hown
    simp only [Offsets.owns, Bool.and_eq_true, decide_eq_true_eq, h.flag] at hown
    obtain ⟨⟨hu, h1⟩, h2⟩ := hown
    obtain ⟨b1, b2, b3⟩ := h.block u hu
    rw [b1] at h1 h2 ⊢
    rw [b3] at h2
    rw [b2]
    have hb := prefix_bijOn (sz m) (blockList layout m inc p u) (blockList_nodup layout m hm inc hi p hp u)
    obtain ⟨⟨⟨o, u'⟩, i⟩, ⟨k1, k2⟩, k3⟩ := hb.2.2 (show (g - start layout m inc p u).toNat ∈ Set.Iio _ by
      simp only [Set.mem_Iio]; omega)
    dsimp only at k1 k2 k3
    obtain ⟨c1, c2, c3, c4, c5⟩ := mem_blockList layout m inc p u hu o u' k1
    have hd : (⟨o, u', i⟩ : Dof) ∈ m.dofs inc p := ⟨c1, c2, k2⟩
    refine ⟨hu, ⟨o, u', i⟩, hd, ?_, ?_⟩
    · rw [h.global_dof hlt hp _ hd, ← global_eq _ _ _ _ _ _ hp c1 c2, c3, c5]
      simp only
      omega
    · rw [h.local_dof hlt hp _ hd, ← local_eq _ _ _ _ _ _ c1 c2, c4, c5]
      simp only
      omega
  have inj := ordered (layout := layout) hlt hi h hp
  have complete : ∀ d ∈ m.dofs inc p, (s.global d : Int) = g → (s.table d.unknown).owns g = true := by
    intro d hd e
    simp only [Offsets.owns, Bool.and_eq_true, decide_eq_true_eq, h.flag]
    obtain ⟨b1, b2, b3⟩ := h.block _ hd.2.1
    have := prefixOffset_lt_sum (sz m) (blockList layout m inc p d.unknown) (d.obj, d.unknown)
      (mem_blockList' _ _ _ _ _ hd.2.1 _ hd.1)
    have c := hd.2.2
    rw [h.global_dof hlt hp d hd, ← global_eq _ _ _ _ _ _ hp hd.1 hd.2.1] at e
    simp only [sz] at this e
    rw [b1, b3]
    refine ⟨⟨hd.2.1, by omega⟩, ?_⟩
    omega
  constructor
  · intro d hd e
    have hc := complete d hd e
    unfold State.globalToProcessorLocalIndex
    have hmem : d.unknown ∈ List.range s.unknowns := by
      rw [h.unknowns]; simpa using hlt _ hd.2.1
    cases hf : (List.range s.unknowns).find? (fun u => (s.table u).owns g) with
    | none =>
      rw [List.find?_eq_none] at hf
      exact absurd hc (by simpa using hf _ hmem)
    | some u =>
      have hown := List.find?_some hf
      obtain ⟨_, d', hd', e1, e2⟩ := sound u hown
      simp only
      rw [← e2]
      have := inj d d' hd hd'
      have := inj d' d hd' hd
      omega
  · intro hn
    unfold State.globalToProcessorLocalIndex
    cases hf : (List.range s.unknowns).find? (fun u => (s.table u).owns g) with
    | none => rfl
    | some u =>
      have hown := List.find?_some hf
      obtain ⟨_, d', hd', e1, _⟩ := sound u hown
      exact absurd ⟨d', hd', e1⟩ hn

end

theorem included_spec (n : Nat) (l : Option (List Nat)) (inc) (h : includedUnknowns n l = some inc) :
    (∀ u ∈ inc, u < n) ∧ ((∀ l', l = some l' → l'.Nodup) → inc.Nodup) ∧
    (∀ u, u ∈ inc ↔ match l with | none => u < n | some l' => u ∈ l') ∧ inc.Pairwise (· ≤ ·) := by
  cases l with
  | none =>
    simp only [includedUnknowns, Option.some.injEq] at h
    subst h
    refine ⟨by simp, fun _ => List.nodup_range, by simp, ?_⟩
    exact (List.pairwise_lt_range).imp (fun h => Nat.le_of_lt h)
  | some l =>
    simp only [includedUnknowns] at h
    split_ifs at h with hc
    simp only [Option.some.injEq] at h
    subst h
    refine ⟨?_, ?_, ?_, ?_⟩
    · intro u hu; exact hc.2 u (by simpa using hu)
    · intro hn; exact ((List.mergeSort_perm l _).nodup_iff).2 (hn l rfl)
    · intro u; simp
    · have := List.pairwise_mergeSort (le := fun a b : Nat => decide (a ≤ b)) (by simp; omega) (by simp; omega) l
      simpa using this

theorem reset_spec (m : Mesh) (hm : m.Valid) (hpos : 0 < m.unknowns) (layout : Layout) (unk : Option (List Nat))
    (hn : ∀ l, unk = some l → l.Nodup) (old : State) (p : Nat) (hp : p < m.ranks) (s : State)
    (h : reset m layout unk old p = some s) :
    ∃ inc, includedUnknowns m.unknowns unk = some inc ∧ inc.Nodup ∧ (∀ u ∈ inc, u < m.unknowns) ∧
      ResetSpec layout m inc p s := by
  unfold reset at h
  cases hinc : includedUnknowns m.unknowns unk with
  | none => simp [hinc] at h
  | some inc =>
    simp only [hinc, Option.bind_eq_bind, Option.bind_some, Option.some.injEq] at h
    obtain ⟨h1, h2, h3, _⟩ := included_spec _ _ _ hinc
    have hi := h2 hn
    have hne : inc ≠ [] := by
      intro e
      subst e
      cases unk with
      | none => have := (h3 0).2 hpos; simp at this
      | some l =>
        simp only [includedUnknowns] at hinc
        split_ifs at hinc with hc
        simp at hinc
        have := (List.mergeSort_perm l (fun a b => decide (a ≤ b))).length_eq
        rw [hinc] at this; simp at this; omega
    refine ⟨inc, rfl, hi, h1, ?_⟩
    subst h
    cases layout
    · exact unblocked_spec m hm inc hi h1 p hp
    · exact blocked_spec m hm inc hi p hp _ false (fun e => absurd e hne)
    · exact blocked_spec m hm inc hi p hp _ true (fun e => absurd e hne)

end Verif.GlobalIndexing
