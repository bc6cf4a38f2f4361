import Verif.ElementData.Spec
import Mathlib.Data.List.Basic
import Mathlib.Data.Nat.Basic
import Mathlib.Data.List.Range

set_option linter.all false
namespace Verif.ElementData
variable {α : Type}

theorem flat_cons (n : Nat) (l : List Nat) (f : Nat → Nat → α) :
    flat (n :: l) f = part n (f 0) ++ flat l (fun u => f (u + 1)) := by
  unfold flat
  rw [List.length_cons, List.range_succ_eq_map, List.flatMap_cons, List.flatMap_map]
  simp

theorem part_length (n : Nat) (f : Nat → α) : (part n f).length = n := by simp [part]

theorem flat_length (l : List Nat) : ∀ f : Nat → Nat → α, (flat l f).length = l.sum := by
  induction l with
  | nil => intro f; rfl
  | cons n l ih => intro f; rw [flat_cons, List.length_append, part_length, ih, List.sum_cons]

theorem inRange_cons_zero (n : Nat) (l : List Nat) (b : Nat) : InRange (n :: l) 0 b ↔ b < n := by
  simp [InRange]

theorem inRange_cons_succ (n : Nat) (l : List Nat) (u b : Nat) :
    InRange (n :: l) (u + 1) b ↔ InRange l u b := by
  simp [InRange]

theorem off_lt (l : List Nat) : ∀ u b, InRange l u b → (l.take u).sum + b < l.sum := by
  induction l with
  | nil => intro u b h; exact absurd h.1 (by simp)
  | cons n l ih =>
    intro u b h
    cases u with
    | zero => rw [inRange_cons_zero] at h; simp; omega
    | succ u =>
      rw [inRange_cons_succ] at h
      have := ih u b h
      simp; omega

theorem flat_get (l : List Nat) : ∀ (f : Nat → Nat → α) u b, InRange l u b →
    (flat l f)[(l.take u).sum + b]? = some (f u b) := by
  induction l with
  | nil => intro f u b h; exact absurd h.1 (by simp)
  | cons n l ih =>
    intro f u b h
    rw [flat_cons]
    cases u with
    | zero =>
      rw [inRange_cons_zero] at h
      rw [List.getElem?_append_left (by simpa [part_length] using h)]
      simp [part, h]
    | succ u =>
      rw [inRange_cons_succ] at h
      have e : ((n :: l).take (u + 1)).sum + b = n + ((l.take u).sum + b) := by simp; omega
      rw [e, List.getElem?_append_right (by rw [part_length]; omega), part_length,
        Nat.add_sub_cancel_left, ih _ u b h]

theorem exists_index (l : List Nat) : ∀ i < l.sum, ∃ u b, InRange l u b ∧ i = (l.take u).sum + b := by
  induction l with
  | nil => intro i h; simp at h
  | cons n l ih =>
    intro i h
    by_cases hi : i < n
    · exact ⟨0, i, (inRange_cons_zero n l i).2 hi, by simp⟩
    · obtain ⟨u, b, h1, h2⟩ := ih (i - n) (by simp at h; omega)
      exact ⟨u + 1, b, (inRange_cons_succ n l u b).2 h1, by simp; omega⟩

theorem index_inj (l : List Nat) : ∀ u b v c, InRange l u b → InRange l v c →
    (l.take u).sum + b = (l.take v).sum + c → u = v ∧ b = c := by
  intro u b v c h1 h2 e
  have a := flat_get l (fun u b => (u, b)) u b h1
  rw [e, flat_get l _ v c h2] at a
  simpa [eq_comm] using a

theorem flat_ext (l : List Nat) (v : List α) (f : Nat → Nat → α) (h : v.length = l.sum)
    (hv : ∀ u b, InRange l u b → v[(l.take u).sum + b]? = some (f u b)) : v = flat l f := by
  apply List.ext_getElem?
  intro i
  by_cases hi : i < l.sum
  · obtain ⟨u, b, h1, rfl⟩ := exists_index l i hi
    rw [hv u b h1, flat_get l f u b h1]
  · rw [List.getElem?_eq_none (by omega), List.getElem?_eq_none (by rw [flat_length]; omega)]

theorem flat_congr (l : List Nat) (f g : Nat → Nat → α)
    (h : ∀ u b, InRange l u b → f u b = g u b) : flat l f = flat l g :=
  flat_ext l _ g (flat_length l f) fun u b hb => by rw [flat_get l f u b hb, h u b hb]

/-- Every vector of the right length lists coefficients. -/
theorem exists_flat [Inhabited α] (l : List Nat) (v : List α) (h : v.length = l.sum) :
    ∃ f, v = flat l f := by
  refine ⟨fun u b => v.getD ((l.take u).sum + b) default, flat_ext l v _ h fun u b hb => ?_⟩
  have := off_lt l u b hb
  rw [List.getElem?_eq_getElem (by omega)]
  simp [List.getD, List.getElem?_eq_getElem (show (l.take u).sum + b < v.length by omega)]

theorem flat_set (l : List Nat) (f : Nat → Nat → α) (u b : Nat) (x : α) (h : InRange l u b) :
    (flat l f).set ((l.take u).sum + b) x = flat l (upd f u b x) := by
  apply flat_ext
  · rw [List.length_set, flat_length]
  · intro v c hc
    rw [List.getElem?_set]
    by_cases e : v = u ∧ c = b
    · obtain ⟨rfl, rfl⟩ := e
      have := off_lt l v c h
      rw [if_pos rfl, if_pos (by rw [flat_length]; exact this)]
      simp [upd]
    · rw [if_neg, flat_get l f v c hc]
      · simp [upd, e]
      · intro e'
        have := index_inj l u b v c h hc e'
        exact e ⟨this.1.symm, this.2.symm⟩

theorem foldl_add (l : List Nat) : ∀ s, l.foldl (· + ·) s = s + l.sum := by
  induction l with
  | nil => intro s; rfl
  | cons a l ih => intro s; rw [List.foldl_cons, ih, List.sum_cons]; omega

theorem total_eq (d : Data α) : d.total = d.counts.sum := by unfold Data.total; rw [foldl_add]; omega
theorem offset_eq (d : Data α) (u : Nat) : d.offset u = (d.counts.take u).sum := by
  unfold Data.offset; rw [foldl_add]; omega

theorem single_eq (d : Data α) (u b : Nat) (h : InRange d.counts u b) :
    d.single b u = some ((d.counts.take u).sum + b) := by
  have hc : d.counts[u]? = some (d.counts.getD u 0) := by
    have := h.1
    simp [List.getD, List.getElem?_eq_getElem this]
  unfold Data.single
  rw [hc]
  simp only [if_pos h.2, offset_eq]

theorem single_none (d : Data α) (u b : Nat) (h : ¬ InRange d.counts u b) : d.single b u = none := by
  unfold Data.single
  cases hc : d.counts[u]? with
  | none => rfl
  | some n =>
    dsimp only
    rw [if_neg]
    intro hb
    refine h ⟨(List.getElem?_eq_some_iff.1 hc).1, ?_⟩
    simpa [List.getD, hc] using hb

theorem single_some (d : Data α) (u b i : Nat) :
    d.single b u = some i ↔ InRange d.counts u b ∧ i = (d.counts.take u).sum + b := by
  by_cases h : InRange d.counts u b
  · rw [single_eq d u b h]; simp [h, eq_comm]
  · rw [single_none d u b h]; simp [h]

variable [Zero α]

theorem zero_flat (l : List Nat) : List.replicate l.sum (0 : α) = flat l fun _ _ => 0 := by
  apply flat_ext
  · simp
  · intro u b h
    have := off_lt l u b h
    simp [this]

theorem resize_length (v : List α) (n : Nat) : (resize v n).length = n := by
  simp [resize]; omega

theorem fit_flat (d : Data α) (f : Nat → Nat → α) : d.fit (flat d.counts f) = flat d.counts f := by
  unfold Data.fit; rw [total_eq, flat_length]; simp

theorem fit_nil (d : Data α) : d.fit [] = flat d.counts fun _ _ => 0 := by
  unfold Data.fit
  split
  · rw [← zero_flat, total_eq]; simp [resize]
  · rename_i h
    rw [total_eq] at h
    have h0 : d.counts.sum = 0 := by
      have := Classical.not_not.1 h; simp at this; simpa using this.symm
    have := flat_length d.counts fun _ _ => (0 : α)
    rw [h0] at this
    exact (List.length_eq_zero_iff.1 this).symm

theorem write_flat (l : List Nat) (f : Nat → Nat → α) (u b : Nat) (x : α) (h : InRange l u b) :
    Data.write (flat l f) ((l.take u).sum + b) x = some (flat l (upd f u b x)) := by
  unfold Data.write
  rw [if_pos (by rw [flat_length]; exact off_lt l u b h), flat_set l f u b x h]

theorem writeAll_flat (d : Data α) (u : Nat) (hu : u < d.counts.length) (g : Nat → α) :
    ∀ k iB (f : Nat → Nat → α), iB + k ≤ d.counts.getD u 0 →
      Data.writeAll d u ((List.range' iB k).map g) iB (flat d.counts f) =
        some (flat d.counts fun v c => if v = u ∧ iB ≤ c ∧ c < iB + k then g c else f v c) := by
  intro k
  induction k with
  | zero =>
    intro iB f _
    simp only [List.range'_zero, List.map_nil, Data.writeAll]
    congr 1
    apply flat_congr
    intro v c _
    rw [if_neg]; omega
  | succ k ih =>
    intro iB f h
    have hr : InRange d.counts u iB := ⟨hu, by omega⟩
    rw [List.range'_succ, List.map_cons, Data.writeAll, single_eq d u iB hr]
    simp only [bind, Option.bind]
    rw [write_flat d.counts f u iB (g iB) hr]
    dsimp only
    rw [ih (iB + 1) _ (by omega)]
    congr 1
    apply flat_congr
    intro v c _
    by_cases hv : v = u
    · subst hv
      by_cases h1 : c = iB
      · subst h1
        rw [if_neg (by omega), if_pos (by omega)]; simp [upd]
      · by_cases h2 : iB + 1 ≤ c ∧ c < iB + 1 + k
        · rw [if_pos ⟨rfl, h2⟩, if_pos (by omega)]
        · rw [if_neg (fun e => h2 e.2), if_neg (by omega)]; simp [upd, h1]
    · simp [hv, upd]

theorem writeAll_part (d : Data α) (u : Nat) (hu : u < d.counts.length) (g : Nat → α)
    (f : Nat → Nat → α) :
    Data.writeAll d u (part (d.counts.getD u 0) g) 0 (flat d.counts f) =
      some (flat d.counts (updAll f u g)) := by
  rw [part, List.range_eq_range', writeAll_flat d u hu g _ 0 f (by omega)]
  congr 1
  apply flat_congr
  intro v c hc
  unfold updAll
  by_cases hv : v = u
  · subst hv; rw [if_pos (by have := hc.2; omega), if_pos rfl]
  · simp [hv]

theorem readAll_flat (d : Data α) (u : Nat) (hu : u < d.counts.length) (f : Nat → Nat → α) :
    ∀ k iB, iB + k ≤ d.counts.getD u 0 →
      Data.readAll d u (flat d.counts f) k iB = some ((List.range' iB k).map (f u)) := by
  intro k
  induction k with
  | zero => intro iB _; rfl
  | succ k ih =>
    intro iB h
    have hr : InRange d.counts u iB := ⟨hu, by omega⟩
    rw [Data.readAll, single_eq d u iB hr]
    simp only [bind, Option.bind]
    rw [flat_get d.counts f u iB hr]
    dsimp only
    rw [ih (iB + 1) (by omega), List.range'_succ, List.map_cons]

theorem readAll_part (d : Data α) (u : Nat) (hu : u < d.counts.length) (f : Nat → Nat → α) :
    Data.readAll d u (flat d.counts f) (d.counts.getD u 0) 0 =
      some (part (d.counts.getD u 0) (f u)) := by
  rw [readAll_flat d u hu f _ 0 (by omega), part, List.range_eq_range']

theorem counts_get (l : List Nat) (u : Nat) (h : u < l.length) : l[u]? = some (l.getD u 0) := by
  simp [List.getD, List.getElem?_eq_getElem h]

/-! ## The representation -/

/-- The element stores the expected values. -/
structure Rep (d : Data α) (m : Mem α) : Prop where
  counts : d.counts = m.counts
  levels : d.levels.length = m.timeLevels
  vectors : d.vectors.length = m.numVectors
  level : ∀ t f, m.level t = some f → d.levels[t]? = some (flat m.counts f)
  unused : ∀ t < m.timeLevels, m.level t = none → d.levels[t]? = some []
  vector : ∀ i < m.numVectors, d.vectors[i]? = some (flat m.counts (m.vector i))

theorem Rep.agree {d : Data α} {m : Mem α} (h : Rep d m) : Agree d m where
  counts := h.counts
  levels := h.levels
  vectors := h.vectors
  data := by
    intro t f hf u b hb
    rw [← h.counts] at hb
    unfold Data.getData
    rw [h.level t f hf, single_eq d u b hb, ← h.counts]
    simp only [bind, Option.bind]
    rw [if_pos (by rw [flat_length, total_eq]), flat_get _ f u b hb]
  levelData := by
    intro t f hf u hu
    rw [← h.counts] at hu ⊢
    unfold Data.getTimeLevelData
    rw [h.level t f hf, counts_get _ u hu, ← h.counts]
    simp only [bind, Option.bind]
    rw [readAll_part d u hu f]
  level := by
    intro t f hf
    unfold Data.getTimeLevelDataVector
    rw [h.level t f hf, ← h.counts]
    simp only [bind, Option.bind]
    rw [if_pos (by rw [flat_length, total_eq])]
  unused := by
    intro t ht u b
    unfold Data.getData
    by_cases hl : t < m.timeLevels
    · rw [h.unused t hl ht]
      simp only [bind, Option.bind]
      cases hs : d.single b u with
      | none => rfl
      | some i =>
        dsimp only
        have hs' := (single_some d u b i).1 hs
        have := off_lt d.counts u b hs'.1
        rw [if_neg]
        rw [total_eq]; simp; omega
    · rw [List.getElem?_eq_none (by rw [h.levels]; omega)]; rfl
  vectorData := by
    intro i hi u b hb
    rw [← h.counts] at hb
    unfold Data.getVectorData
    rw [h.vector i hi, single_eq d u b hb, ← h.counts]
    simp only [bind, Option.bind]
    rw [if_pos (by rw [flat_length, total_eq]), flat_get _ _ u b hb]
  subvector := by
    intro i hi u hu
    rw [← h.counts] at hu ⊢
    unfold Data.getSubvector
    rw [h.vector i hi, counts_get _ u hu, ← h.counts]
    simp only [bind, Option.bind]
    rw [if_pos (by rw [flat_length, total_eq]), readAll_part d u hu]
  vector := by
    intro i hi
    unfold Data.getVector
    rw [h.vector i hi, ← h.counts]
    simp only [bind, Option.bind]
    rw [if_pos (by rw [flat_length, total_eq])]

theorem Rep.fit {d : Data α} {m : Mem α} (h : Rep d m) (t : Nat) (ht : t < m.timeLevels) :
    ∃ v, d.levels[t]? = some v ∧ d.fit v = flat d.counts (m.at t) := by
  cases hl : m.level t with
  | none => exact ⟨[], h.unused t ht hl, by rw [fit_nil]; simp [Mem.at, hl]⟩
  | some f =>
    exact ⟨_, h.level t f hl, by rw [← h.counts, fit_flat]; simp [Mem.at, hl]⟩

theorem Rep.setLevel {d : Data α} {m : Mem α} (h : Rep d m) (t : Nat) (ht : t < m.timeLevels)
    (f : Nat → Nat → α) :
    Rep { d with levels := d.levels.set t (flat d.counts f) } (m.setLevel t f) where
  counts := h.counts
  levels := by simp [Mem.setLevel, h.levels]
  vectors := h.vectors
  level := by
    intro s g hg
    simp only [Mem.setLevel] at hg ⊢
    rw [List.getElem?_set]
    by_cases e : s = t
    · subst e
      rw [if_pos rfl] at hg
      rw [if_pos rfl, if_pos (by rw [h.levels]; exact ht), ← Option.some.inj hg, h.counts]
    · rw [if_neg e] at hg
      rw [if_neg (Ne.symm e), h.level s g hg]
  unused := by
    intro s hs hg
    simp only [Mem.setLevel] at hg hs ⊢
    rw [List.getElem?_set]
    by_cases e : s = t
    · rw [if_pos e] at hg; exact absurd hg (by simp)
    · rw [if_neg e] at hg
      rw [if_neg (Ne.symm e), h.unused s hs hg]
  vector := h.vector

theorem Rep.setVector {d : Data α} {m : Mem α} (h : Rep d m) (i : Nat) (hi : i < m.numVectors)
    (f : Nat → Nat → α) :
    Rep { d with vectors := d.vectors.set i (flat d.counts f) } (m.setVector i f) where
  counts := h.counts
  levels := h.levels
  vectors := by simp [Mem.setVector, h.vectors]
  level := h.level
  unused := h.unused
  vector := by
    intro j hj
    simp only [Mem.setVector] at hj ⊢
    rw [List.getElem?_set]
    by_cases e : j = i
    · subst e
      rw [if_pos rfl, if_pos rfl, if_pos (by rw [h.vectors]; exact hi), h.counts]
    · rw [if_neg (Ne.symm e), if_neg e, h.vector j hj]

theorem resize_flat_zero (l l' : List Nat) (f : Nat → Nat → α) (hf : ∀ v b, f v b = 0) :
    resize (flat l f) l'.sum = flat l' f := by
  have e : f = fun _ _ => 0 := by funext v b; exact hf v b
  subst e
  rw [← zero_flat, ← zero_flat]
  simp only [resize, List.take_replicate, List.length_replicate, List.replicate_append_replicate]
  congr 1; omega

theorem Rep.recount {d : Data α} {m : Mem α} (h : Rep d m) (l : List Nat)
    (h1 : ∀ t, m.level t = none) (h2 : ∀ i < m.numVectors, ∀ v b, m.vector i v b = 0) :
    Rep { counts := l, levels := d.levels, vectors := d.vectors.map fun v => resize v l.sum }
      { m with counts := l } where
  counts := rfl
  levels := h.levels
  vectors := by simp [h.vectors]
  level := by
    intro t f hf
    exact absurd (h1 t) (by rw [show m.level t = some f from hf]; simp)
  unused := by
    intro t ht _
    exact h.unused t ht (h1 t)
  vector := by
    intro i hi
    simp only [List.getElem?_map, h.vector i hi, Option.map_some]
    rw [resize_flat_zero _ _ _ (h2 i hi)]

theorem Rep.exec {d : Data α} {m : Mem α} (h : Rep d m) (op : Op α) (hv : op.Valid m) :
    ∃ d', op.exec d = some d' ∧ Rep d' (op.effect m) := by
  cases op with
  | number n u =>
    obtain ⟨hu, h1, h2⟩ := hv
    have hr := h.recount (m.counts.set u n) h1 h2
    refine ⟨_, ?_, hr⟩
    simp only [Op.exec, Data.setNumber]
    rw [if_pos (by rw [h.counts]; exact hu)]
    simp only [total_eq, h.counts]
  | numberAll n =>
    obtain ⟨h1, h2⟩ := hv
    have hr := h.recount (m.counts.map fun _ => n) h1 h2
    refine ⟨_, ?_, hr⟩
    simp only [Op.exec, Data.setNumberAll]
    simp only [total_eq, h.counts]
  | data t u b x =>
    obtain ⟨ht, hb⟩ := hv
    obtain ⟨v, hv1, hv2⟩ := h.fit t ht
    refine ⟨_, ?_, h.setLevel t ht (upd (m.at t) u b x)⟩
    simp only [Op.exec, Data.setData]
    rw [← h.counts] at hb
    rw [hv1, single_eq d u b hb]
    simp only [bind, Option.bind]
    rw [hv2, write_flat _ _ u b x hb]
  | levelData t u f =>
    obtain ⟨ht, hu⟩ := hv
    obtain ⟨v, hv1, hv2⟩ := h.fit t ht
    refine ⟨_, ?_, h.setLevel t ht (updAll (m.at t) u f)⟩
    simp only [Op.exec, Data.setTimeLevelData]
    rw [← h.counts] at hu
    rw [hv1, counts_get _ u hu]
    simp only [bind, Option.bind]
    rw [if_pos (part_length _ _), hv2, writeAll_part d u hu]
  | levelDataFirst t f =>
    obtain ⟨ht, hne, hall⟩ := hv
    obtain ⟨v, hv1, hv2⟩ := h.fit t ht
    refine ⟨_, ?_, h.setLevel t ht (updAll (m.at t) 0 f)⟩
    simp only [Op.exec, Data.setTimeLevelDataFirst, Data.setTimeLevelData]
    rw [← h.counts] at hne hall
    have hu : 0 < d.counts.length := List.length_pos_iff.2 hne
    rw [if_pos, hv1, counts_get _ 0 hu]
    · simp only [bind, Option.bind]
      rw [if_pos (part_length _ _), hv2, writeAll_part d 0 hu]
    · rw [List.all_eq_true]
      intro n hn
      rw [part_length, beq_iff_eq]
      exact hall n hn
  | level t f =>
    refine ⟨_, ?_, h.setLevel t hv f⟩
    simp only [Op.exec, Data.setTimeLevelDataVector]
    rw [if_pos ⟨by rw [h.levels]; exact hv, by rw [flat_length, total_eq]⟩]
  | levelEntry t u b x =>
    obtain ⟨ht, hb⟩ := hv
    obtain ⟨v, hv1, hv2⟩ := h.fit t ht
    refine ⟨_, ?_, h.setLevel t ht (upd (m.at t) u b x)⟩
    simp only [Op.exec, Data.writeLevel]
    rw [← h.counts] at hb
    rw [hv1]
    simp only [bind, Option.bind]
    rw [hv2, write_flat _ _ u b x hb]
  | numberOfVectors n =>
    refine ⟨_, rfl, ?_⟩
    refine ⟨h.counts, h.levels, ?_, h.level, h.unused, ?_⟩
    · simp [Data.setNumberOfVectors, Op.effect]; omega
    · intro i hi
      simp only [Data.setNumberOfVectors, Op.effect] at hi ⊢
      have hl := h.vectors
      by_cases hi' : i < m.numVectors
      · rw [if_pos hi', List.getElem?_append_left (by simp; omega), List.getElem?_take_of_lt hi,
          h.vector i hi']
      · rw [if_neg hi', List.getElem?_append_right (by simp; omega), List.getElem?_replicate,
          if_pos (by simp; omega), total_eq, zero_flat, h.counts]
  | vector i f =>
    refine ⟨_, ?_, h.setVector i hv f⟩
    simp only [Op.exec, Data.setVector]
    rw [if_pos ⟨by rw [h.vectors]; exact hv, by rw [flat_length, total_eq]⟩]
  | subvector i u f =>
    obtain ⟨ht, hu⟩ := hv
    refine ⟨_, ?_, h.setVector i ht (updAll (m.vector i) u f)⟩
    simp only [Op.exec, Data.setSubvector]
    rw [← h.counts] at hu
    rw [h.vector i ht, counts_get _ u hu]
    simp only [bind, Option.bind]
    rw [if_pos (part_length _ _), ← h.counts, fit_flat, writeAll_part d u hu]
  | vectorData i u b x =>
    obtain ⟨ht, hb⟩ := hv
    refine ⟨_, ?_, h.setVector i ht (upd (m.vector i) u b x)⟩
    simp only [Op.exec, Data.setVectorData]
    rw [← h.counts] at hb
    rw [h.vector i ht, single_eq d u b hb]
    simp only [bind, Option.bind]
    rw [← h.counts, fit_flat, write_flat _ _ u b x hb]

theorem Rep.init (t n : Nat) : Rep (α := α) (Data.init t n) (Mem.init t n) where
  counts := rfl
  levels := by simp [Data.init, Mem.init]
  vectors := rfl
  level := by intro s f hf; simp [Mem.init] at hf
  unused := by
    intro s hs _
    simp only [Data.init, Mem.init] at hs ⊢
    simp [hs]
  vector := by intro i hi; simp [Mem.init] at hi

theorem Rep.run {d : Data α} {m : Mem α} (h : Rep d m) (ops : List (Op α)) (hv : History m ops) :
    ∃ d', ops.foldlM Op.exec d = some d' ∧ Rep d' (ops.foldl Op.effect m) := by
  induction ops generalizing d m with
  | nil => exact ⟨d, rfl, h⟩
  | cons op ops ih =>
    obtain ⟨d1, h1, h2⟩ := h.exec op hv.1
    obtain ⟨d2, h3, h4⟩ := ih h2 hv.2
    refine ⟨d2, ?_, h4⟩
    rw [List.foldlM_cons, h1]
    exact h3

end Verif.ElementData
