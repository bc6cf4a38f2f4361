import Verif.ElementData.LemmasFace
import Mathlib.Data.Set.Function
import Mathlib.Order.Interval.Set.Defs

/-!
# The coefficients and basis functions of elements and faces

C31, C32, C33 of properties.jsonl. The vocabulary (`registered`, `before`, `Mem`, `Op.effect`, `flat`, `Agree`) is in
`Spec.lean`.
-/
namespace Verif.ElementData
variable {α : Type}

/-! ## C31 -/

/-- `convertToSingleIndex` is a bijection between the pairs of an unknown and one of its basis functions and the
positions of the vector of coefficients. -/
theorem single_bijOn (d : Data α) :
    Set.BijOn (fun p : Nat × Nat => (d.single p.2 p.1).getD 0) {p | InRange d.counts p.1 p.2}
      (Set.Iio d.counts.sum) := by
  refine ⟨?_, ?_, ?_⟩
  · rintro ⟨u, b⟩ (h : InRange d.counts u b)
    simp only [single_eq d u b h, Option.getD_some, Set.mem_Iio]
    exact off_lt d.counts u b h
  · rintro ⟨u, b⟩ (h : InRange d.counts u b) ⟨v, c⟩ (h' : InRange d.counts v c) e
    simp only [single_eq d u b h, single_eq d v c h', Option.getD_some] at e
    obtain ⟨rfl, rfl⟩ := index_inj d.counts u b v c h h' e
    rfl
  · intro i hi
    obtain ⟨u, b, h, rfl⟩ := exists_index d.counts i hi
    exact ⟨(u, b), h, by simp only [single_eq d u b h, Option.getD_some]⟩

/-- It is defined exactly for these pairs. -/
theorem single_isSome (d : Data α) (u b : Nat) : (d.single b u).isSome ↔ InRange d.counts u b := by
  by_cases h : InRange d.counts u b
  · simp [single_eq d u b h, h]
  · simp [single_none d u b h, h]

/-- The last position is the number of basis functions of all unknowns. -/
theorem total_sum (d : Data α) : d.total = d.counts.sum := total_eq d

/-- Whole vectors are of the form used in `Op`. -/
theorem vectors_are_flat [Inhabited α] (counts : List Nat) (v : List α) :
    v.length = counts.sum ↔ ∃ f, v = flat counts f :=
  ⟨exists_flat counts v, fun ⟨f, h⟩ => h ▸ flat_length counts f⟩

variable [Zero α]

/-- After any sequence of calls with arguments in range, every read returns the value written last for that time
level or vector, that unknown and that basis function. -/
theorem run_agree (timeLevels unknowns : Nat) (ops : List (Op α)) (h : History (Mem.init timeLevels unknowns) ops) :
    ∃ d, ops.foldlM Op.exec (Data.init timeLevels unknowns) = some d ∧
      Agree d (ops.foldl Op.effect (Mem.init timeLevels unknowns)) := by
  obtain ⟨d, h1, h2⟩ := (Rep.init timeLevels unknowns).run ops h
  exact ⟨d, h1, h2.agree⟩

/-- A history with two unknowns of different sizes. -/
example : History (α := Int) (Mem.init 2 2) [.number 1 0, .number 2 1, .numberOfVectors 1, .data 1 1 0 5,
    .levelData 1 0 (fun _ => 7), .vector 0 (fun u b => 10 * u + b), .vectorData 0 1 1 3] ∧
    ((([.number 1 0, .number 2 1, .numberOfVectors 1, .data 1 1 0 5,
      .levelData 1 0 (fun _ => 7), .vector 0 (fun u b => 10 * u + b), .vectorData 0 1 1 3] : List (Op Int)).foldlM
        Op.exec (Data.init 2 2)).bind fun d => some (d.levels, d.vectors)) =
      some ([[], [7, 5, 0]], [[0, 10, 3]]) := by
  refine ⟨?_, by decide⟩
  simp only [History, Op.Valid, Op.effect, Mem.init, InRange, Mem.setLevel, Mem.setVector]
  simp

/-- Changing the number of basis functions of an unknown keeps the coefficients of that unknown and of the ones in
front of it in the time integration vectors. -/
theorem setNumber_keeps_partial (d d' : Data α) (n u : Nat) (h : d.setNumber n u = some d') (id v b : Nat) (x : α)
    (hv : v ≤ u) (hb : InRange d'.counts v b) (hx : d.getVectorData id v b = some x) :
    d'.getVectorData id v b = some x := by
  unfold Data.setNumber at h
  split at h
  rotate_left
  · exact absurd h (by simp)
  rename_i hu
  have h := (Option.some.inj h).symm
  unfold Data.getVectorData at hx
  cases hw : d.vectors[id]? with
  | none => rw [hw] at hx; simp [bind, Option.bind] at hx
  | some w =>
    rw [hw] at hx
    simp only [bind, Option.bind] at hx
    cases hs : d.single b v with
    | none => rw [hs] at hx; simp at hx
    | some i =>
      rw [hs] at hx
      dsimp only at hx
      obtain ⟨hr, rfl⟩ := (single_some d v b i).1 hs
      split at hx
      rotate_left
      · exact absurd hx (by simp)
      have hc : d'.counts = d.counts.set u n := by rw [h]
      have ht : (d'.counts.take v).sum = (d.counts.take v).sum := by
        rw [hc, List.take_set_of_le hv]
      unfold Data.getVectorData
      have hvec : d'.vectors[id]? = some (resize w d'.total) := by
        rw [h]
        simp only [List.getElem?_map, hw, Option.map_some]
        rfl
      rw [hvec, single_eq d' v b hb]
      simp only [bind, Option.bind]
      rw [if_pos (resize_length _ _), ht]
      have hlt := off_lt d'.counts v b hb
      rw [ht] at hlt
      have hlw := (List.getElem?_eq_some_iff.1 hx).1
      unfold resize
      rw [List.getElem?_append_left (by rw [List.length_take, total_eq]; omega),
        List.getElem?_take_of_lt (by rw [total_eq]; exact hlt), hx]

/-- The same for the time levels: they adapt to the new number at the next write, and that write keeps all other
coefficients of the unknown and of the ones in front of it. -/
theorem setNumber_keeps_level_partial (d d' d'' : Data α) (n u : Nat) (h : d.setNumber n u = some d') (t v b : Nat)
    (x : α) (hv : v ≤ u) (hb : InRange d'.counts v b) (hx : d.getData t v b = some x) (v' b' : Nat) (y : α)
    (hw : d'.setData t v' b' y = some d'') (hne : (v', b') ≠ (v, b)) :
    d''.getData t v b = some x := by
  unfold Data.setNumber at h
  split at h
  rotate_left
  · exact absurd h (by simp)
  have h := (Option.some.inj h).symm
  have hc : d'.counts = d.counts.set u n := by rw [h]
  have hl : d'.levels = d.levels := by rw [h]
  have ht : (d'.counts.take v).sum = (d.counts.take v).sum := by
    rw [hc, List.take_set_of_le hv]
  unfold Data.getData at hx
  unfold Data.setData at hw
  rw [hl] at hw
  cases hlv : d.levels[t]? with
  | none => rw [hlv] at hx; simp [bind, Option.bind] at hx
  | some l =>
    rw [hlv] at hx hw
    simp only [bind, Option.bind] at hx hw
    cases hs : d.single b v with
    | none => rw [hs] at hx; simp at hx
    | some i =>
      rw [hs] at hx
      dsimp only at hx
      obtain ⟨hr, rfl⟩ := (single_some d v b i).1 hs
      split at hx
      rotate_left
      · exact absurd hx (by simp)
      cases hs' : d'.single b' v' with
      | none => rw [hs'] at hw; simp at hw
      | some j =>
        rw [hs'] at hw
        dsimp only at hw
        obtain ⟨hr', rfl⟩ := (single_some d' v' b' j).1 hs'
        unfold Data.write at hw
        split at hw
        · exact absurd hw (by simp)
        rename_i w hw'
        split at hw'
        rotate_left
        · exact absurd hw' (by simp)
        have hw' := (Option.some.inj hw').symm
        have hw := (Option.some.inj hw).symm
        have hlt := off_lt d'.counts v b hb
        have hfl : (d'.fit l).length = d'.total := by
          unfold Data.fit; split
          · exact resize_length _ _
          · omega
        have hne' : (d'.counts.take v').sum + b' ≠ (d'.counts.take v).sum + b := fun e => by
          obtain ⟨rfl, rfl⟩ := index_inj d'.counts v' b' v b hr' hb e
          exact hne rfl
        have hcc : d''.counts = d'.counts := by rw [hw]
        have hsl : d''.single b v = some ((d'.counts.take v).sum + b) := by
          rw [single_eq d'' v b (by rw [hcc]; exact hb), hcc]
        have htt : d''.total = d'.total := by rw [total_eq, total_eq, hcc]
        have hll : d''.levels[t]? = some w := by
          rw [hw]
          exact List.getElem?_set_self ((List.getElem?_eq_some_iff.1 hlv).1)
        have hfx : (d'.fit l)[(d'.counts.take v).sum + b]? = some x := by
          unfold Data.fit
          rw [ht] at hlt ⊢
          have hlw := (List.getElem?_eq_some_iff.1 hx).1
          split
          · unfold resize
            rw [List.getElem?_append_left (by rw [List.length_take, total_eq]; omega),
              List.getElem?_take_of_lt (by rw [total_eq]; exact hlt), hx]
          · exact hx
        unfold Data.getData
        rw [hll, hsl]
        simp only [bind, Option.bind]
        rw [if_pos (by rw [htt, hw', List.length_set, hfl]), hw', List.getElem?_set_ne hne', hfx]

example : ∃ d' d'' : Data Int, (⟨[1, 1], [[4, 5]], []⟩ : Data Int).setNumber 3 1 = some d' ∧
    d'.setData 0 1 1 7 = some d'' ∧ d''.levels = [[4, 5, 7, 0]] := ⟨_, _, rfl, rfl, rfl⟩

/-- What is missing: the coefficients of the later unknowns are not moved along. With two unknowns of one basis
function each, giving the first one a second function makes the coefficient of the second unknown that function's
coefficient. -/
theorem setNumber_shifts (x y : α) :
    ∃ d d' : Data α, d.setNumber 2 0 = some d' ∧ d.getVectorData 0 0 0 = some x ∧ d.getVectorData 0 1 0 = some y ∧
      d'.getVectorData 0 0 0 = some x ∧ d'.getVectorData 0 0 1 = some y ∧ d'.getVectorData 0 1 0 = some 0 :=
  ⟨⟨[1, 1], [], [[x, y]]⟩, ⟨[2, 1], [], [[x, y, 0]]⟩, rfl, rfl, rfl, rfl, rfl, rfl⟩

/-! ## C32 -/

/-- A history is accepted exactly if all arguments are in range. -/
theorem runBasis_isSome (sets : List BSet) (n : Nat) (h : List BasisOp) :
    (runBasis sets n h).isSome ↔ ∀ op ∈ h, op.Valid sets n := by
  constructor
  · intro hs; exact runBasis_valid sets n h (Option.isSome_iff_exists.1 hs)
  · intro hv
    obtain ⟨b, hb, _⟩ := BRep.run sets n h hv
    rw [hb]; rfl

theorem brep_of_run {sets : List BSet} {n : Nat} {h : List BasisOp} {b : EBF} (hb : runBasis sets n h = some b) :
    BRep sets n b h := by
  obtain ⟨b', h1, h2⟩ := BRep.run sets n h (runBasis_valid sets n h ⟨b, hb⟩)
  rw [hb] at h1
  cases h1
  exact h2

/-- `getBasisFunctionSetAndIndex` returns function `k` of a set exactly if the set is registered at a place and the
index is `k` more than the number of functions in front of that place. -/
theorem lookup_iff {sets : List BSet} {n : Nat} {h : List BasisOp} {b : EBF} (hb : runBasis sets n h = some b)
    {u : Nat} (hu : u < n) (i pos k : Nat) :
    b.lookup sets i u = some (pos, k) ↔
      ∃ place, registered h u place = some pos ∧ k < sizeAt sets (some pos) ∧ i = before sets h u place + k := by
  have r := brep_of_run hb
  obtain ⟨h1, h2⟩ := r.get u hu
  unfold EBF.lookup
  rw [h1]
  dsimp only
  rw [find_iff sets _ h2]
  simp only [r.reg u hu, r.pre u hu]

/-- There is one such place only. -/
theorem place_unique (sets : List BSet) (h : List BasisOp) (u p q k j : Nat)
    (hk : k < sizeAt sets (registered h u p)) (hj : j < sizeAt sets (registered h u q))
    (e : before sets h u p + k = before sets h u q + j) : p = q ∧ k = j := by
  have step : ∀ p, before sets h u (p + 1) = before sets h u p + sizeAt sets (registered h u p) := fun p =>
    Finset.sum_range_succ _ _
  rcases Nat.lt_trichotomy p q with hl | rfl | hl
  · have := before_mono sets h u (show p + 1 ≤ q from hl)
    rw [step] at this; omega
  · exact ⟨rfl, by omega⟩
  · have := before_mono sets h u (show q + 1 ≤ p from hl)
    rw [step] at this; omega

/-- An index has a basis function exactly if it is below the number of basis functions. -/
theorem lookup_isSome {sets : List BSet} {n : Nat} {h : List BasisOp} {b : EBF} (hb : runBasis sets n h = some b)
    {u : Nat} (hu : u < n) (i : Nat) :
    (b.lookup sets i u).isSome ↔ ∃ N, b.number sets u = some N ∧ i < N := by
  have r := brep_of_run hb
  obtain ⟨h1, h2⟩ := r.get u hu
  unfold EBF.lookup
  rw [h1]
  dsimp only
  rw [find_isSome sets _ h2, r.number u hu, r.pre u hu]
  simp

/-- The number of basis functions is that of all registered sets together. -/
theorem number_eq {sets : List BSet} {n : Nat} {h : List BasisOp} {b : EBF} (hb : runBasis sets n h = some b)
    {u : Nat} (hu : u < n) (p : Nat) (hp : ∀ q, p ≤ q → registered h u q = none) :
    b.number sets u = some (before sets h u p) := (brep_of_run hb).number_of u hu p hp

/-- `getBasisFunctionOffset` of a place with a set is the number of functions in front of it, so that looking up this
index plus `k` gives function `k` of the set (`lookup_iff`). -/
theorem offset_eq_before {sets : List BSet} {n : Nat} {h : List BasisOp} {b : EBF}
    (hb : runBasis sets n h = some b) {u : Nat} (hu : u < n) (p pos : Nat) (hp : registered h u p = some pos) :
    b.offset sets u p = some (before sets h u p) := by
  have r := brep_of_run hb
  obtain ⟨h1, h2⟩ := r.get u hu
  unfold EBF.offset
  rw [h1]
  dsimp only
  rw [if_neg, sizes_eq sets _ (h2.take p), pre_take, r.pre u hu]
  intro hl
  have := reg_none_of_length _ _ hl
  rw [r.reg u hu p, hp] at this
  exact absurd this (by simp)

/-- Both together. -/
theorem lookup_offset {sets : List BSet} {n : Nat} {h : List BasisOp} {b : EBF} (hb : runBasis sets n h = some b)
    {u : Nat} (hu : u < n) (p pos k o : Nat) (hp : registered h u p = some pos) (hk : k < sizeAt sets (some pos))
    (ho : b.offset sets u p = some o) : b.lookup sets (o + k) u = some (pos, k) := by
  rw [offset_eq_before hb hu p pos hp] at ho
  cases ho
  exact (lookup_iff hb hu _ _ _).2 ⟨p, hp, hk, rfl⟩

/-- The maximum order is the largest order of a registered set. -/
theorem maxOrder_spec {sets : List BSet} {n : Nat} {h : List BasisOp} {b : EBF} (hb : runBasis sets n h = some b) :
    ∃ m, b.maxOrder sets = some m ∧ ∀ o, m ≤ o ↔
      ∀ u < n, ∀ p pos s, registered h u p = some pos → sets[pos]? = some s → s.order ≤ o := by
  have r := brep_of_run hb
  obtain ⟨m, h1, h2⟩ := maxOrder_le sets b.positions r.ok 0
  refine ⟨m, h1, fun o => ?_⟩
  rw [h2]
  constructor
  · rintro ⟨_, hl⟩ u hu p pos s hp hs
    rw [← r.reg u hu p] at hp
    have hm := List.mem_of_getElem? (r.get u hu).1
    refine hl _ hm pos s ?_ hs
    unfold reg at hp
    cases hq : (b.positions.getD u [])[p]? with
    | none => rw [hq] at hp; simp at hp
    | some a =>
      rw [hq] at hp
      simp at hp
      subst hp
      exact List.mem_of_getElem? hq
  · intro hl
    refine ⟨by omega, fun l hm pos s hp hs => ?_⟩
    obtain ⟨u, hu, rfl⟩ := List.mem_iff_getElem.1 hm
    obtain ⟨p, hp', e⟩ := List.mem_iff_getElem.1 hp
    refine hl u (by rw [← r.length]; exact hu) p pos s ?_ hs
    rw [← r.reg u (by rw [← r.length]; exact hu) p]
    simp [reg, List.getD, List.getElem?_eq_getElem hu, List.getElem?_eq_getElem hp', e]

/-- If all unknowns have the same number of functions, leaving out the unknown is asking for unknown 0. -/
theorem lookupLegacy_eq {sets : List BSet} {n : Nat} {h : List BasisOp} {b : EBF} (hb : runBasis sets n h = some b)
    (hn : 0 < n) (N : Nat) (hN : ∀ u < n, b.number sets u = some N) (i : Nat) :
    b.lookupLegacy sets i = b.lookup sets i 0 := by
  have r := brep_of_run hb
  have hl : b.numberLegacy sets = some N := by
    unfold EBF.numberLegacy
    rw [if_neg (by rw [r.length]; omega), hN 0 hn]
    dsimp only
    rw [if_pos]
    rw [List.all_eq_true]
    intro u hu
    rw [List.mem_range, r.length] at hu
    rw [hN u hu]; simp
  unfold EBF.lookupLegacy
  rw [hl]
  dsimp only
  split
  · rfl
  · rename_i hi
    symm
    rw [← Option.not_isSome_iff_eq_none, lookup_isSome hb hn, hN 0 hn]
    simpa using hi

/-- Behind the last place the offset is 0 instead of the number of functions. (The documentation calls the offset
undefined for places without a set; this one agrees with that of place 0.) -/
theorem offset_behind {sets : List BSet} {n : Nat} {b : EBF} {h : List BasisOp} (hb : runBasis sets n h = some b)
    {u : Nat} (hu : u < n) (p : Nat) (hp : (b.positions.getD u []).length ≤ p) : b.offset sets u p = some 0 := by
  have r := brep_of_run hb
  unfold EBF.offset
  rw [(r.get u hu).1]
  dsimp only
  rw [if_pos hp]

/-- Three sets, registered out of order with a gap; one of them is replaced. -/
example : let sets : List BSet := [⟨3, 1⟩, ⟨2, 4⟩, ⟨1, 2⟩]
    let h : List BasisOp := [.register 0 3 1, .register 1 0 0, .register 0 0 2, .clear 1, .register 0 0 0]
    (runBasis sets 2 h).bind (fun b => b.lookup sets 4 0) = some (1, 1) ∧
      (runBasis sets 2 h).bind (fun b => b.offset sets 0 3) = some 3 ∧
      (runBasis sets 2 h).bind (fun b => b.number sets 1) = some 0 ∧
      (runBasis sets 2 h).bind (fun b => b.maxOrder sets) = some 4 := by decide

/-! ## Elements -/

/-- Giving basis functions to the interior, the faces, the edges and the nodes of an element registers them in this
order; the number of coefficients of every unknown is the number of its basis functions. -/
theorem elem_consistent (sets : List BSet) (timeLevels unknowns faces edges nodes : Nat) (ops : List ElemOp)
    (hv : ∀ op ∈ ops, op.Valid sets unknowns faces edges nodes) :
    ∃ e : Elem α, ops.foldlM (ElemOp.exec sets) (Elem.init timeLevels unknowns faces edges nodes) = some e ∧
      runBasis sets unknowns (ops.flatMap (ElemOp.basis faces edges)) = some e.basis ∧
      e.data.counts.length = unknowns ∧ Consistent sets e := by
  obtain ⟨e, h1, h2⟩ := (ERep.init (α := α) sets timeLevels unknowns faces edges nodes).run ops hv
  rw [List.nil_append] at h2
  refine ⟨e, h1, ?_, h2.length, ⟨by rw [h2.length, h2.basis.length], fun u hu => h2.counts u (h2.length ▸ hu)⟩⟩
  exact run_basis sets faces edges ops _ e rfl rfl h1

/-- The sum over the unknowns of the functions at place 0, against the sum over all places: they agree exactly if all
other places are empty. -/
theorem totalLocal_spec (sets : List BSet) (timeLevels unknowns faces edges nodes : Nat) (ops : List ElemOp)
    (hv : ∀ op ∈ ops, op.Valid sets unknowns faces edges nodes) (e : Elem α)
    (he : ops.foldlM (ElemOp.exec sets) (Elem.init timeLevels unknowns faces edges nodes) = some e) :
    ∃ k, e.basis.totalLocal sets = some k ∧ k ≤ e.data.total ∧
      (k = e.data.total ↔ ∀ u < unknowns, ∀ p, 0 < p →
        sizeAt sets (registered (ops.flatMap (ElemOp.basis faces edges)) u p) = 0) := by
  obtain ⟨e', h1, h2⟩ := (ERep.init (α := α) sets timeLevels unknowns faces edges nodes).run ops hv
  rw [he] at h1
  cases h1
  rw [List.nil_append] at h2
  generalize ops.flatMap (ElemOp.basis faces edges) = h at h2 ⊢
  obtain ⟨p, hp1, hp⟩ := exists_bound h2.basis
  refine ⟨_, h2.basis.totalLocal, ?_, ?_⟩
  · rw [h2.total p hp]
    exact sum_map_le _ _ _ fun u _ => by rw [← before_one]; exact before_mono sets h u hp1
  · rw [h2.total p hp]
    constructor
    · intro hE u hu q hq
      by_contra hz
      refine absurd hE (Nat.ne_of_lt ?_)
      refine sum_map_lt _ _ _ (fun u _ => by rw [← before_one]; exact before_mono sets h u hp1)
        ⟨u, List.mem_range.2 hu, ?_⟩
      have hqp : q < p := by
        by_contra hc
        rw [hp u hu q (by omega)] at hz
        simp [sizeAt] at hz
      rw [← before_one]
      have a := before_mono sets h u (show 1 ≤ q from hq)
      have b : before sets h u (q + 1) = before sets h u q + sizeAt sets (registered h u q) :=
        Finset.sum_range_succ _ _
      have c := before_mono sets h u (show q + 1 ≤ p from hqp)
      omega
    · intro hz
      congr 1
      apply List.map_congr_left
      intro u hu
      rw [List.mem_range] at hu
      obtain ⟨p, rfl⟩ : ∃ p', p = p' + 1 := ⟨p - 1, by omega⟩
      unfold before
      rw [Finset.sum_range_succ', Finset.sum_eq_zero fun q _ => hz u hu (q + 1) (by omega)]
      simp

/-- A triangle with one function in the interior, and after that with functions on the nodes too. -/
example : let sets : List BSet := [⟨1, 3⟩, ⟨2, 1⟩]
    let h1 : List ElemOp := [.default 0 0]
    let h2 : List ElemOp := h1 ++ [.vertex 1 0 0, .vertex 1 2 0]
    ((h1.foldlM (ElemOp.exec sets) (Elem.init (α := Int) 1 1 3 0 3)).bind fun e =>
      (e.basis.totalLocal sets).map fun k => (k, e.data.total)) = some (1, 1) ∧
    ((h2.foldlM (ElemOp.exec sets) (Elem.init (α := Int) 1 1 3 0 3)).bind fun e =>
      (e.basis.totalLocal sets).map fun k => (k, e.data.total)) = some (1, 5) := by decide

/-! ## C33 -/

/-- For the left element, `getSide` and `getElementBasisFunctionId` invert `convertToSingleIndex`. -/
theorem single_left (sets : List BSet) (f : Face α) (u b i : Nat) (h : f.single sets .left b u = some i) :
    f.getSide i = some .left ∧ f.getElementId i = f.left.data.single b u ∧ f.getElementId i = some i := by
  unfold Face.single at h
  split at h
  rotate_left
  · exact absurd h (by simp)
  dsimp only at h
  obtain ⟨hr, e⟩ := (single_some _ _ _ _).1 h
  have := off_lt _ _ _ hr
  have hi : i < f.left.data.total := by rw [total_eq]; omega
  refine ⟨?_, ?_, ?_⟩
  · unfold Face.getSide; rw [if_pos hi]
  · unfold Face.getElementId; rw [if_pos hi, h]
  · unfold Face.getElementId; rw [if_pos hi]

theorem single_right_parts (sets : List BSet) (f : Face α) (u b i : Nat) (h : f.single sets .right b u = some i) :
    ∃ r j n, f.right = some r ∧ r.data.single b u = some j ∧ f.left.basis.totalLocal sets = some n ∧ i = n + j ∧
      j < r.data.total := by
  unfold Face.single at h
  split at h
  rotate_left
  · exact absurd h (by simp)
  dsimp only at h
  split at h
  · exact absurd h (by simp)
  rename_i r hr
  cases hj : r.data.single b u with
  | none => rw [hj] at h; simp [bind, Option.bind] at h
  | some j =>
    cases hn : f.left.basis.totalLocal sets with
    | none => rw [hj, hn] at h; simp [bind, Option.bind] at h
    | some n =>
      rw [hj, hn] at h
      simp only [bind, Option.bind] at h
      cases h
      obtain ⟨hR, e⟩ := (single_some _ _ _ _).1 hj
      have := off_lt _ _ _ hR
      exact ⟨r, j, n, hr, hj, rfl, rfl, by rw [total_eq]; omega⟩

/-- For the right element they do if all functions of the left element belong to its interior, as those of
discontinuous Galerkin methods (`totalLocal_spec`). What is missing is every other case, in which it is wrong for all
functions (`single_right_wrong`). -/
theorem single_right_partial (sets : List BSet) (f : Face α) (u b i : Nat)
    (hl : f.left.basis.totalLocal sets = some f.left.data.total) (h : f.single sets .right b u = some i) :
    f.getSide i = some .right ∧ ∃ r, f.right = some r ∧ f.getElementId i = r.data.single b u := by
  obtain ⟨r, j, n, hr, hj, hn, rfl, hlt⟩ := single_right_parts sets f u b i h
  rw [hl] at hn
  cases hn
  have hb : f.below (f.left.data.total + j) = true := by
    unfold Face.below; rw [hr]; simp; exact hlt
  refine ⟨?_, r, hr, ?_⟩
  · unfold Face.getSide; rw [if_neg (by omega), if_pos hb]
  · unfold Face.getElementId; rw [if_neg (by omega), if_pos hb, hj]; congr 1; omega

/-- If the left element has functions on faces, edges or nodes, as for conforming methods, no function of the right
element is found again: `convertToSingleIndex` counts the functions of the interior of the left element, the other two
all of them. -/
theorem single_right_wrong (sets : List BSet) (f : Face α) (u b i k : Nat)
    (hk : f.left.basis.totalLocal sets = some k) (hlt : k < f.left.data.total)
    (h : f.single sets .right b u = some i) :
    ¬ (f.getSide i = some .right ∧ ∃ r, f.right = some r ∧ f.getElementId i = r.data.single b u) := by
  obtain ⟨r, j, n, hr, hj, hn, rfl, hj2⟩ := single_right_parts sets f u b i h
  rw [hk] at hn
  cases hn
  rintro ⟨h1, r', hr', h2⟩
  rw [hr] at hr'
  cases hr'
  rw [hj] at h2
  unfold Face.getSide at h1
  unfold Face.getElementId at h2
  by_cases hi : k + j < f.left.data.total
  · rw [if_pos hi] at h1; exact absurd h1 (by simp)
  · rw [if_neg hi] at h2
    split at h2
    · have := Option.some.inj h2; omega
    · exact absurd h2 (by simp)

/-- Boundary faces have no right element. -/
theorem single_boundary (sets : List BSet) (f : Face α) (u b : Nat) (h : f.right = none) :
    f.single sets .right b u = none := by
  unfold Face.single; rw [h]; split <;> rfl

/-- With functions of the interiors only, every number below the number of functions of both elements stands for one
function of one element. -/
theorem single_bijective_partial (sets : List BSet) (f : Face α) (r : Elem α) (hr : f.right = some r)
    (hl : f.left.basis.totalLocal sets = some f.left.data.total)
    (hu : r.data.counts.length = f.left.data.counts.length) (i : Nat)
    (hi : i < f.left.data.total + r.data.total) :
    ∃! p : Side × Nat × Nat, f.single sets p.1 p.2.2 p.2.1 = some i := by
  have ex : ∃ p : Side × Nat × Nat, f.single sets p.1 p.2.2 p.2.1 = some i := by
    by_cases h : i < f.left.data.total
    · rw [total_eq] at h
      obtain ⟨u, b, h1, h2⟩ := exists_index _ i h
      refine ⟨(.left, u, b), ?_⟩
      unfold Face.single
      dsimp only
      rw [if_pos h1.1, single_eq _ u b h1, h2]
    · obtain ⟨u, b, h1, h2⟩ := exists_index r.data.counts (i - f.left.data.total) (by
        rw [← total_eq]; omega)
      refine ⟨(.right, u, b), ?_⟩
      unfold Face.single
      dsimp only
      rw [if_pos (by rw [← hu]; exact h1.1), hr]
      simp only [single_eq _ u b h1, hl, bind, Option.bind]
      congr 1; omega
  obtain ⟨p, hp⟩ := ex
  refine ⟨p, hp, ?_⟩
  -- the side and the number in the element are determined
  have dec : ∀ s u b, f.single sets s b u = some i → f.getSide i = some s ∧
      f.getElementId i = (match s with | .left => f.left.data.single b u | .right => r.data.single b u) ∧
      (match s with | .left => InRange f.left.data.counts u b | .right => InRange r.data.counts u b) := by
    intro s u b h
    cases s with
    | left =>
      obtain ⟨h1, h2, _⟩ := single_left sets f u b i h
      refine ⟨h1, h2, ?_⟩
      unfold Face.single at h
      split at h
      · exact ((single_some _ _ _ _).1 h).1
      · exact absurd h (by simp)
    | right =>
      obtain ⟨h1, r', hr', h2⟩ := single_right_partial sets f u b i hl h
      rw [hr] at hr'
      cases hr'
      obtain ⟨r', j, n, hr', hj, _⟩ := single_right_parts sets f u b i h
      rw [hr] at hr'
      cases hr'
      exact ⟨h1, h2, ((single_some _ _ _ _).1 hj).1⟩
  rintro ⟨s, u, b⟩ h
  obtain ⟨t, v, c⟩ := p
  obtain ⟨a1, a2, a3⟩ := dec s u b h
  obtain ⟨b1, b2, b3⟩ := dec t v c hp
  rw [a1] at b1
  cases b1
  rw [a2] at b2
  cases s with
  | left =>
    dsimp only at a3 b3 b2
    rw [single_eq _ u b a3, single_eq _ v c b3] at b2
    obtain ⟨rfl, rfl⟩ := index_inj _ u b v c a3 b3 (Option.some.inj b2)
    rfl
  | right =>
    dsimp only at a3 b3 b2
    rw [single_eq _ u b a3, single_eq _ v c b3] at b2
    obtain ⟨rfl, rfl⟩ := index_inj _ u b v c a3 b3 (Option.some.inj b2)
    rfl

/-- The vector of a face has the coefficients of the left element and then those of the right element. -/
theorem face_vector (f : Face α) (r : Elem α) (hr : f.right = some r) (ml mr : Mem α) (hl : Agree f.left.data ml)
    (hm : Agree r.data mr) (id u : Nat) (h1 : id < ml.numVectors) (h2 : id < mr.numVectors)
    (h3 : u < ml.counts.length) (h4 : u < mr.counts.length) :
    f.getVector id u = some (part (ml.counts.getD u 0) (ml.vector id u) ++ part (mr.counts.getD u 0) (mr.vector id u)) := by
  have e1 : f.left.data.counts[u]? = some (ml.counts.getD u 0) := by rw [hl.counts]; exact counts_get _ u h3
  have e2 : r.data.counts[u]? = some (mr.counts.getD u 0) := by rw [hm.counts]; exact counts_get _ u h4
  unfold Face.getVector Face.number
  rw [hl.subvector id h1 u h3]
  simp only [bind, Option.bind, hr, e1, e2, hm.subvector id h2 u h4]
  rw [if_pos (by rw [part_length]; omega)]
  congr 1
  congr 1
  · unfold resize
    rw [List.take_append_of_le_length (by simp [part_length]), List.take_take,
      List.take_of_length_le (by rw [part_length]; omega)]
  · rw [List.take_of_length_le (by rw [part_length]; omega)]

/-- The vector of a boundary face has the coefficients of its element. -/
theorem boundary_vector (f : Face α) (hr : f.right = none) (ml : Mem α) (hl : Agree f.left.data ml)
    (id u : Nat) (h1 : id < ml.numVectors) (h3 : u < ml.counts.length) :
    f.getVector id u = some (part (ml.counts.getD u 0) (ml.vector id u)) := by
  unfold Face.getVector
  rw [hl.subvector id h1 u h3]
  simp only [bind, Option.bind, hr]

/-- A face between two elements with two unknowns each: the index 4 is function 0 of unknown 1 on the right. -/
example : let sets : List BSet := [⟨2, 1⟩, ⟨1, 0⟩]
    let ops : List ElemOp := [.default 0 0, .default 1 1]
    let run := fun ops : List ElemOp => ops.foldlM (ElemOp.exec sets) (Elem.init (α := Int) 1 2 3 0 3)
    ((run ops).bind fun l => (run [.default 1 0, .default 1 1]).bind fun r =>
      let f : Face Int := ⟨l, some r⟩
      (f.single sets .right 0 1).bind fun i => some (i, f.getSide i, f.getElementId i)) =
      some (4, some .right, some 1) := by decide

/-- The same with conforming functions: function 0 of the right element gets the number of a node function of the left
one. -/
example : let sets : List BSet := [⟨1, 3⟩, ⟨1, 1⟩]
    let run := fun ops : List ElemOp => ops.foldlM (ElemOp.exec sets) (Elem.init (α := Int) 1 1 3 0 3)
    ((run [.default 0 0, .vertex 1 0 0, .vertex 1 1 0, .vertex 1 2 0]).bind fun e =>
      let f : Face Int := ⟨e, some e⟩
      (f.single sets .right 0 0).bind fun i => (f.single sets .left 1 0).bind fun j =>
        some (i, j, f.getSide i)) = some (1, 1, some .left) := by decide

end Verif.ElementData
