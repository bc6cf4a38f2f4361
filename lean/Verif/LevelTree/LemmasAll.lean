import Verif.LevelTree.LemmasLevelBack
set_option linter.all false
namespace Verif.LevelTree
variable {V : Type}

theorem posLevel_sub {f : List (Entry V)} (level : Nat) : ∀ up : List Nat,
    ∀ a ∈ posLevel level up 0 (sibs f up), a ∈ posLevel level [] 0 f
  | [], a, h => h
  | j :: up, a, h => by
    refine posLevel_sub level up a ?_
    cases hj : (sibs f up)[j]? with
    | none => simp [sibs, hj, posLevel] at h
    | some p =>
      have hAt : At f up j p := hj
      rw [hAt.sibs] at h
      have hlt := hAt.lt
      have hs : sibs f up = (sibs f up).take j ++ p :: (sibs f up).drop (j + 1) := by
        have := List.drop_eq_getElem_cons hlt
        rw [List.getElem?_eq_getElem hlt] at hj
        rw [Option.some.inj hj] at this
        rw [← this, List.take_append_drop]
      rw [hs, posLevel_append, posLevel_cons]
      simp only [List.length_take, Nat.zero_add, Nat.min_eq_left (Nat.le_of_lt hlt), List.mem_append]
      exact Or.inr (Or.inr (Or.inl h))

theorem mem_posLevel {f : List (Entry V)} {level : Nat} {up : List Nat} {i : Nat} {e : Entry V} (h : At f up i e)
    (h1 : e.level ≤ level) (h2 : level < e.level + e.depth) : ⟨up, i, level - e.level⟩ ∈ posLevel level [] 0 f := by
  refine posLevel_sub level up _ ?_
  have hj : (sibs f up)[i]? = some e := h
  have hlt := h.lt
  have hs : sibs f up = (sibs f up).take i ++ e :: (sibs f up).drop (i + 1) := by
    have := List.drop_eq_getElem_cons hlt
    rw [List.getElem?_eq_getElem hlt] at hj
    rw [Option.some.inj hj] at this
    rw [← this, List.take_append_drop]
  rw [hs, posLevel_append, posLevel_cons, if_pos ⟨h1, h2⟩]
  simp [Nat.min_eq_left (Nat.le_of_lt hlt)]

theorem onLevel_nil_iff {f : List (Entry V)} (level : Nat) : onLevel level f = [] ↔ posLevel level [] 0 f = [] := by
  have hS := shows_posLevel (level := level) (Tail.start f [])
  change Shows f (posLevel level [] 0 f) (onLevel level f) at hS
  unfold Shows at hS
  have := congrArg List.length hS
  simp at this
  rw [← List.length_eq_zero_iff, ← List.length_eq_zero_iff, this]

section
variable {f : List (Entry V)} (w : Wf f)
include w

theorem posLevel_ne {level : Nat} {up : List Nat} {i : Nat} {e : Entry V} (h : At f up i e)
    (h2 : level < e.level + e.depth) : posLevel level [] 0 f ≠ [] := by
  induction up generalizing i e with
  | nil => exact List.ne_nil_of_mem (mem_posLevel h (by rw [w.root _ _ h]; omega) h2)
  | cons j up ih =>
    by_cases hl : e.level ≤ level
    · exact List.ne_nil_of_mem (mem_posLevel h hl h2)
    · obtain ⟨p, hp, hc⟩ := h.parent
      have := w.child _ _ _ hp e (List.mem_of_getElem? hc)
      exact ih hp (by omega)

theorem onLevel_ne_iff (level : Nat) : onLevel level f ≠ [] ↔ ∃ up i e, At f up i e ∧ level < e.level + e.depth := by
  constructor
  · intro h
    rw [Ne, onLevel_nil_iff] at h
    obtain ⟨a, l, hal⟩ := List.exists_cons_of_ne_nil h
    obtain ⟨e, he, h1, h2⟩ := posLevel_at (level := level) (Tail.start f []) a (by change a ∈ posLevel level [] 0 f; rw [hal]; simp)
    exact ⟨_, _, e, he, by omega⟩
  · rintro ⟨up, i, e, he, h⟩
    rw [Ne, onLevel_nil_iff]
    exact posLevel_ne w he h

/-- Where the search for the first entry on a level ends. -/
theorem first_eq (hne : f ≠ []) : ∃ r up' i' e', At f [] (f.length - 1) r ∧
    LastOf f [] (f.length - 1) r up' i' e' ∧ LastLeaf f e' ∧ i' + 1 = (sibs f up').length ∧
    (∀ c, nextPreOrderUp f ⟨up', i', c⟩ = some ⟨up', i' + 1, 0⟩) ∧
    (∀ level, moveDownToLevelBegin f level ⟨[], 0, 0⟩ = some ((posLevel level [] 0 f).headD ⟨up', i' + 1, 0⟩)) := by
  obtain ⟨r, up', i', e', hr, L, hl, h1, h2, h3⟩ := lastOf_forest w hne
  refine ⟨r, up', i', e', hr, L, hl, h3, h2, fun level => ?_⟩
  have hp : past f ⟨up', i' + 1, 0⟩ = true := by simp [past, h3]
  have hmd := moveDown_eq w (level := level) (Tail.start f []) ⟨up', i' + 1, 0⟩ (by
      intro e he
      obtain ⟨k, hk⟩ := List.mem_iff_getElem?.1 he
      rw [w.root k e hk]; omega) (by
    intro e he
    have : e = r := At.inj he hr
    subst this
    exact h1)
  obtain ⟨e, es, rfl⟩ := List.exists_cons_of_ne_nil hne
  have h : At (e :: es) [] 0 e := rfl
  simp only [sibs] at hmd
  rw [prePos_head w h] at hmd
  rw [hmd]
  cases hpl : posLevel level [] 0 (e :: es) with
  | nil => exact moveDown_past hp
  | cons p l => rfl

omit w in
theorem walkO_last {c : Iter → Option (Option Iter)} {l : List Iter} {a : Iter} (h : WalkO c l none) (ha : a ∈ l)
    (hc : c a = some none) : l.getLast? = some a := by
  induction l with
  | nil => simp at ha
  | cons b l ih =>
    cases l with
    | nil => simp at ha; simp [ha]
    | cons d l =>
      rcases List.mem_cons.1 ha with rfl | ha
      · have := h.1; rw [hc] at this; simp at this
      · rw [List.getLast?_cons_cons]; exact ih h.2 ha

theorem last_past (thin : Thin f) {level : Nat} {p : Iter} (hp : p ∈ posLevel level [] 0 f)
    (hc : contL f level p = some none) : past f ⟨p.up, p.idx + 1, p.counter⟩ = true := by
  obtain ⟨a, ha, hal, had⟩ := posLevel_at (level := level) (Tail.start f []) p hp
  have hda := thin _ _ _ ha
  cases hpp : past f ⟨p.up, p.idx + 1, p.counter⟩ with
  | true => rfl
  | false =>
    have hlt : p.idx + 1 < (sibs f p.up).length := by
      have := ha.lt
      simp [past] at hpp; omega
    obtain ⟨b, hb⟩ := at_of_lt hlt
    have hdb := thin _ _ _ hb
    have hn : nextPreOrderUp f ⟨p.up, p.idx, p.counter⟩ = some ⟨p.up, p.idx + 1, 0⟩ := nextUp_sibling w ha hlt
    have hlv := level_at w ha hb
    have hmd := moveDown_stop (level := level) (hb.deref 0) (by simp; omega)
    have : contL f level ⟨p.up, p.idx, p.counter⟩ = some (some ⟨p.up, p.idx + 1, 0⟩) := by
      simp [contL, hn, hmd, hb.past]
    have hc' : contL f level ⟨p.up, p.idx, p.counter⟩ = some none := hc
    rw [hc'] at this
    simp at this

theorem level_walkAll (hne : f ≠ []) (thin : Thin f) {z : Iter}
    (hz : ∀ level, moveDownToLevelBegin f level ⟨[], 0, 0⟩ = some ((posLevel level [] 0 f).headD z)) (level : Nat) :
    Walk (incr .allLevel f) (posLevel level [] 0 f) ((posLevel (level + 1) [] 0 f).headD z) := by
  obtain ⟨hw, -⟩ := level_walk w hne level
  have key : ∀ l : List Iter, (∀ a ∈ l, a ∈ posLevel level [] 0 f) → WalkO (contL f level) l none →
      Walk (incr .allLevel f) l ((posLevel (level + 1) [] 0 f).headD z) := by
    intro l
    induction l with
    | nil => simp [Walk]
    | cons a l ih =>
      intro hsub hw
      have ham := hsub a (by simp)
      obtain ⟨b, hb, hbl, hbd⟩ := posLevel_at (level := level) (Tail.start f []) a ham
      have hpast : past f a = false := hb.past a.counter
      have hnext := nextOnLevel_eq w hb hbd
      rw [hbl] at hnext
      have hnext' : moveToNextOnLevel f a = (contL f level a).map fun r => r.getD ⟨a.up, a.idx + 1, a.counter⟩ := hnext
      refine ⟨?_, ih (fun x hx => hsub x (by simp [hx])) hw.2⟩
      cases l with
      | nil =>
        have hc : contL f level a = some none := by simpa using hw.1
        have hp := last_past w thin ham hc
        rw [hc] at hnext'
        simp only [Option.map_some, Option.getD_none] at hnext'
        obtain ⟨k, hk⟩ := moveUp_zero w (c := a.counter) hb
        have hk' : moveUpToLevel f 0 a = some ⟨[], k, 0⟩ := hk
        have hda : deref f a = some b := hb
        obtain ⟨e0, es, rfl⟩ := List.exists_cons_of_ne_nil hne
        have h0 : At (e0 :: es) [] 0 e0 := rfl
        have hd : dec ⟨a.up, a.idx + 1, a.counter⟩ = some a := by simp [dec]
        simp only [incr, hpast, moveToNextMultiLevel, hnext', Option.bind_eq_bind, Option.bind_some, hp, if_true, hd,
          levelOf, hda, Option.map_some, hbl, moveToFirstOnLevel, beforeEnd, hk', sibs, w.sib _ _ _ h0, if_false, Bool.false_eq_true]
        simp only [List.getElem?_cons_zero, Option.bind_some, w.sib _ _ _ h0]
        rw [hz]
        rfl
      | cons d l =>
        have hc : contL f level a = some (some d) := by simpa using hw.1
        obtain ⟨e, he, -⟩ := posLevel_at (level := level) (Tail.start f []) d (hsub d (by simp))
        have hpd : past f d = false := he.past d.counter
        rw [hc] at hnext'
        simp [incr, hpast, moveToNextMultiLevel, hnext', hpd]
  exact key _ (fun _ h => h) hw

/-- All positions on the levels `k`, `k+1`, …, `k+n-1`. -/
def allPos (f : List (Entry V)) (k : Nat) : Nat → List Iter
  | 0 => []
  | n + 1 => posLevel k [] 0 f ++ allPos f (k + 1) n

omit w in
theorem allPos_head (z : Iter) (k n : Nat) (h : ∀ j, k ≤ j → j < k + n → posLevel j [] 0 f ≠ []) :
    (allPos f k n).headD ((posLevel (k + n) [] 0 f).headD z) = (posLevel k [] 0 f).headD z := by
  cases n with
  | zero => rfl
  | succ n =>
    obtain ⟨a, l, hal⟩ := List.exists_cons_of_ne_nil (h k (by omega) (by omega))
    simp [allPos, hal]

theorem walk_allPos (hne : f ≠ []) (thin : Thin f) {z : Iter}
    (hz : ∀ level, moveDownToLevelBegin f level ⟨[], 0, 0⟩ = some ((posLevel level [] 0 f).headD z)) (n : Nat) : ∀ k,
    (∀ j, k ≤ j → j < k + n → posLevel j [] 0 f ≠ []) →
    Walk (incr .allLevel f) (allPos f k n) ((posLevel (k + n) [] 0 f).headD z) := by
  induction n with
  | zero => intro k _; trivial
  | succ n ih =>
    intro k h
    refine Walk.append ?_ (by have := ih (k + 1) (fun j h1 h2 => h j (by omega) (by omega)); rwa [show k + 1 + n = k + (n + 1) by omega] at this)
    have := allPos_head z (k + 1) n (fun j h1 h2 => h j (by omega) (by omega))
    rw [show k + 1 + n = k + (n + 1) by omega] at this
    rw [this]
    exact level_walkAll w hne thin hz k

omit w in
theorem shows_allPos (k n : Nat) : Shows f (allPos f k n) ((List.range' k n).flatMap fun l => onLevel l f) := by
  induction n generalizing k with
  | zero => simp [Shows, allPos]
  | succ n ih =>
    rw [List.range'_succ, List.flatMap_cons]
    exact Shows.append (shows_posLevel (Tail.start f [])) (ih (k + 1))

theorem allPos_at {k n : Nat} : ∀ a ∈ allPos f k n, ∃ e, At f a.up a.idx e ∧ k ≤ e.level + a.counter ∧ e.level + a.counter < k + n ∧ a.counter < e.depth := by
  induction n generalizing k with
  | zero => simp [allPos]
  | succ n ih =>
    intro a ha
    rw [allPos, List.mem_append] at ha
    rcases ha with ha | ha
    · obtain ⟨e, he, h1, h2⟩ := posLevel_at (level := k) (Tail.start f []) a ha
      exact ⟨e, he, by omega, by omega, h2⟩
    · obtain ⟨e, he, h1, h2, h3⟩ := ih a ha
      exact ⟨e, he, by omega, by omega, h3⟩

theorem finish_all (hne : f ≠ []) (thin : Thin f) (level : Nat) {z : Iter} {r e' : Entry V} {up' : List Nat} {i' : Nat}
    (hr : At f [] (f.length - 1) r) (L : LastOf f [] (f.length - 1) r up' i' e')
    (h3 : i' + 1 = (sibs f up').length)
    (h2 : ∀ c, nextPreOrderUp f ⟨up', i', c⟩ = some ⟨up', i' + 1, 0⟩)
    (hz : ∀ level, moveDownToLevelBegin f level ⟨[], 0, 0⟩ = some ((posLevel level [] 0 f).headD z)) :
    finish .allLevel level f = some ((posLevel (e'.level + 1) [] 0 f).headD z) ∧
    (posLevel e'.level [] 0 f).getLast? = some ⟨up', i', 0⟩ := by
  have hd := thin _ _ _ L.at'
  have hm : (⟨up', i', 0⟩ : Iter) ∈ posLevel e'.level [] 0 f := by
    have := mem_posLevel L.at' (Nat.le_refl _) (by omega)
    rwa [Nat.sub_self] at this
  have hp : past f ⟨up', i' + 1, 0⟩ = true := by simp [past, h3]
  have hc : contL f e'.level ⟨up', i', 0⟩ = some none := by simp [contL, h2, moveDown_past hp, hp]
  have hlast := walkO_last (level_walk w hne e'.level).1 hm hc
  refine ⟨?_, hlast⟩
  rw [finish_pre w hne hr L _ (Or.inr rfl)]
  have hwalk := level_walkAll w hne thin hz e'.level
  have : ∀ l : List Iter, ∀ y, Walk (incr .allLevel f) l y → ∀ p, l.getLast? = some p → incr .allLevel f p = some y := by
    intro l
    induction l with
    | nil => simp
    | cons a l ih =>
      intro y hw p hl
      cases l with
      | nil => simp at hl; subst hl; simpa using hw.1
      | cons b l => exact ih y hw.2 p (by simpa using hl)
  exact this _ _ hwalk _ hlast

theorem same_comm (a b : Iter) : same f a b = same f b a := by
  simp only [same]
  cases h1 : past f a <;> cases h2 : past f b <;> simp
  rw [Bool.eq_iff_iff]
  simp only [Bool.and_eq_true, beq_iff_eq]
  constructor <;> rintro ⟨x, y⟩ <;> exact ⟨x.symm, y.symm⟩

theorem same_level (thin : Thin f) {a b : Iter} {e e' : Entry V} (ha : At f a.up a.idx e) (hb : At f b.up b.idx e')
    (hl : e.level ≠ e'.level) : same f a b = false := by
  have h1 : past f a = false := ha.past a.counter
  have h2 : past f b = false := hb.past b.counter
  simp [same, h1, h2]
  intro hu hi
  rw [hu, hi] at ha
  exact hl (by rw [ha.inj hb])

/-- Every position of the lower levels differs from the end. -/
theorem diff_end (thin : Thin f) {z : Iter} (hz : past f z = true) (n : Nat) :
    ∀ a ∈ allPos f 0 n, same f a ((posLevel n [] 0 f).headD z) = false := by
  intro a ha
  obtain ⟨e, he, -, h2, h3⟩ := allPos_at w a ha
  have hap : past f a = false := he.past a.counter
  have := thin _ _ _ he
  cases hpl : posLevel n [] 0 f with
  | nil => exact same_past hap hz
  | cons p l =>
    obtain ⟨e', he', h4, h5⟩ := posLevel_at (level := n) (Tail.start f []) p (by change p ∈ posLevel n [] 0 f; rw [hpl]; simp)
    have := thin _ _ _ he'
    exact same_level w thin he he' (by omega)

theorem iterate_all (hne : f ≠ []) (thin : Thin f) (level : Nat) {e : Entry V} (hl : LastLeaf f e) :
    iterate .allLevel level f = some ((List.range (e.level + 1)).flatMap fun l => onLevel l f) := by
  obtain ⟨r, up', i', e', hr, L, hll, h3, h2, hz⟩ := first_eq w hne
  have hee : e' = e := by
    have : ∀ (g : List (Entry V)) (a b : Entry V), LastLeaf g a → LastLeaf g b → a = b := by
      intro g a b ha
      induction ha generalizing b with
      | leaf g a h1 h2 =>
        intro hb
        cases hb with
        | leaf _ _ h3 h4 => rw [h1] at h3; exact Option.some.inj h3
        | node _ p _ h3 h4 =>
          rw [h1] at h3; cases h3
          rw [h2] at h4
          cases h4 <;> simp_all
      | node g p a h1 h2 ih =>
        intro hb
        cases hb with
        | leaf _ _ h3 h4 =>
          rw [h1] at h3; cases h3
          rw [h4] at h2
          cases h2 <;> simp_all
        | node _ p' _ h3 h4 =>
          rw [h1] at h3; cases h3
          exact ih _ h4
    exact this f _ _ hll hl
  subst hee
  have hp : past f ⟨up', i' + 1, 0⟩ = true := by simp [past, h3]
  obtain ⟨hfin, -⟩ := finish_all w hne thin level hr L h3 h2 hz
  have hne' : ∀ j, 0 ≤ j → j < 0 + (e'.level + 1) → posLevel j [] 0 f ≠ [] := fun j _ hj =>
    posLevel_ne w L.at' (by have := w.depth _ _ _ L.at'; omega)
  have hw := walk_allPos w hne thin hz (e'.level + 1) 0 hne'
  have := loop_eq (b := (posLevel (e'.level + 1) [] 0 f).headD ⟨up', i' + 1, 0⟩) _ _ _ hw (shows_allPos 0 (e'.level + 1))
    (diff_end w thin hp _) (by rw [Nat.zero_add]; exact same_self w _)
  rw [allPos_head _ _ _ hne'] at this
  have h0 : (posLevel 0 [] 0 f).headD ⟨up', i' + 1, 0⟩ = ⟨[], 0, 0⟩ := by
    have h1 := hz 0
    obtain ⟨e0, es, rfl⟩ := List.exists_cons_of_ne_nil hne
    have h0 : At (e0 :: es) [] 0 e0 := rfl
    rw [moveDown_stop (h0.deref 0) (by simp)] at h1
    exact (Option.some.inj h1).symm
  rw [h0] at this
  simp only [iterate, hfin, (begin_pre w hne .allLevel (Or.inr rfl) level ⟨[], 0, 0⟩).2, Option.bind_eq_bind, Option.bind_some]
  rw [this, List.range_eq_range']

/-! ### Backwards -/

theorem hasPrev_eq (thin : Thin f) {up : List Nat} {i : Nat} {e : Entry V} (h : At f up i e) :
    hasPreviousOnLevel f ⟨up, i, 0⟩ = some (decide (before f e.level up i ≠ [])) := by
  have hde := thin _ _ _ h
  simp only [hasPreviousOnLevel, h.past, h.deref, Option.bind_eq_bind, Option.bind_some, w.isFirst h, Bool.false_eq_true, if_false]
  cases i with
  | succ i =>
    obtain ⟨a, ha⟩ := at_of_lt (f := f) (up := up) (i := i) (by have := h.lt; omega)
    have hlv := level_at w ha h
    have hda := thin _ _ _ ha
    have : before f e.level up (i + 1) ≠ [] := by
      rw [before_succ ha, posLevel_cons, if_pos ⟨by omega, by omega⟩]
      simp
    simp [this]
  | zero =>
    simp only [decide_true, Bool.not_true, Bool.false_eq_true, if_false, levelOf, h.deref, Option.map_some, Option.bind_some, Nat.add_zero]
    cases hpt : prevTree up 0 with
    | none =>
      obtain ⟨c', r, h1, h2⟩ := climbFirstRoot_none w h hpt 0
      simp [h1, h2.deref, w.isFirst h2, before_none e.level hpt]
    | some q =>
      obtain ⟨up', i'⟩ := q
      obtain ⟨c', h1, h2⟩ := climbFirstRoot_eq w h hpt 0
      obtain ⟨a, b, ha, hb⟩ := prevTree_at w h hpt
      have hc' : c' = 0 := by
        rcases h2 with ⟨h2, -⟩ | ⟨-, a', ha', rfl⟩
        · omega
        · have := thin _ _ _ ha'; omega
      subst hc'
      have hda := thin _ _ _ ha
      have hdb := thin _ _ _ hb
      have hab := level_at w ha hb
      have hae : a.level ≤ e.level := by
        obtain ⟨c1, -, h3⟩ := climbFirst_eq w h hpt 0
        rcases h3 with ⟨h3, -⟩ | ⟨-, b', hb', -, h4⟩
        · omega
        · have := level_at w ha hb'; omega
      have hprev : moveToPreviousOnLevel f ⟨up', i' + 1, 0⟩ = some ⟨up', i', 0⟩ := by
        refine prevOnLevel_eq w hb ?_
        rw [before_succ ha, posLevel_cons, if_pos ⟨by omega, by omega⟩,
          posLevel_above w ha.tail (by intro c hc; rw [w.child _ _ _ ha c hc]; omega)]
        simp [posLevel, hab]
      simp only [h1, Option.bind_some, hb.deref, w.isFirst hb]
      have hne0 : ¬ (i' + 1 = 0) := by omega
      simp only [hne0, decide_false, Bool.false_eq_true, if_false, hprev, Option.bind_some]
      rw [before_prevTree e.level hpt]
      by_cases hn : before f e.level up' (i' + 1) = []
      · obtain ⟨x, hx⟩ := moveDownEnd_none w (level := e.level) ha hae (c := 0) (Or.inr ⟨by omega, by omega⟩) hn
        simp [hx, hn]
      · obtain ⟨p, hp⟩ : ∃ p, (before f e.level up' (i' + 1)).getLast? = some p := by
          cases hg : (before f e.level up' (i' + 1)).getLast? with
          | none => exact absurd (List.getLast?_eq_none_iff.1 hg) hn
          | some p => exact ⟨p, rfl⟩
        have := moveDownEnd_some w (level := e.level) ha hae (c := 0) (Or.inr ⟨by omega, by omega⟩) hp
        simp [this, hn]

/-- One step back from an entry on a level. -/
theorem prevMulti_eq (hne : f ≠ []) (thin : Thin f) {up : List Nat} {i : Nat} {e : Entry V} (h : At f up i e) :
    (∀ p, (before f e.level up i).getLast? = some p → moveToPreviousMultiLevel f ⟨up, i, 0⟩ = some p) ∧
    (before f e.level up i = [] → 0 < e.level → ∀ p, (posLevel (e.level - 1) [] 0 f).getLast? = some p →
      moveToPreviousMultiLevel f ⟨up, i, 0⟩ = some p) := by
  constructor
  · intro p hp
    have hn : before f e.level up i ≠ [] := by intro h0; rw [h0] at hp; simp at hp
    have := prevOnLevel_eq w h (c := 0) (p := p) (by simpa using hp)
    simp [moveToPreviousMultiLevel, hasPrev_eq w thin h, hn, this]
  · intro hn h0 p hp
    have := moveToLast_eq w hne (level := e.level - 1) (it := ⟨up, i, 0⟩)
      ⟨⟨up, i, 0⟩, e, by simp [beforeEnd, h.past], h.deref 0⟩ hp
    have hl : e.level ≠ 0 := by omega
    simp [moveToPreviousMultiLevel, hasPrev_eq w thin h, hn, levelOf, h.deref, hl, this]

theorem back_level (hne : f ≠ []) (thin : Thin f) {level : Nat} {up : List Nat} {i : Nat} {es : List (Entry V)} (t : Tail f up i es) :
    BackFrom (moveToPreviousMultiLevel f) (before f level up i) (posLevel level up i es) ∧
    (0 < level → before f level up i = [] → ∀ a, (posLevel level up i es).head? = some a → ∀ p,
      (posLevel (level - 1) [] 0 f).getLast? = some p → moveToPreviousMultiLevel f a = some p) := by
  induction t using forest_ind with
  | nil => simp [posLevel, BackFrom]
  | cons up i e es hAt t t' ih1 ih2 =>
    have hb : before f level up (i + 1) = before f level up i ++
        ((if e.level ≤ level ∧ level < e.level + e.depth then [⟨up, i, level - e.level⟩] else []) ++
          posLevel level (i :: up) 0 e.children) := by
      rw [before_succ hAt, posLevel_cons]; simp [posLevel]
    have hd := thin _ _ _ hAt
    rw [posLevel_cons, ← List.append_assoc]
    by_cases hin : e.level ≤ level ∧ level < e.level + e.depth
    · rw [if_pos hin] at hb ⊢
      have hnil := posLevel_above w hAt.tail (level := level) (by intro c hc; rw [w.child _ _ _ hAt c hc]; omega)
      rw [hnil, List.append_nil] at hb ⊢
      have hl : e.level = level := by omega
      subst hl
      rw [Nat.sub_self] at hb ⊢
      obtain ⟨h1, h2⟩ := prevMulti_eq w hne thin hAt
      refine ⟨BackFrom.append ⟨h1, trivial⟩ (by rw [← hb]; exact ih2.1), ?_⟩
      intro h0 hn a ha p hp
      simp at ha; subst ha
      exact h2 hn h0 p hp
    · rw [if_neg hin, List.nil_append] at hb ⊢
      rw [before_zero] at ih1
      refine ⟨BackFrom.append ih1.1 (by rw [← hb]; exact ih2.1), ?_⟩
      intro h0 hn a ha p hp
      cases hc : posLevel level (i :: up) 0 e.children with
      | nil =>
        rw [hc, List.append_nil] at hb
        rw [hc, List.nil_append] at ha
        exact ih2.2 h0 (by rw [hb, hn]) a ha p hp
      | cons x l =>
        rw [hc] at ha
        exact ih1.2 h0 hn a (by rw [hc]; simpa using ha) p hp

theorem walkBack_level (hne : f ≠ []) (thin : Thin f) (level : Nat) {z : Iter}
    (hz : ∀ p, (posLevel level [] 0 f).getLast? = some p → decr .allLevel f z = some p) :
    WalkBack (decr .allLevel f) (posLevel level [] 0 f) z := by
  have h := (back_level w hne thin (level := level) (Tail.start f [])).1
  have hb0 : before f level [] 0 = [] := by simp [before, posLevel]
  rw [hb0] at h
  refine BackFrom.walkBack (prev := decr .allLevel f) (l0 := []) ?_ (by simpa using hz)
  exact h

theorem walkBack_all (hne : f ≠ []) (thin : Thin f) (n : Nat) : ∀ k z,
    (∀ j, k ≤ j → j < k + n → posLevel j [] 0 f ≠ []) →
    (∀ p, n ≠ 0 → (posLevel (k + n - 1) [] 0 f).getLast? = some p → decr .allLevel f z = some p) →
    WalkBack (decr .allLevel f) (allPos f k n) z := by
  induction n with
  | zero => intro k z _ _; trivial
  | succ n ih =>
    intro k z hj hz
    refine WalkBack.append ?_ (ih (k + 1) z (fun j h1 h2 => hj j (by omega) (by omega)) (fun p hn hp =>
      hz p (by omega) (by rwa [show k + (n + 1) - 1 = k + 1 + n - 1 by omega])))
    refine walkBack_level w hne thin k ?_
    intro p hp
    cases n with
    | zero => simpa [allPos] using hz p (by omega) (by simpa using hp)
    | succ n =>
      obtain ⟨a, l, hal⟩ := List.exists_cons_of_ne_nil (hj (k + 1) (by omega) (by omega))
      have := (back_level w hne thin (level := k + 1) (Tail.start f [])).2 (by omega) (by simp [before, posLevel]) a
        (by change (posLevel (k + 1) [] 0 f).head? = _; rw [hal]; rfl) p (by simpa using hp)
      simp only [allPos, hal, List.cons_append, List.headD_cons]
      exact this

theorem iterateReverse_all (hne : f ≠ []) (thin : Thin f) (level : Nat) {e : Entry V} (hl : LastLeaf f e)
    (hlu : ∀ a, LastLeaf f a → a = e) :
    iterateReverse .allLevel level f = some ((List.range (e.level + 1)).flatMap fun l => onLevel l f).reverse := by
  obtain ⟨r, up', i', e', hr, L, hll, h3, h2, hz⟩ := first_eq w hne
  have hee : e' = e := hlu _ hll
  subst hee
  have hp : past f ⟨up', i' + 1, 0⟩ = true := by simp [past, h3]
  obtain ⟨hfin, hlast⟩ := finish_all w hne thin level hr L h3 h2 hz
  have hne' : ∀ j, 0 ≤ j → j < 0 + (e'.level + 1) → posLevel j [] 0 f ≠ [] := fun j _ hj =>
    posLevel_ne w L.at' (by have := w.depth _ _ _ L.at'; omega)
  have h0 : (posLevel 0 [] 0 f).headD ⟨up', i' + 1, 0⟩ = ⟨[], 0, 0⟩ := by
    have h1 := hz 0
    obtain ⟨e0, es, rfl⟩ := List.exists_cons_of_ne_nil hne
    have h0 : At (e0 :: es) [] 0 e0 := rfl
    rw [moveDown_stop (h0.deref 0) (by simp)] at h1
    exact (Option.some.inj h1).symm
  have hback := walkBack_all w hne thin (e'.level + 1) 0 ((posLevel (e'.level + 1) [] 0 f).headD ⟨up', i' + 1, 0⟩) hne' (by
    intro p _ hpl
    rw [show 0 + (e'.level + 1) - 1 = e'.level by omega, hlast] at hpl
    cases hpl
    cases hpl : posLevel (e'.level + 1) [] 0 f with
    | nil => simp [decr, moveToPreviousMultiLevel, hasPreviousOnLevel, hp, moveToPreviousOnLevel, dec]
    | cons a l =>
      have := (back_level w hne thin (level := e'.level + 1) (Tail.start f [])).2 (by omega) (by simp [before, posLevel]) a
        (by change (posLevel (e'.level + 1) [] 0 f).head? = _; rw [hpl]; rfl) _ (by simpa using hlast)
      exact this)
  have hhead := allPos_head ⟨up', i' + 1, 0⟩ 0 (e'.level + 1) hne'
  rw [h0, Nat.zero_add] at hhead
  have h00 : past f ⟨[], 0, 0⟩ = false := by
    have : 0 < f.length := List.length_pos_iff.2 hne
    simp [past, sibs]; omega
  have hdiff := diff_end w thin hp (e'.level + 1)
  obtain ⟨x, xs, hx⟩ : ∃ x xs, allPos f 0 (e'.level + 1) = x :: xs := by
    obtain ⟨a, l, hal⟩ := List.exists_cons_of_ne_nil (hne' 0 (by omega) (by omega))
    exact ⟨a, l ++ allPos f 1 e'.level, by simp [allPos, hal]⟩
  have hx0 : x = ⟨[], 0, 0⟩ := by rw [hx] at hhead; exact hhead
  have := reverseLoop_eq (a := ⟨[], 0, 0⟩) _ _ _ _ rfl hback (shows_allPos 0 (e'.level + 1)) ?_ ?_ ?_
  · simp only [iterateReverse, hfin, (begin_pre w hne .allLevel (Or.inr rfl) level ⟨[], 0, 0⟩).2, Option.bind_eq_bind, Option.bind_some]
    rw [this, List.range_eq_range']
  · -- the first root occurs once
    obtain ⟨a, l, hal⟩ := List.exists_cons_of_ne_nil (hne' 0 (by omega) (by omega))
    have ha0 : a = ⟨[], 0, 0⟩ := by rw [hal] at h0; exact h0
    intro y hy
    have htail : y ∈ l ∨ y ∈ allPos f 1 e'.level := by
      simp only [allPos, hal, List.cons_append, List.tail_cons, List.mem_append] at hy
      exact hy
    rcases htail with hy | hy
    · have hk := (posLevel_keys (level := 0) (Tail.start f [])).1
      change ((posLevel 0 [] 0 f).map _).Nodup at hk
      rw [hal, List.map_cons, List.nodup_cons] at hk
      obtain ⟨e2, he2, -⟩ := posLevel_at (level := 0) (Tail.start f []) y (by change y ∈ posLevel 0 [] 0 f; rw [hal]; simp [hy])
      have hyp : past f y = false := he2.past y.counter
      simp [same, hyp, h00]
      intro hu hi
      exact hk.1 (List.mem_map.2 ⟨y, hy, by rw [hu, hi, ha0]⟩)
    · obtain ⟨e2, he2, h5, h6, h7⟩ := allPos_at w y hy
      obtain ⟨r0, hr0⟩ : ∃ r0, At f [] 0 r0 := at_of_lt (by have := List.length_pos_iff.2 hne; simpa [sibs] using this)
      have := thin _ _ _ he2
      exact same_level w thin (b := ⟨[], 0, 0⟩) he2 hr0 (by rw [w.root _ _ hr0]; omega)
  · intro _
    rw [same_comm w]
    exact hdiff _ (by rw [hx, hx0]; simp)
  · rw [hhead]; exact same_self w _

end
end Verif.LevelTree
