import Verif.LevelTree.Lemmas
set_option linter.all false
namespace Verif.LevelTree
variable {V : Type}

theorem incr_pre {f : List (Entry V)} {it z : Iter} (h : moveToNextPreOrder f it = some z) : incr .preOrder f it = some z := by
  unfold incr
  cases hp : past f it with
  | false => simpa using h
  | true =>
    simp [past] at hp
    simp [moveToNextPreOrder, deref, hp] at h

theorem incr_post {f : List (Entry V)} {it z : Iter} (h : moveToNextPostOrder f it = some z) : incr .postOrder f it = some z := by
  unfold incr
  cases hp : past f it with
  | false => simpa using h
  | true =>
    simp [past] at hp
    simp [moveToNextPostOrder, deref, hp] at h

theorem Walk.mono {g h : Iter → Option Iter} (hgh : ∀ a z, g a = some z → h a = some z) :
    ∀ {l : List Iter} {z : Iter}, Walk g l z → Walk h l z
  | [], _, _ => trivial
  | _ :: _, _, w => ⟨hgh _ _ w.1, Walk.mono hgh w.2⟩

section
variable {f : List (Entry V)} (w : Wf f)
include w

theorem pre_walk (hne : f ≠ []) : ∃ r up' i' e', At f [] (f.length - 1) r ∧
    LastOf f [] (f.length - 1) r up' i' e' ∧ LastLeaf f e' ∧ i' + 1 = (sibs f up').length ∧
    Walk (moveToNextPreOrder f) (prePos [] 0 f) ⟨up', i' + 1, 0⟩ ∧
    (∀ c, nextPreOrderUp f ⟨up', i', c⟩ = some ⟨up', i' + 1, 0⟩) := by
  obtain ⟨r, up', i', e', hr, L, hl, h1, h2, h3⟩ := lastOf_forest w hne
  refine ⟨r, up', i', e', hr, L, hl, h3, walk_prePos w (Tail.start f []) _ ?_, h2⟩
  intro e he
  have : e = r := At.inj he hr
  subst this
  exact h1

theorem begin_pre (hne : f ≠ []) (m : Method) (hm : m = .preOrder ∨ m = .allLevel) (level : Nat) (z : Iter) :
    begin m level f = some ((prePos [] 0 f).headD z) ∧ begin m level f = some ⟨[], 0, 0⟩ := by
  obtain ⟨e, es, rfl⟩ := List.exists_cons_of_ne_nil hne
  have h : At (e :: es) [] 0 e := rfl
  rw [prePos_head w h]
  have h1 : m ≠ .singleLevel := by rcases hm with rfl | rfl <;> simp
  have h2 : m ≠ .postOrder := by rcases hm with rfl | rfl <;> simp
  simp [begin, rootIterator, h1, h2, w.sib _ _ _ h]

theorem finish_pre (hne : f ≠ []) {r : Entry V} {up' : List Nat} {i' : Nat} {e' : Entry V}
    (hr : At f [] (f.length - 1) r) (L : LastOf f [] (f.length - 1) r up' i' e') (m : Method)
    (hm : m = .preOrder ∨ m = .allLevel) (level : Nat) : finish m level f = incr m f ⟨up', i', 0⟩ := by
  have h1 : m ≠ .singleLevel := by rcases hm with rfl | rfl <;> simp
  have hr' : f[f.length - 1]? = some r := hr
  have := L.descend 0 (w.depth _ _ _ hr)
  simp only [ite_self] at this
  have hf : f.isEmpty = false := by simpa using hne
  simp [finish, hf, rootIterator, hr', h1, hm, w.sib _ _ _ hr, this]

theorem iterate_pre (hne : f ≠ []) (hl : ∀ e, LastLeaf f e → e.depth = 1) (level : Nat) :
    iterate .preOrder level f = some (preorder f) := by
  obtain ⟨r, up', i', e', hr, L, hll, h1, h2, h3⟩ := pre_walk w hne
  have hd := hl _ hll
  have hp : past f ⟨up', i' + 1, 0⟩ = true := by simp [past, h1]
  have hfin : finish .preOrder level f = some ⟨up', i' + 1, 0⟩ := by
    rw [finish_pre w hne hr L _ (Or.inl rfl)]
    refine incr_pre ?_
    simp only [moveToNextPreOrder, L.at'.deref, Option.bind_eq_bind, Option.bind_some, canIncrease,
      (hasChild_false e').2 L.leaf, hd]
    simpa using h3 0
  have hS := shows_prePos (Tail.start f [])
  have := loop_eq (b := ⟨up', i' + 1, 0⟩) _ _ _ (h2.mono fun a z => incr_pre) hS
    (fun a ha => by obtain ⟨e, he⟩ := hS.mem ha; exact same_past (past_false_of_deref he) hp)
    (same_past' hp hp)
  simp only [iterate, hfin, (begin_pre w hne _ (Or.inl rfl) level ⟨up', i' + 1, 0⟩).1, Option.bind_eq_bind, Option.bind_some]
  exact this

/-- The counter of the last leaf decides where a pre-order loop ends. -/
theorem finish_pre_deep (hne : f ≠ []) (level : Nat) {e : Entry V} (he : LastLeaf f e) (hd : 1 < e.depth) :
    ∃ up i, finish .preOrder level f = some ⟨up, i, 1⟩ ∧ At f up i e := by
  obtain ⟨r, up', i', e', hr, L, hll, h1, h2, h3⟩ := pre_walk w hne
  have hee : e' = e := by
    have : ∀ (g : List (Entry V)) (a b : Entry V), LastLeaf g a → LastLeaf g b → a = b := by
      intro g a b ha
      induction ha generalizing b with
      | leaf f a h1 h2 =>
        intro hb
        cases hb with
        | leaf _ _ h3 h4 => rw [h1] at h3; exact Option.some.inj h3
        | node _ p _ h3 h4 =>
          rw [h1] at h3; cases h3
          rw [h2] at h4; cases h4 <;> simp_all
      | node f p a h1 h2 ih =>
        intro hb
        cases hb with
        | leaf _ _ h3 h4 =>
          rw [h1] at h3; cases h3
          rw [h4] at h2; cases h2 <;> simp_all
        | node _ p' _ h3 h4 => rw [h1] at h3; cases h3; exact ih _ h4
    exact this f _ _ hll he
  subst hee
  refine ⟨up', i', ?_, L.at'⟩
  rw [finish_pre w hne hr L _ (Or.inl rfl)]
  refine incr_pre ?_
  have : 0 < e'.depth - 1 := by omega
  simp only [moveToNextPreOrder, L.at'.deref, Option.bind_eq_bind, Option.bind_some, canIncrease, this, decide_true, Bool.or_true, if_true]
  exact w.moveToChild_succ L.at' (by omega)

/-! ### Backwards -/

theorem back_counters {up : List Nat} {i : Nat} {e : Entry V} {z : Iter} (h : At f up i e)
    (hz : moveToPreviousPreOrder f z = some ⟨up, i, e.depth - 1⟩) (n c : Nat) (hc : c + n = e.depth) :
    WalkBack (moveToPreviousPreOrder f) (counters up i c n) z := by
  induction n generalizing c with
  | zero => exact trivial
  | succ n ih =>
    refine ⟨?_, ih (c + 1) (by omega)⟩
    rcases Nat.eq_zero_or_pos n with rfl | hn
    · have : c = e.depth - 1 := by omega
      rw [this]; simpa [counters] using hz
    · rw [counters_head hn]
      simp [moveToPreviousPreOrder, h.past, h.deref, moveToParent_succ w h]

theorem prev_sibling {up : List Nat} {i : Nat} {e : Entry V} (h : At f up (i + 1) e) :
    moveToPreviousPreOrder f ⟨up, i + 1, 0⟩ = descendLast f ⟨up, i, 0⟩ := by
  simp [moveToPreviousPreOrder, h.past, h.deref, w.isFirst h, dec]

theorem back_prePos (hleaf : ∀ up i e, At f up i e → e.children = [] → e.depth = 1)
    {up : List Nat} {i : Nat} {es : List (Entry V)} (t : Tail f up i es) : ∀ (z : Iter),
    moveToPreviousPreOrder f z = descendLast f ⟨up, (sibs f up).length - 1, 0⟩ →
    WalkBack (moveToPreviousPreOrder f) (prePos up i es) z := by
  induction t using forest_ind with
  | nil => intro z _; simp [prePos, WalkBack]
  | cons up i e es hAt t t' ih1 ih2 =>
    intro z hz
    have hd := w.depth _ _ _ hAt
    have hlast := ih2 z hz
    have hnext : moveToPreviousPreOrder f ((prePos up (i + 1) es).headD z) = descendLast f ⟨up, i, 0⟩ := by
      cases es with
      | nil =>
        have h1 : (sibs f up).length - 1 = i := by have := t'.nil; omega
        rw [h1] at hz
        simpa [prePos] using hz
      | cons e' es =>
        obtain ⟨hAt', t''⟩ := t'.cons
        rw [prePos_head w hAt', prev_sibling w hAt']
    rw [prePos_cons]
    refine WalkBack.append ?_ hlast
    by_cases hl : e.children = []
    · have hd1 := hleaf _ _ _ hAt hl
      rw [hl]
      simp only [prePos, List.append_nil]
      refine back_counters w hAt ?_ _ 0 (by omega)
      rw [hnext, descendLast_leaf w hAt hl, hd1]
    · have hpos : 0 < e.children.length := List.length_pos_iff.2 hl
      have hch := ih1 ((prePos up (i + 1) es).headD z) (by
        rw [hnext, hAt.sibs]
        exact descendLast_node w hAt hl (e.depth - 1) 0 (by omega))
      refine WalkBack.append (back_counters w hAt ?_ _ 0 (by omega)) hch
      obtain ⟨c, cs, hcs⟩ := List.exists_cons_of_ne_nil hl
      have hc : At f (i :: up) 0 c := hAt.child (by simp [hcs])
      rw [hcs, prePos_head w hc]
      simp [moveToPreviousPreOrder, hc.past, hc.deref, w.isFirst hc, w.moveToParent_zero hc hAt]

theorem same_self (a : Iter) : same f a a = true := by
  simp [same]

theorem same_root_false {up : List Nat} {i c : Nat} (h : up ≠ [] ∨ i ≠ 0) (hne : f ≠ []) :
    same f ⟨up, i, c⟩ ⟨[], 0, 0⟩ = false := by
  have hp : past f ⟨[], 0, 0⟩ = false := by
    have : 0 < f.length := List.length_pos_iff.2 hne
    simp [past, sibs]; omega
  simp [same, hp]
  intro _ h1
  rcases h with h | h
  · exact absurd h1 h
  · exact h

theorem prePos_noroot {up : List Nat} {i : Nat} {es : List (Entry V)} (t : Tail f up i es) (h : up ≠ [] ∨ i ≠ 0) :
    ∀ a ∈ prePos up i es, a.up ≠ [] ∨ a.idx ≠ 0 := by
  induction t using forest_ind with
  | nil => simp [prePos]
  | cons up i e es hAt t t' ih1 ih2 =>
    intro a ha
    rw [prePos_cons] at ha
    simp only [List.mem_append] at ha
    rcases ha with (ha | ha) | ha
    · have : ∀ c n, a ∈ counters up i c n → a.up = up ∧ a.idx = i := by
        intro c n
        induction n generalizing c with
        | zero => simp [counters]
        | succ n ih =>
          simp only [counters, List.mem_cons]
          rintro (rfl | h)
          · simp
          · exact ih _ h
      obtain ⟨h1, h2⟩ := this _ _ ha
      rw [h1, h2]; exact h
    · exact ih1 (by simp) a ha
    · exact ih2 (by simp) a ha

theorem iterateReverse_pre (hne : f ≠ []) (hleaf : ∀ up i e, At f up i e → e.children = [] → e.depth = 1)
    (hroot : ∀ r, At f [] 0 r → r.depth = 1) (level : Nat) :
    iterateReverse .preOrder level f = some (preorder f).reverse := by
  obtain ⟨r, up', i', e', hr, L, hll, h1, h2, h3⟩ := pre_walk w hne
  have hd := hleaf _ _ _ L.at' L.leaf
  have hp : past f ⟨up', i' + 1, 0⟩ = true := by simp [past, h1]
  have hfin : finish .preOrder level f = some ⟨up', i' + 1, 0⟩ := by
    rw [finish_pre w hne hr L _ (Or.inl rfl)]
    refine incr_pre ?_
    simp only [moveToNextPreOrder, L.at'.deref, Option.bind_eq_bind, Option.bind_some, canIncrease,
      (hasChild_false e').2 L.leaf, hd]
    simpa using h3 0
  have hS := shows_prePos (Tail.start f [])
  have hback : WalkBack (decr .preOrder f) (prePos [] 0 f) ⟨up', i' + 1, 0⟩ := by
    refine back_prePos w hleaf (Tail.start f []) _ ?_
    have hdl := L.descend 0 (w.depth _ _ _ hr)
    simp only [ite_self] at hdl
    have hlen : (sibs f ([] : List Nat)).length - 1 = f.length - 1 := rfl
    rw [hlen, hdl]
    simp [moveToPreviousPreOrder, hp, dec, descendLast_leaf w L.at' L.leaf]
  obtain ⟨e, es, rfl⟩ := List.exists_cons_of_ne_nil hne
  have h0 : At (e :: es) [] 0 e := rfl
  have := reverseLoop_eq (a := ⟨[], 0, 0⟩) _ _ _ _ rfl hback hS ?_ ?_ ?_
  · simp only [iterateReverse, hfin, (begin_pre w hne _ (Or.inl rfl) level ⟨[], 0, 0⟩).2, Option.bind_eq_bind, Option.bind_some]
    exact this
  · intro x hx
    rw [prePos_cons, hroot _ h0] at hx
    simp [counters] at hx
    have hx' : x.up ≠ [] ∨ x.idx ≠ 0 := by
      rcases hx with hx | hx
      · exact prePos_noroot w h0.tail (by simp) x hx
      · exact prePos_noroot w (Tail.start (e :: es) []).cons.2 (by simp) x hx
    exact same_root_false w hx' hne
  · intro _
    rw [show same (e :: es) ⟨up', i' + 1, 0⟩ ⟨[], 0, 0⟩ = false from ?_]
    have := h0.past 0
    simp [same, hp, this]
  · rw [prePos_head w h0]
    exact same_self w _

end
end Verif.LevelTree
