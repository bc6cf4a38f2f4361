import Verif.LevelTree.Spec
set_option linter.all false
namespace Verif.LevelTree
variable {V : Type}

theorem whileM_false {S : Type} {c : S → Option Bool} {b : S → Option S} {s : S} (h : c s = some false) :
    whileM c b s = some s := by rw [whileM, h]
theorem whileM_true {S : Type} {c : S → Option Bool} {b : S → Option S} {s s' : S} (h : c s = some true)
    (h' : b s = some s') : whileM c b s = whileM c b s' := by rw [whileM, h]; simp [h']

theorem Entry.ind_aux {P : Entry V → Prop} (h : ∀ e, (∀ c ∈ e.children, P c) → P e) :
    ∀ n, ∀ e : Entry V, sizeOf e ≤ n → P e := by
  intro n
  induction n with
  | zero => intro e he; cases e; simp at he
  | succ n ih =>
    intro e he
    refine h e fun c hc => ih c ?_
    cases e with
    | mk d l dp s cs =>
      have := List.sizeOf_lt_of_mem hc
      simp [Entry.children] at this he ⊢
      omega

theorem Entry.ind {P : Entry V → Prop} (h : ∀ e, (∀ c ∈ e.children, P c) → P e) (e : Entry V) : P e :=
  Entry.ind_aux h _ e (Nat.le_refl _)

theorem At.deref {f : List (Entry V)} {up : List Nat} {i : Nat} {e : Entry V} (h : At f up i e) (c : Nat) :
    LevelTree.deref f ⟨up, i, c⟩ = some e := h

theorem At.sibs {f : List (Entry V)} {up : List Nat} {i : Nat} {e : Entry V} (h : At f up i e) :
    LevelTree.sibs f (i :: up) = e.children := by
  unfold At at h
  simp [LevelTree.sibs, h]

theorem At.child {f : List (Entry V)} {up : List Nat} {i k : Nat} {e c : Entry V} (h : At f up i e)
    (hc : e.children[k]? = some c) : At f (i :: up) k c := by
  unfold At; rw [h.sibs]; exact hc

theorem At.parent {f : List (Entry V)} {up : List Nat} {i j : Nat} {e : Entry V} (h : At f (j :: up) i e) :
    ∃ p, At f up j p ∧ p.children[i]? = some e := by
  unfold At at *
  simp only [LevelTree.sibs] at h
  split at h
  · rename_i p hp; exact ⟨p, hp, h⟩
  · simp at h

theorem At.lt {f : List (Entry V)} {up : List Nat} {i : Nat} {e : Entry V} (h : At f up i e) :
    i < (LevelTree.sibs f up).length := by
  unfold At at h
  exact (List.getElem?_eq_some_iff.1 h).1

theorem At.past {f : List (Entry V)} {up : List Nat} {i : Nat} {e : Entry V} (h : At f up i e) (c : Nat) :
    LevelTree.past f ⟨up, i, c⟩ = false := by
  have := h.lt
  simp [LevelTree.past]; omega

theorem at_of_lt {f : List (Entry V)} {up : List Nat} {i : Nat} (h : i < (sibs f up).length) :
    ∃ e, At f up i e := ⟨_, List.getElem?_eq_getElem h⟩

theorem At.inj {f : List (Entry V)} {up : List Nat} {i : Nat} {e e' : Entry V} (h : At f up i e)
    (h' : At f up i e') : e = e' := by
  unfold At at *; rw [h] at h'; exact Option.some.inj h'

/-- `es` are the siblings from position `i` on. -/
def Tail (f : List (Entry V)) (up : List Nat) (i : Nat) (es : List (Entry V)) : Prop :=
  i ≤ (sibs f up).length ∧ (sibs f up).drop i = es

theorem Tail.cons {f : List (Entry V)} {up : List Nat} {i : Nat} {e : Entry V} {es : List (Entry V)}
    (t : Tail f up i (e :: es)) : At f up i e ∧ Tail f up (i + 1) es := by
  obtain ⟨h1, h2⟩ := t
  have h3 : i < (LevelTree.sibs f up).length := by
    have := congrArg List.length h2
    simp at this; omega
  refine ⟨?_, by omega, ?_⟩
  · unfold At
    have := congrArg (·[0]?) h2
    simpa using this
  · have := congrArg List.tail h2
    simpa using this

theorem Tail.nil {f : List (Entry V)} {up : List Nat} {i : Nat} (t : Tail f up i []) :
    i = (LevelTree.sibs f up).length := by
  obtain ⟨h1, h2⟩ := t
  have := congrArg List.length h2
  simp at this; omega

theorem Tail.start (f : List (Entry V)) (up : List Nat) : Tail f up 0 (sibs f up) := ⟨by omega, by simp⟩

theorem At.tail {f : List (Entry V)} {up : List Nat} {i : Nat} {e : Entry V} (h : At f up i e) :
    Tail f (i :: up) 0 e.children := by
  have := Tail.start f (i :: up)
  rwa [h.sibs] at this

theorem forest_ind {f : List (Entry V)}
    {P : (up : List Nat) → (i : Nat) → (es : List (Entry V)) → Tail f up i es → Prop}
    (nil : ∀ up i t, P up i [] t)
    (cons : ∀ up i e es (hAt : At f up i e) (t : Tail f up i (e :: es)) (t' : Tail f up (i + 1) es),
      P (i :: up) 0 e.children hAt.tail → P up (i + 1) es t' → P up i (e :: es) t)
    {up : List Nat} {i : Nat} {es : List (Entry V)} (t : Tail f up i es) : P up i es t := by
  suffices H : ∀ n, ∀ up i es (t : Tail f up i es), sizeOf es ≤ n → P up i es t from H _ up i es t (Nat.le_refl _)
  intro n
  induction n with
  | zero => intro up i es t hn; cases es <;> simp at hn
  | succ n ih =>
    intro up i es t hn
    cases es with
    | nil => exact nil _ _ t
    | cons e es =>
      have hsz : sizeOf e.children + sizeOf es < sizeOf (e :: es) := by
        cases e; simp [Entry.children]; omega
      exact cons up i e es t.cons.1 t t.cons.2 (ih _ _ _ _ (by omega)) (ih _ _ _ _ (by omega))

theorem hasChild_iff (e : Entry V) : e.hasChild = true ↔ e.children ≠ [] := by
  simp [Entry.hasChild]

theorem hasChild_false (e : Entry V) : e.hasChild = false ↔ e.children = [] := by
  simp [Entry.hasChild]

section
variable {f : List (Entry V)} (w : Wf f)
include w

theorem Wf.level_pos {up : List Nat} {j i : Nat} {e : Entry V} (h : At f (j :: up) i e) : 0 < e.level := by
  obtain ⟨p, hp, hc⟩ := h.parent
  have := w.child _ _ _ hp e (List.mem_of_getElem? hc)
  have := w.depth _ _ _ hp
  omega

theorem Wf.isRoot_false {up : List Nat} {j i : Nat} {e : Entry V} (h : At f (j :: up) i e) :
    e.isRoot = false := by
  have := w.level_pos h
  simp [Entry.isRoot]; omega

theorem Wf.isRoot_true {i : Nat} {e : Entry V} (h : At f [] i e) : e.isRoot = true := by
  simp [Entry.isRoot, w.root _ _ h]

theorem Wf.isLast {up : List Nat} {i c : Nat} {e : Entry V} (h : At f up i e) :
    LevelTree.isLast f ⟨up, i, c⟩ e = decide (i + 1 = (sibs f up).length) := by
  simp [LevelTree.isLast, w.sib _ _ _ h]
  rfl

theorem Wf.isFirst {up : List Nat} {i : Nat} {e : Entry V} (h : At f up i e) :
    LevelTree.isFirst e = decide (i = 0) := by
  simp [LevelTree.isFirst, w.sib _ _ _ h]
  rfl

theorem Wf.moveToParent_zero {up : List Nat} {i j : Nat} {e p : Entry V} (h : At f (j :: up) i e)
    (hp : At f up j p) : moveToParent f ⟨j :: up, i, 0⟩ = some ⟨up, j, p.depth - 1⟩ := by
  have hp' := hp
  unfold At at hp'
  simp [moveToParent, h.deref, w.isRoot_false h, hp', w.sib _ _ _ hp]

theorem moveToParent_succ {up : List Nat} {i c : Nat} {e : Entry V} (h : At f up i e) :
    moveToParent f ⟨up, i, c + 1⟩ = some ⟨up, i, c⟩ := by
  simp [moveToParent, h.deref]

theorem Wf.moveToChild_succ {up : List Nat} {i c k : Nat} {e : Entry V} (h : At f up i e)
    (hc : c + 1 < e.depth) : moveToChild f k ⟨up, i, c⟩ = some ⟨up, i, c + 1⟩ := by
  have : c < e.depth - 1 := by omega
  simp [moveToChild, h.deref, canIncrease, this]

theorem Wf.moveToChild_child {up : List Nat} {i c k : Nat} {e e' : Entry V} (h : At f up i e)
    (hc : e.depth ≤ c + 1) (hk : e.children[k]? = some e') :
    moveToChild f k ⟨up, i, c⟩ = some ⟨i :: up, k, 0⟩ := by
  have : ¬ c < e.depth - 1 := by omega
  simp [moveToChild, h.deref, canIncrease, this, hk, w.sib _ _ _ (h.child hk)]

end

/-! ## Walks -/

/-- The successive positions of a traversal, ending in `z`. -/
def Walk (next : Iter → Option Iter) : List Iter → Iter → Prop
  | [], _ => True
  | a :: l, z => next a = some (l.headD z) ∧ Walk next l z

theorem Walk.append {next : Iter → Option Iter} {l l' : List Iter} {z : Iter} (h : Walk next l (l'.headD z))
    (h' : Walk next l' z) : Walk next (l ++ l') z := by
  induction l with
  | nil => simpa
  | cons a l ih =>
    obtain ⟨h1, h2⟩ := h
    refine ⟨?_, ih h2⟩
    rw [h1]; cases l <;> simp

/-- The positions of an entry with increasing counter. -/
def counters (up : List Nat) (i c : Nat) : Nat → List Iter
  | 0 => []
  | n + 1 => ⟨up, i, c⟩ :: counters up i (c + 1) n

/-- Pre-order positions of the trees at positions `i`, `i+1`, … of a vector. -/
def prePos (up : List Nat) (i : Nat) : List (Entry V) → List Iter
  | [] => []
  | .mk _ _ dp _ cs :: es => counters up i 0 dp ++ prePos (i :: up) 0 cs ++ prePos up (i + 1) es

theorem prePos_cons (up : List Nat) (i : Nat) (e : Entry V) (es : List (Entry V)) :
    prePos up i (e :: es) = counters up i 0 e.depth ++ prePos (i :: up) 0 e.children ++ prePos up (i + 1) es := by
  cases e; rw [prePos]; rfl

theorem counters_head {up : List Nat} {i c n : Nat} {z : Iter} (h : 0 < n) : (counters up i c n).headD z = ⟨up, i, c⟩ := by
  cases n; omega; rfl

section
variable {f : List (Entry V)} (w : Wf f)
include w

theorem prePos_head {up : List Nat} {i : Nat} {e : Entry V} {es : List (Entry V)} {z : Iter} (h : At f up i e) :
    (prePos up i (e :: es)).headD z = ⟨up, i, 0⟩ := by
  have hd := w.depth _ _ _ h
  rw [prePos_cons, List.append_assoc]
  cases hh : e.depth with
  | zero => omega
  | succ k => simp [counters]

theorem climbLast_stop {up : List Nat} {i c : Nat} {e : Entry V} (h : At f up i e)
    (hs : i + 1 ≠ (sibs f up).length ∨ up = []) : climbLast f ⟨up, i, c⟩ = some ⟨up, i, c⟩ := by
  refine whileM_false ?_
  simp [h.deref, w.isLast h]
  intro hr
  rcases hs with hs | rfl
  · exact hs
  · rw [w.isRoot_true h] at hr; simp at hr

theorem climbLast_counter {up : List Nat} {i j : Nat} {e : Entry V} (h : At f (j :: up) i e)
    (hs : i + 1 = (sibs f (j :: up)).length) (c : Nat) :
    climbLast f ⟨j :: up, i, c⟩ = climbLast f ⟨j :: up, i, 0⟩ := by
  induction c with
  | zero => rfl
  | succ c ih =>
    rw [← ih]
    refine whileM_true ?_ (moveToParent_succ w h)
    simp [h.deref, w.isLast h, w.isRoot_false h, hs]

theorem climbLast_up {up : List Nat} {i j : Nat} {e p : Entry V} (h : At f (j :: up) i e) (hp : At f up j p)
    (hs : i + 1 = (sibs f (j :: up)).length) (c : Nat) :
    climbLast f ⟨j :: up, i, c⟩ = climbLast f ⟨up, j, p.depth - 1⟩ := by
  rw [climbLast_counter w h hs]
  refine whileM_true ?_ (w.moveToParent_zero h hp)
  simp [h.deref, w.isLast h, w.isRoot_false h, hs]

theorem nextUp_sibling {up : List Nat} {i c : Nat} {e : Entry V} (h : At f up i e)
    (hs : i + 1 < (sibs f up).length) : nextPreOrderUp f ⟨up, i, c⟩ = some ⟨up, i + 1, 0⟩ := by
  have hne : i + 1 ≠ (sibs f up).length := by omega
  simp [nextPreOrderUp, climbLast_stop w h (Or.inl hne), h.deref, w.isLast h, hne]

theorem nextUp_up {up : List Nat} {i j : Nat} {e p : Entry V} (h : At f (j :: up) i e) (hp : At f up j p)
    (hs : i + 1 = (sibs f (j :: up)).length) (c : Nat) :
    nextPreOrderUp f ⟨j :: up, i, c⟩ = nextPreOrderUp f ⟨up, j, p.depth - 1⟩ := by
  unfold nextPreOrderUp
  rw [climbLast_up w h hp hs]

theorem walk_counters {up : List Nat} {i : Nat} {e : Entry V} {z : Iter} (h : At f up i e)
    (hz : moveToNextPreOrder f ⟨up, i, e.depth - 1⟩ = some z) (n c : Nat) (hc : c + n = e.depth) :
    Walk (moveToNextPreOrder f) (counters up i c n) z := by
  induction n generalizing c with
  | zero => exact trivial
  | succ n ih =>
    refine ⟨?_, ih (c + 1) (by omega)⟩
    rcases Nat.eq_zero_or_pos n with rfl | hn
    · have : c = e.depth - 1 := by omega
      rw [this]; simpa [counters] using hz
    · rw [counters_head hn]
      have h1 : c < e.depth - 1 := by omega
      simp only [moveToNextPreOrder, h.deref, Option.bind_eq_bind, Option.bind_some, canIncrease, h1, decide_true, Bool.or_true, if_true]
      exact w.moveToChild_succ h (by omega)

/-- The pre-order walk through the trees from position `i` on of a vector. -/
theorem walk_prePos {up : List Nat} {i : Nat} {es : List (Entry V)} (t : Tail f up i es) : ∀ (z : Iter),
    (∀ e, At f up ((sibs f up).length - 1) e →
      nextPreOrderUp f ⟨up, (sibs f up).length - 1, e.depth - 1⟩ = some z) →
    Walk (moveToNextPreOrder f) (prePos up i es) z := by
  induction t using forest_ind with
  | nil => intro z _; simp [prePos, Walk]
  | cons up i e es hAt t t' ih1 ih2 =>
    intro z hz
    have hd := w.depth _ _ _ hAt
    have hlast := ih2 z hz
    have hnext : nextPreOrderUp f ⟨up, i, e.depth - 1⟩ = some ((prePos up (i + 1) es).headD z) := by
      cases es with
      | nil =>
        have h1 : (sibs f up).length - 1 = i := by have := t'.nil; omega
        have := hz e (by rw [h1]; exact hAt)
        rw [h1] at this
        simpa [prePos] using this
      | cons e' es =>
        obtain ⟨hAt', t''⟩ := t'.cons
        rw [nextUp_sibling w hAt hAt'.lt, prePos_head w hAt']
    rw [prePos_cons]
    refine Walk.append ?_ hlast
    have hch : Walk (moveToNextPreOrder f) (prePos (i :: up) 0 e.children) ((prePos up (i + 1) es).headD z) := by
      refine ih1 _ ?_
      intro c hc
      have := hc.lt
      rw [nextUp_up w hc hAt (by omega), hnext]
    refine Walk.append (walk_counters w hAt ?_ _ 0 (by omega)) hch
    have h1 : ¬ (e.depth - 1 < e.depth - 1) := by omega
    simp only [moveToNextPreOrder, hAt.deref, Option.bind_eq_bind, Option.bind_some, canIncrease, h1, decide_false, Bool.or_false]
    cases hcs : e.children with
    | nil =>
      rw [if_neg (by simp [Entry.hasChild, hcs]), hnext]
      simp [prePos]
    | cons c cs =>
      have hc : At f (i :: up) 0 c := hAt.child (by simp [hcs])
      rw [if_pos (by simp [Entry.hasChild, hcs]), w.moveToChild_child hAt (by omega) (e' := c) (by simp [hcs]),
        prePos_head w hc]

theorem descendLast_leaf {up : List Nat} {i c : Nat} {e : Entry V} (h : At f up i e) (hl : e.children = []) :
    descendLast f ⟨up, i, c⟩ = some ⟨up, i, c⟩ := by
  refine whileM_false ?_
  simp [h.deref, Entry.hasChild, hl]

theorem descendLast_node {up : List Nat} {i : Nat} {e : Entry V} (h : At f up i e) (hl : e.children ≠ [])
    (n : Nat) : ∀ c, c + n + 1 = e.depth →
    descendLast f ⟨up, i, c⟩ = descendLast f ⟨i :: up, e.children.length - 1, 0⟩ := by
  have hpos : 0 < e.children.length := List.length_pos_iff.2 hl
  induction n with
  | zero =>
    intro c hc
    refine whileM_true (by simp [h.deref, (hasChild_iff e).2 hl]) ?_
    simp only [h.deref, Option.bind_eq_bind, Option.bind_some]
    exact w.moveToChild_child h (by omega) (List.getElem?_eq_getElem (by omega))
  | succ n ih =>
    intro c hc
    rw [← ih (c + 1) (by omega)]
    refine whileM_true (by simp [h.deref, (hasChild_iff e).2 hl]) ?_
    simp only [h.deref, Option.bind_eq_bind, Option.bind_some]
    exact w.moveToChild_succ h (by omega)

/-- What is known of the last leaf `(up', i', e')` of the tree `e` at `(up, i)`. -/
structure LastOf (f : List (Entry V)) (up : List Nat) (i : Nat) (e : Entry V) (up' : List Nat) (i' : Nat)
    (e' : Entry V) : Prop where
  at' : At f up' i' e'
  leaf : e'.children = []
  self : e.children = [] → up' = up ∧ i' = i ∧ e' = e
  lastLeaf : e.children ≠ [] → LastLeaf e.children e'
  last : i + 1 = (sibs f up).length → i' + 1 = (sibs f up').length
  descend : ∀ c < e.depth, descendLast f ⟨up, i, c⟩ = some ⟨up', i', if e.children = [] then c else 0⟩
  climb : e.children ≠ [] → ∀ c, climbLast f ⟨up', i', c⟩ = climbLast f ⟨up, i, e.depth - 1⟩

theorem lastOf (e : Entry V) : ∀ (up : List Nat) (i : Nat), At f up i e → ∃ up' i' e', LastOf f up i e up' i' e' := by
  induction e using Entry.ind with
  | h e ih =>
    intro up i h
    by_cases hl : e.children = []
    · exact ⟨up, i, e, h, hl, fun _ => ⟨rfl, rfl, rfl⟩, fun h => absurd hl h, id,
        fun c _ => by simp [descendLast_leaf w h hl, hl], fun h => absurd hl h⟩
    · have hpos : 0 < e.children.length := List.length_pos_iff.2 hl
      have hk : e.children[e.children.length - 1]? = some e.children[e.children.length - 1] :=
        List.getElem?_eq_getElem (by omega)
      generalize e.children[e.children.length - 1] = l at hk
      have hlast : e.children.getLast? = some l := by rw [List.getLast?_eq_getElem?]; exact hk
      have hAt := h.child hk
      obtain ⟨up', i', e', L⟩ := ih l (List.mem_of_getElem? hk) _ _ hAt
      have hs : e.children.length - 1 + 1 = (sibs f (i :: up)).length := by rw [h.sibs]; omega
      refine ⟨up', i', e', L.at', L.leaf, fun h => absurd h hl, fun _ => ?_, fun _ => L.last hs, ?_, ?_⟩
      · by_cases hll : l.children = []
        · have := (L.self hll).2.2
          subst this
          exact .leaf _ _ hlast hll
        · exact .node _ _ _ hlast (L.lastLeaf hll)
      · intro c hc
        rw [descendLast_node w h hl (e.depth - c - 1) c (by omega), L.descend 0 (w.depth _ _ _ hAt)]
        simp [hl]
      · intro _ c
        by_cases hll : l.children = []
        · obtain ⟨rfl, rfl, rfl⟩ := L.self hll
          exact climbLast_up w hAt h hs c
        · rw [L.climb hll]
          exact climbLast_up w hAt h hs _

/-- The last leaf of the forest: where pre-order ends. -/
theorem lastOf_forest (hne : f ≠ []) : ∃ r up' i' e', At f [] (f.length - 1) r ∧
    LastOf f [] (f.length - 1) r up' i' e' ∧ LastLeaf f e' ∧
    nextPreOrderUp f ⟨[], f.length - 1, r.depth - 1⟩ = some ⟨up', i' + 1, 0⟩ ∧
    (∀ c, nextPreOrderUp f ⟨up', i', c⟩ = some ⟨up', i' + 1, 0⟩) ∧ i' + 1 = (sibs f up').length := by
  have hpos : 0 < f.length := List.length_pos_iff.2 hne
  obtain ⟨r, hr⟩ : ∃ r, At f [] (f.length - 1) r := at_of_lt (by simp [sibs]; omega)
  obtain ⟨up', i', e', L⟩ := lastOf w r _ _ hr
  have hs : f.length - 1 + 1 = (sibs f []).length := by simp [sibs]; omega
  have hd := w.depth _ _ _ hr
  have hstop : ∀ c, climbLast f ⟨[], f.length - 1, c⟩ = some ⟨[], f.length - 1, c⟩ :=
    fun c => climbLast_stop w hr (Or.inr rfl)
  have key : ∀ c < r.depth, ∀ it, climbLast f it = some ⟨[], f.length - 1, c⟩ →
      nextPreOrderUp f it = some ⟨up', i' + 1, 0⟩ := by
    intro c hc it hit
    simp [nextPreOrderUp, hit, hr.deref, w.isLast hr, hs, L.descend c hc]
  have hlast : f.getLast? = some r := by rw [List.getLast?_eq_getElem?]; exact hr
  refine ⟨r, up', i', e', hr, L, ?_, key _ (by omega) _ (hstop _), ?_, L.last hs⟩
  · by_cases hll : r.children = []
    · have := (L.self hll).2.2
      subst this
      exact .leaf _ _ hlast hll
    · exact .node _ _ _ hlast (L.lastLeaf hll)
  · intro c
    by_cases hll : r.children = []
    · obtain ⟨rfl, rfl, rfl⟩ := L.self hll
      simp [nextPreOrderUp, hstop, hr.deref, w.isLast hr, hs, descendLast_leaf w hr hll]
    · exact key _ (by omega) _ ((L.climb hll c).trans (hstop _))

end

/-! ## Loops -/

/-- The data of the entries at a list of positions. -/
def Shows (f : List (Entry V)) (l : List Iter) (vs : List V) : Prop :=
  l.map (fun it => (deref f it).map Entry.data) = vs.map some

theorem Shows.append {f : List (Entry V)} {l l' : List Iter} {vs vs' : List V} (h : Shows f l vs)
    (h' : Shows f l' vs') : Shows f (l ++ l') (vs ++ vs') := by
  unfold Shows at *; simp [h, h']

theorem Shows.cons {f : List (Entry V)} {a : Iter} {l : List Iter} {vs : List V} (h : Shows f (a :: l) vs) :
    ∃ e vs', deref f a = some e ∧ vs = e.data :: vs' ∧ Shows f l vs' := by
  unfold Shows at *
  cases vs with
  | nil => simp at h
  | cons v vs =>
    simp at h
    obtain ⟨⟨e, he, rfl⟩, h⟩ := h
    exact ⟨e, vs, he, rfl, h⟩

theorem past_false_of_deref {f : List (Entry V)} {it : Iter} {e : Entry V} (h : deref f it = some e) :
    past f it = false := At.past (up := it.up) (i := it.idx) h it.counter

theorem loop_eq {m : Method} {f : List (Entry V)} {b : Iter} : ∀ (l : List Iter) (vs : List V) (z : Iter),
    Walk (incr m f) l z → Shows f l vs → (∀ a ∈ l, same f a b = false) → same f z b = true →
    loop m f b (l.headD z) = some vs
  | [], vs, z, _, hs, _, hz => by
    have : vs = [] := by simpa [Shows] using hs.symm
    rw [loop]; simp [hz, this]
  | a :: l, vs, z, hw, hs, hd, hz => by
    obtain ⟨e, vs', he, rfl, hs'⟩ := hs.cons
    have ih := loop_eq l vs' z hw.2 hs' (fun x hx => hd x (by simp [hx])) hz
    have h1 := hw.1
    rw [loop]
    simp only [List.headD_cons, hd a (by simp), he, h1, Option.bind_eq_bind, Option.bind_some, ih]
    simp

/-- Stepping back through a list of positions, from `z`. -/
def WalkBack (prev : Iter → Option Iter) : List Iter → Iter → Prop
  | [], _ => True
  | a :: l, z => prev (l.headD z) = some a ∧ WalkBack prev l z

theorem WalkBack.append {prev : Iter → Option Iter} {l l' : List Iter} {z : Iter}
    (h : WalkBack prev l (l'.headD z)) (h' : WalkBack prev l' z) : WalkBack prev (l ++ l') z := by
  induction l with
  | nil => simpa
  | cons a l ih =>
    obtain ⟨h1, h2⟩ := h
    refine ⟨?_, ih h2⟩
    rw [← h1]; cases l <;> simp

theorem WalkBack.left {prev : Iter → Option Iter} {l l' : List Iter} {z : Iter}
    (h : WalkBack prev (l ++ l') z) : WalkBack prev l (l'.headD z) := by
  induction l with
  | nil => trivial
  | cons a l ih =>
    obtain ⟨h1, h2⟩ := h
    refine ⟨?_, ih h2⟩
    rw [← h1]; cases l <;> simp

theorem reverseLoop_eq {m : Method} {f : List (Entry V)} {a : Iter} (n : Nat) : ∀ (l : List Iter) (vs : List V) (z : Iter),
    l.length = n → WalkBack (decr m f) l z → Shows f l vs → (∀ x ∈ l.tail, same f x a = false) →
    (l ≠ [] → same f z a = false) → same f (l.headD z) a = true → reverseLoop m f a z = some vs.reverse := by
  induction n with
  | zero =>
    intro l vs z hn hw hs hd hz ha
    have : l = [] := by simpa using hn
    subst this
    have : vs = [] := by simpa [Shows] using hs.symm
    rw [reverseLoop]; simp at ha; simp [ha, this]
  | succ n ih =>
    intro l vs z hn hw hs hd hz ha
    rcases List.eq_nil_or_concat l with rfl | ⟨l', x, rfl⟩
    · simp at hn
    rcases List.eq_nil_or_concat vs with rfl | ⟨vs', v, rfl⟩
    · simp [Shows] at hs
    simp only [List.concat_eq_append] at *
    have hs' : Shows f l' vs' ∧ Shows f [x] [v] := by
      unfold Shows at *
      simp only [List.map_append] at hs
      have := List.append_inj' hs (by simp)
      exact this
    obtain ⟨e, vs'', he, hv, -⟩ := hs'.2.cons
    simp at hv
    have hx : decr m f z = some x := by
      have : WalkBack (decr m f) [x] z := by
        clear ih hn hs hd hz ha hs'
        induction l' with
        | nil => exact hw
        | cons y l' ih => exact ih hw.2
      simpa using this.1
    have := ih l' vs' x (by simpa using hn) (by simpa using hw.left) hs'.1 ?_ ?_ ?_
    · rw [reverseLoop]
      simp [hz, hx, he, this, hv.1]
    · intro y hy
      refine hd y ?_
      cases l' <;> simp at hy ⊢
      exact Or.inl hy
    · intro hne
      refine hd x ?_
      cases l' <;> simp at hne ⊢
    · cases l' <;> simpa using ha

theorem Shows.counters {f : List (Entry V)} {up : List Nat} {i : Nat} {e : Entry V} (h : At f up i e) (c n : Nat) :
    Shows f (counters up i c n) (List.replicate n e.data) := by
  induction n generalizing c with
  | zero => simp [Shows, LevelTree.counters]
  | succ n ih =>
    have := ih (c + 1)
    unfold Shows at *
    simp [LevelTree.counters, List.replicate_succ, h.deref] at this ⊢
    exact this

theorem preorder_cons (e : Entry V) (es : List (Entry V)) :
    preorder (e :: es) = List.replicate e.depth e.data ++ preorder e.children ++ preorder es := by
  cases e; rw [preorder, Entry.preorder]; rfl

theorem shows_prePos {f : List (Entry V)} {up : List Nat} {i : Nat} {es : List (Entry V)} (t : Tail f up i es) :
    Shows f (prePos up i es) (preorder es) := by
  induction t using forest_ind with
  | nil => simp [Shows, prePos, preorder]
  | cons up i e es hAt t t' ih1 ih2 =>
    rw [prePos_cons, preorder_cons]
    exact ((Shows.counters hAt _ _).append ih1).append ih2

theorem Shows.mem {f : List (Entry V)} {l : List Iter} {vs : List V} (h : Shows f l vs) {a : Iter} (ha : a ∈ l) :
    ∃ e, deref f a = some e := by
  induction l generalizing vs with
  | nil => simp at ha
  | cons b l ih =>
    obtain ⟨e, vs', he, -, h'⟩ := h.cons
    rcases List.mem_cons.1 ha with rfl | ha
    · exact ⟨e, he⟩
    · exact ih h' ha

theorem same_past {f : List (Entry V)} {a b : Iter} (ha : past f a = false) (hb : past f b = true) :
    same f a b = false := by simp [same, ha, hb]

theorem same_past' {f : List (Entry V)} {a b : Iter} (ha : past f a = true) (hb : past f b = true) :
    same f a b = true := by simp [same, ha, hb]

end Verif.LevelTree
