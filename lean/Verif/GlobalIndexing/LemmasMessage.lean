import Verif.GlobalIndexing.ExchangeSpec
import Verif.GlobalIndexing.LemmasReset

set_option linter.all false
namespace Verif.GlobalIndexing

theorem ofTag_tag (o : Obj) : ofTag o.tag = o := by
  obtain ⟨k, i⟩ := o
  cases k <;> simp [Obj.tag, ofTag] <;> omega

theorem tag_inj {o o' : Obj} (h : o.tag = o'.tag) : o = o' := by
  rw [← ofTag_tag o, h, ofTag_tag]

theorem tag_mod (o : Obj) (h : o.kind ≠ .element) : o.tag % 4 ≠ 0 := by
  obtain ⟨k, i⟩ := o
  cases k <;> simp [Obj.tag] at * <;> omega

/-- The part of a message about one object. -/
def part (V : Obj → Nat → Nat) (inc : List Nat) (o : Obj) : List Nat := o.tag :: inc.map (V o)

/-- What a rank knows. -/
structure Knows (m : Mesh) (inc : List Nat) (V : Obj → Nat → Nat) (s0 : State) (K : Set Obj) (s : State) :
    Prop where
  included : s.included = inc
  unknowns : s.unknowns = m.unknowns
  flag : ∀ u ∈ inc, (s.table u).included = true
  same : ∀ u, SameBlock (s.table u) (s0.table u)
  numbers : s.localNumber = s0.localNumber ∧ s.globalNumber = s0.globalNumber
  find : ∀ u ∈ inc, ∀ o ∈ K, s.table.find o u = some (V o u)
  none : ∀ u ∈ inc, ∀ o, o ∉ K → s.table.find o u = none

section
variable {m : Mesh} {inc : List Nat} {V : Obj → Nat → Nat} {s0 s : State} {K : Set Obj}

theorem mapM_some {α β : Type} (f : α → Option β) (g : α → β) (l : List α) (h : ∀ a ∈ l, f a = some (g a)) :
    l.mapM f = some (l.map g) := by
  induction l with
  | nil => rfl
  | cons a l ih =>
    rw [List.mapM_cons, h a (by simp), ih (fun b hb => h b (by simp [hb]))]
    rfl

theorem objMessage_eq (hlt : ∀ u ∈ inc, u < m.unknowns) (h : Knows m inc V s0 K s) (o : Obj) (ho : o ∈ K) :
    s.objMessage o = some (part V inc o) := by
  have hf : inc.filter (fun u => (s.table u).included) = inc := by
    rw [List.filter_eq_self]; exact h.flag
  have hm : inc.mapM (fun u => if u < s.unknowns then s.table.find o u else none) = some (inc.map (V o)) := by
    apply mapM_some
    intro u hu
    rw [h.unknowns, if_pos (hlt u hu), h.find u hu o ho]
  unfold State.objMessage
  obtain ⟨k, i⟩ := o
  cases k <;> simp only [h.included, hf, hm] <;> rfl

theorem writeFold_find (o : Obj) (V : Obj → Nat → Nat) (l : List Nat) (t : Table) (o' : Obj) (u : Nat) :
    ((l.zip (l.map (V o))).foldl (fun t (x : Nat × Nat) => t.set o x.1 x.2) t).find o' u =
      if o' = o ∧ u ∈ l then some (V o u) else t.find o' u := by
  induction l generalizing t with
  | nil => simp
  | cons a l ih =>
    simp only [List.map_cons, List.zip_cons_cons, List.foldl_cons, ih, find_set]
    by_cases h1 : o' = o <;> by_cases h2 : u = a <;> by_cases h3 : u ∈ l <;> simp_all

theorem writeFold_same (o : Obj) (l : List (Nat × Nat)) (t : Table) (u : Nat) :
    SameBlock (l.foldl (fun t (x : Nat × Nat) => t.set o x.1 x.2) t u) (t u) := by
  induction l generalizing t with
  | nil => simp [SameBlock]
  | cons a l ih =>
    have h1 := ih (t.set o a.1 a.2)
    have h2 := sameBlock_set t o a.1 a.2 u
    simp only [List.foldl_cons]
    unfold SameBlock at *
    grind

theorem processMessage_eq (inc : List Nat) (V) (L : List Obj) (t : Table) :
    ∃ t', processMessage inc t (L.flatMap (part V inc)) = some t' ∧
      (∀ o u, u ∈ inc → t'.find o u = if o ∈ L then some (V o u) else t.find o u) ∧
      (∀ u, SameBlock (t' u) (t u)) := by
  induction L generalizing t with
  | nil => exact ⟨t, by simp [processMessage], by simp, by simp [SameBlock]⟩
  | cons o L ih =>
    obtain ⟨t', h1, h2, h3⟩ := ih (writePart inc t o.tag (inc.map (V o)))
    refine ⟨t', ?_, ?_, ?_⟩
    · rw [List.flatMap_cons, part, List.cons_append, processMessage, if_neg (by simp)]
      rw [List.take_append_of_le_length (by simp), List.drop_append_of_le_length (by simp)]
      rw [List.take_of_length_le (by simp), List.drop_of_length_le (by simp)]
      exact h1
    · intro o' u hu
      rw [h2 o' u hu]
      unfold writePart
      rw [ofTag_tag, writeFold_find]
      by_cases e1 : o' ∈ L <;> by_cases e2 : o' = o <;> simp_all
    · intro u
      have a := h3 u
      have b : SameBlock (writePart inc t o.tag (inc.map (V o)) u) (t u) := writeFold_same _ _ _ _
      unfold SameBlock at *
      grind

/-- Receiving a message. -/
theorem Knows.receive (h : Knows m inc V s0 K s) (L : List Obj) :
    ∃ t', processMessage s.included s.table (L.flatMap (part V inc)) = some t' ∧
      Knows m inc V s0 (K ∪ {o | o ∈ L}) { s with table := t' } := by
  obtain ⟨t', h1, h2, h3⟩ := processMessage_eq inc V L s.table
  refine ⟨t', by rw [h.included]; exact h1, h.included, h.unknowns, ?_, ?_, h.numbers, ?_, ?_⟩
  · intro u hu
    have := (h3 u).2.2.2
    simp only
    rw [this]; exact h.flag u hu
  · intro u
    have a := h3 u
    have b := h.same u
    unfold SameBlock at *
    grind
  · intro u hu o ho
    simp only [h2 o u hu]
    by_cases hL : o ∈ L
    · simp [hL]
    · rw [if_neg hL]; exact h.find u hu o (by simpa [hL] using ho)
  · intro u hu o ho
    simp only [Set.mem_union, Set.mem_ofPred_eq, not_or] at ho
    simp only [h2 o u hu]
    rw [if_neg ho.2]; exact h.none u hu o ho.1

/-- The objects of the initial message. -/
def firstStep (m : Mesh) (p : Nat) (L : List Obj) (o : Obj) : List Obj :=
  if m.ownedBy p o.kind o.id then if o ∈ L then L else L ++ [o] else L

def firstObjs (m : Mesh) (p : Nat) (els : List Nat) : List Obj :=
  els.foldl (fun L e => (objects m e).tail.foldl (firstStep m p) (L ++ [⟨.element, e⟩])) []

/-- The tags of the second message. -/
def tagStep (m : Mesh) (p q : Nat) (T : SMap Unit) (o : Obj) : SMap Unit :=
  if m.ownedBy p o.kind o.id then T else if m.later q o then T.insert o.tag () else T

def laterTags (m : Mesh) (p q : Nat) (els : List Nat) : SMap Unit :=
  els.foldl (fun T e => (objects m e).tail.foldl (tagStep m p q) T) []

theorem mem_tail (m : Mesh) (e : Nat) (o : Obj) : o ∈ (objects m e).tail ↔
    o.kind ≠ .element ∧ o.id ∈ m.sub o.kind e ∧ (o.kind = .node → m.dim > 1) := by
  obtain ⟨k, i⟩ := o
  cases k <;> simp [objects, and_comm]

theorem mem_firstFold (m p) (l : List Obj) (L : List Obj) (o : Obj) :
    o ∈ l.foldl (firstStep m p) L ↔ o ∈ L ∨ (o ∈ l ∧ m.ownedBy p o.kind o.id = true) := by
  induction l generalizing L with
  | nil => simp
  | cons a l ih =>
    rw [List.foldl_cons, ih]
    unfold firstStep
    split_ifs with h1 h2
    · by_cases e : o = a <;> simp_all
    · by_cases e : o = a <;> simp_all
    · by_cases e : o = a <;> simp_all

theorem mem_firstObjs (m p els) (o : Obj) : o ∈ firstObjs m p els ↔
    ∃ e ∈ els, o = ⟨.element, e⟩ ∨ (o ∈ (objects m e).tail ∧ m.ownedBy p o.kind o.id = true) := by
  have key : ∀ (els : List Nat) L, o ∈ els.foldl (fun L e => (objects m e).tail.foldl (firstStep m p) (L ++ [⟨.element, e⟩])) L ↔
      o ∈ L ∨ ∃ e ∈ els, o = ⟨.element, e⟩ ∨ (o ∈ (objects m e).tail ∧ m.ownedBy p o.kind o.id = true) := by
    intro els
    induction els with
    | nil => simp
    | cons e els ih => intro L; rw [List.foldl_cons, ih, mem_firstFold]; simp [or_assoc]
  rw [firstObjs, key]; simp

theorem mem_tagFold (m p q) (l : List Obj) (T : SMap Unit) (t : Nat) :
    t ∈ (l.foldl (tagStep m p q) T).keys ↔ t ∈ T.keys ∨
      ∃ o ∈ l, m.ownedBy p o.kind o.id = false ∧ m.later q o = true ∧ t = o.tag := by
  induction l generalizing T with
  | nil => simp
  | cons a l ih =>
    rw [List.foldl_cons, ih]
    unfold tagStep
    split_ifs with h1 h2
    · simp [h1]
    · rw [SMap.mem_keys_insert]
      simp [h1, h2]
      grind
    · simp [h1, h2]

theorem mem_laterTags (m p q els) (t : Nat) : t ∈ (laterTags m p q els).keys ↔
    ∃ e ∈ els, ∃ o ∈ (objects m e).tail, m.ownedBy p o.kind o.id = false ∧ m.later q o = true ∧ t = o.tag := by
  have key : ∀ (els : List Nat) T, t ∈ (els.foldl (fun T e => (objects m e).tail.foldl (tagStep m p q) T) T).keys ↔
      t ∈ T.keys ∨ ∃ e ∈ els, ∃ o ∈ (objects m e).tail, m.ownedBy p o.kind o.id = false ∧ m.later q o = true ∧ t = o.tag := by
    intro els
    induction els with
    | nil => simp
    | cons e els ih => intro L; rw [List.foldl_cons, ih, mem_tagFold]; simp [or_assoc]
  rw [laterTags, key]; simp [SMap.keys]

theorem initialFold (hlt : ∀ u ∈ inc, u < m.unknowns) (h : Knows m inc V s0 K s) (p q) (l : List Obj)
    (hl : ∀ o ∈ l, o.kind ≠ .element ∧ (m.ownedBy p o.kind o.id = true → o ∈ K)) (a : Initial) (L : List Obj)
    (ha : a.message = L.flatMap (part V inc))
    (hs : ∀ o : Obj, o.kind ≠ .element → ((a.sendTags.find o.tag).isSome ↔ o ∈ L)) :
    ∃ a', l.foldlM (s.initialStep m p q) a = some a' ∧
      a'.message = (l.foldl (firstStep m p) L).flatMap (part V inc) ∧
      a'.secondRoundTags = l.foldl (tagStep m p q) a.secondRoundTags ∧
      (∀ o : Obj, o.kind ≠ .element → ((a'.sendTags.find o.tag).isSome ↔ o ∈ l.foldl (firstStep m p) L)) := by
  induction l generalizing a L with
  | nil => exact ⟨a, rfl, ha, rfl, hs⟩
  | cons o l ih =>
    obtain ⟨ho1, ho2⟩ := hl o (by simp)
    have hl' : ∀ o ∈ l, o.kind ≠ .element ∧ (m.ownedBy p o.kind o.id = true → o ∈ K) :=
      fun x hx => hl x (by simp [hx])
    rw [List.foldlM_cons]
    simp only [List.foldl_cons]
    unfold State.initialStep
    by_cases h1 : m.ownedBy p o.kind o.id = true
    · rw [if_pos h1]
      by_cases h2 : (a.sendTags.find o.tag).isSome = true
      · rw [if_pos h2]
        have e1 : firstStep m p L o = L := by unfold firstStep; rw [if_pos h1, if_pos ((hs o ho1).1 h2)]
        have e2 : tagStep m p q a.secondRoundTags o = a.secondRoundTags := by unfold tagStep; rw [if_pos h1]
        rw [e1, e2]
        exact ih hl' a L ha hs
      · rw [if_neg h2, objMessage_eq hlt h o (ho2 h1)]
        have hnL : o ∉ L := fun hh => h2 ((hs o ho1).2 hh)
        have e1 : firstStep m p L o = L ++ [o] := by unfold firstStep; rw [if_pos h1, if_neg hnL]
        have e2 : tagStep m p q a.secondRoundTags o = a.secondRoundTags := by unfold tagStep; rw [if_pos h1]
        rw [e1, e2]
        refine ih hl' { a with sendTags := a.sendTags.insert o.tag (), message := a.message ++ part V inc o } (L ++ [o]) ?_ ?_
        · simp [ha]
        · intro o' ho'
          simp only [SMap.find_insert, List.mem_append, List.mem_singleton]
          by_cases e : o'.tag = o.tag
          · simp [e, tag_inj e]
          · have : o' ≠ o := fun h => e (by rw [h])
            simp only [e, if_false, this, or_false]; exact hs o' ho'
    · rw [if_neg h1]
      have e1 : firstStep m p L o = L := by unfold firstStep; rw [if_neg h1]
      rw [e1]
      by_cases h2 : m.later q o = true
      · have e2 : tagStep m p q a.secondRoundTags o = a.secondRoundTags.insert o.tag () := by
          unfold tagStep; rw [if_neg h1, if_pos h2]
        rw [if_pos h2, e2]
        exact ih hl' { a with secondRoundTags := a.secondRoundTags.insert o.tag () } L ha hs
      · have e2 : tagStep m p q a.secondRoundTags o = a.secondRoundTags := by
          unfold tagStep; rw [if_neg h1, if_neg h2]
        rw [if_neg h2, e2]
        exact ih hl' a L ha hs

theorem createInitial_eq (hlt : ∀ u ∈ inc, u < m.unknowns) (h : Knows m inc V s0 K s) (p q) (els : List Nat)
    (hl : ∀ e ∈ els, ∀ o ∈ objects m e, o.kind = .element ∨ m.ownedBy p o.kind o.id = true → o ∈ K) :
    ∃ a, s.createInitialMessage m p els q = some a ∧
      a.message = (firstObjs m p els).flatMap (part V inc) ∧ a.secondRoundTags = laterTags m p q els := by
  have key : ∀ (els : List Nat), (∀ e ∈ els, ∀ o ∈ objects m e, o.kind = .element ∨ m.ownedBy p o.kind o.id = true → o ∈ K) →
      ∀ (a : Initial) (L : List Obj), a.message = L.flatMap (part V inc) →
      (∀ o : Obj, o.kind ≠ .element → ((a.sendTags.find o.tag).isSome ↔ o ∈ L)) →
      ∃ a', els.foldlM (fun a e => do
          let l ← s.objMessage ⟨.element, e⟩
          (objects m e).tail.foldlM (s.initialStep m p q) { a with message := a.message ++ l }) a = some a' ∧
        a'.message = (els.foldl (fun L e => (objects m e).tail.foldl (firstStep m p) (L ++ [⟨.element, e⟩])) L).flatMap (part V inc) ∧
        a'.secondRoundTags = els.foldl (fun T e => (objects m e).tail.foldl (tagStep m p q) T) a.secondRoundTags := by
    intro els
    induction els with
    | nil => intro _ a L ha hs; exact ⟨a, rfl, ha, rfl⟩
    | cons e els ih =>
      intro hl a L ha hs
      have he : (⟨.element, e⟩ : Obj) ∈ K := hl e (by simp) _ (by simp [objects]) (Or.inl rfl)
      obtain ⟨a1, b1, b2, b3, b4⟩ := initialFold hlt h p q (objects m e).tail
        (fun o ho => ⟨((mem_tail m e o).1 ho).1, fun hh => hl e (by simp) o (List.mem_of_mem_tail ho) (Or.inr hh)⟩)
        { a with message := a.message ++ part V inc ⟨.element, e⟩ } (L ++ [⟨.element, e⟩]) (by simp [ha])
        (by
          intro o ho
          have : o ≠ ⟨.element, e⟩ := fun h => ho (by rw [h])
          simp only [List.mem_append, List.mem_singleton, this, or_false]
          exact hs o ho)
      obtain ⟨a2, c1, c2, c3⟩ := ih (fun e' he' => hl e' (by simp [he'])) a1 _ b2 b4
      refine ⟨a2, ?_, c2, ?_⟩
      · rw [List.foldlM_cons, objMessage_eq hlt h _ he]
        simp only [Option.bind_eq_bind, Option.bind_some, b1]
        exact c1
      · rw [c3, b3]; rfl
  exact key els hl {} [] rfl (by simp [SMap.find])

theorem createSecond_eq (hlt : ∀ u ∈ inc, u < m.unknowns) (h : Knows m inc V s0 K s) (tags : List Nat)
    (hk : ∀ t ∈ tags, t % 4 ≠ 0 ∧ ofTag t ∈ K) :
    s.createSecondMessage tags = some ((tags.map ofTag).flatMap (part V inc)) := by
  unfold State.createSecondMessage
  rw [mapM_some _ (fun t => part V inc (ofTag t)) tags]
  · simp [List.flatMap, List.map_map, Function.comp_def]
  · intro t ht
    rw [if_neg (hk t ht).1, objMessage_eq hlt h _ (hk t ht).2]

end
end Verif.GlobalIndexing
