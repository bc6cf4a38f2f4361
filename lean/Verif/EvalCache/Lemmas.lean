import Verif.EvalCache.Model
import Mathlib.Tactic.SplitIfs

set_option linter.all false

/-! # C63: helpers -/
namespace Verif.EvalCache

variable {P φ V : Type} (g : Prog P φ V)

/-- The map a key stands for. -/
def Key.map : Key → Option (P → P)
  | .direct p => g.face p
  | .indirect m0 m1 => (g.face m1).map (· ∘ g.self m0)

def values (k : Kind) (fs : List φ) (xs : List P) : Table V := xs.map fun x => fs.map fun f => g.ev k f x

theorem table_some (k : Kind) (fs : List φ) (tr : P → Option P) (m : P → P) (h : ∀ x, tr x = some (m x)) (xs : List P) :
    table g k fs tr xs = some (values g k fs (xs.map m)) := by
  induction xs with
  | nil => rfl
  | cons x l ih => simp [table, h, ih, values]

theorem entry_values (k : Kind) (fs : List φ) (xs : List P) (q i : Nat) :
    entry (values g k fs xs) q i = (xs[q]?).bind fun x => (fs[i]?).map fun f => g.ev k f x := by
  simp only [entry, values, List.getElem?_map]
  cases xs[q]? <;> simp

theorem elementCase_iff (k : Kind) (n : Nat) : elementCase k n = true ↔ defined k n := by
  cases k <;> simp [elementCase, defined] <;> omega

theorem faceCase_iff (k : Kind) (n : Nat) : faceCase k n = true ↔ defined k (n + 1) := by
  cases k <;> simp [faceCase, defined] <;> omega

/-- Stored values are those of the present functions of a set that will tell the rule about changes. -/
structure Inv (s : State φ V) : Prop where
  stored : ∀ r k a t, s.stored r k a = some t → ∃ o, s.sets a = some o ∧ r ∈ o.listeners ∧
    t = values g k o.functions (g.rules r).points ∧ defined k (g.rules r).dim
  face : ∀ r k a m c t, s.faceStored r k a = some m → m c = some t → ∃ o f, s.sets a = some o ∧ r ∈ o.listeners ∧
    c.map g = some f ∧ t = values g k o.functions ((g.rules r).points.map f) ∧ defined k ((g.rules r).dim + 1)
  concats : ∀ p m0 m1, s.concats p = some (m0, m1) → (g.face m1).isSome

/-- The objects without the stored values. -/
def State.objects (s : State φ V) : Objects φ := ⟨fun a => (s.sets a).map SetObj.functions, s.concats⟩

theorem call_sets (s : State φ V) (a : Nat) (l : List Nat) : (s.call a l).sets = s.sets := by
  induction l generalizing s with
  | nil => rfl
  | cons r l ih => exact ih _

theorem call_concats (s : State φ V) (a : Nat) (l : List Nat) : (s.call a l).concats = s.concats := by
  induction l generalizing s with
  | nil => rfl
  | cons r l ih => exact ih _

theorem call_stored (s : State φ V) (a : Nat) (l : List Nat) (r : Nat) (k : Kind) (a' : Nat) :
    (s.call a l).stored r k a' = if r ∈ l ∧ a' = a then none else s.stored r k a' := by
  induction l generalizing s with
  | nil => simp [State.call]
  | cons r' l ih =>
    have := ih (s.unregister r' a)
    simp only [State.call, List.foldl_cons] at this ⊢
    rw [this]
    simp only [State.unregister, List.mem_cons]
    by_cases h : a' = a <;> by_cases h1 : r = r' <;> by_cases h2 : r ∈ l <;> simp [h, h1, h2]
    
theorem call_face (s : State φ V) (a : Nat) (l : List Nat) (r : Nat) (k : Kind) (a' : Nat) :
    (s.call a l).faceStored r k a' = if r ∈ l ∧ a' = a then none else s.faceStored r k a' := by
  induction l generalizing s with
  | nil => simp [State.call]
  | cons r' l ih =>
    have := ih (s.unregister r' a)
    simp only [State.call, List.foldl_cons] at this ⊢
    rw [this]
    simp only [State.unregister, List.mem_cons]
    by_cases h : a' = a <;> by_cases h1 : r = r' <;> by_cases h2 : r ∈ l <;> simp [h, h1, h2]

theorem key_map (s : State φ V) (hI : Inv g s) (p : Nat) :
    (s.key g p).bind (Key.map g) = s.objects.map g p ∧ ((s.key g p).isSome = (s.objects.map g p).isSome) := by
  unfold State.key Objects.map State.objects
  dsimp only
  cases h : s.concats p with
  | none => 
    simp only
    cases h' : g.face p <;> simp [Key.map, h']
  | some m =>
    obtain ⟨m0, m1⟩ := m
    have := hI.concats _ _ _ h
    simp only [Option.bind_some, Key.map, Option.isSome_some, Option.isSome_map, this, and_self]

theorem transform_map (s : State φ V) (p : Nat) (f : P → P) (h : s.objects.map g p = some f) (x : P) :
    s.transform g p x = some (f x) := by
  unfold Objects.map State.objects at h
  dsimp only at h
  unfold State.transform
  cases h' : s.concats p with
  | none => rw [h'] at h; simp only at h; simp [h]
  | some m =>
    obtain ⟨m0, m1⟩ := m
    rw [h'] at h
    simp only [Option.map_eq_some_iff] at h
    obtain ⟨f', hf, rfl⟩ := h
    simp [hf]

/-- The relation kept by each action. -/
theorem act_objects (s : State φ V) (hI : Inv g s) (a : Op φ) :
    match s.act g a with
    | none => s.objects.act g a = none
    | some (s', v) => Inv g s' ∧ s.objects.act g a = some (s'.objects, v) := by
  cases a with
  | newSet a =>
    simp only [State.act, State.newSet, Objects.act, State.objects, Option.isNone_map]
    cases h : s.sets a with
    | some o => simp
    | none =>
      simp only [Option.isNone_none, if_true, Option.map_some]
      refine ⟨⟨?_, ?_, hI.concats⟩, ?_⟩
      · intro r k a' t ht
        obtain ⟨o, ho, h1⟩ := hI.stored r k a' t ht
        have : a' ≠ a := by rintro rfl; simp [h] at ho
        exact ⟨o, by simpa [Function.update_of_ne this] using ho, h1⟩
      · intro r k a' m c t hm ht
        obtain ⟨o, f, ho, h1⟩ := hI.face r k a' m c t hm ht
        have : a' ≠ a := by rintro rfl; simp [h] at ho
        exact ⟨o, f, by simpa [Function.update_of_ne this] using ho, h1⟩
      · simp only [Option.some.injEq, Prod.mk.injEq, Objects.mk.injEq, and_true]
        funext b
        by_cases hb : b = a
        · subst hb; simp
        · simp [Function.update_of_ne hb]
  | addFunction a f =>
    simp only [State.act, State.addFunction, Objects.act, State.objects]
    cases h : s.sets a with
    | none => simp
    | some o =>
      simp only [Option.bind_some, Option.map_some]
      refine ⟨⟨?_, ?_, ?_⟩, ?_⟩
      · intro r k a' t ht
        rw [call_stored] at ht
        split_ifs at ht with hc
        obtain ⟨o', ho, h1⟩ := hI.stored r k a' t ht
        have : a' ≠ a := by
          rintro rfl
          rw [h] at ho; cases ho
          exact hc ⟨h1.1, rfl⟩
        exact ⟨o', by simpa [call_sets, Function.update_of_ne this] using ho, h1⟩
      · intro r k a' m c t hm ht
        rw [call_face] at hm
        split_ifs at hm with hc
        obtain ⟨o', f', ho, h1⟩ := hI.face r k a' m c t hm ht
        have : a' ≠ a := by
          rintro rfl
          rw [h] at ho; cases ho
          exact hc ⟨h1.1, rfl⟩
        exact ⟨o', f', by simpa [call_sets, Function.update_of_ne this] using ho, h1⟩
      · simpa [call_concats] using hI.concats
      · simp only [Option.some.injEq, Prod.mk.injEq, Objects.mk.injEq, and_true, call_sets, call_concats]
        funext b
        by_cases hb : b = a
        · subst hb; simp
        · simp [Function.update_of_ne hb]
  | destroySet a =>
    simp only [State.act, State.destroySet, Objects.act, State.objects]
    cases h : s.sets a with
    | none => simp
    | some o =>
      simp only [Option.bind_some, Option.map_some]
      refine ⟨⟨?_, ?_, ?_⟩, ?_⟩
      · intro r k a' t ht
        simp only [call_stored] at ht
        split_ifs at ht with hc
        obtain ⟨o', ho, h1⟩ := hI.stored r k a' t ht
        have : a' ≠ a := by
          rintro rfl
          rw [h] at ho; cases ho
          exact hc ⟨h1.1, rfl⟩
        exact ⟨o', by simpa [Function.update_of_ne this] using ho, h1⟩
      · intro r k a' m c t hm ht
        simp only [call_face] at hm
        split_ifs at hm with hc
        obtain ⟨o', f', ho, h1⟩ := hI.face r k a' m c t hm ht
        have : a' ≠ a := by
          rintro rfl
          rw [h] at ho; cases ho
          exact hc ⟨h1.1, rfl⟩
        exact ⟨o', f', by simpa [Function.update_of_ne this] using ho, h1⟩
      · simpa [call_concats] using hI.concats
      · simp only [Option.some.injEq, Prod.mk.injEq, Objects.mk.injEq, and_true, call_concats]
        funext b
        by_cases hb : b = a
        · subst hb; simp
        · simp [Function.update_of_ne hb]
  | newConcat p m0 m1 =>
    simp only [State.act, State.newConcat, Objects.act, State.objects]
    by_cases hc : (s.concats p).isNone = true ∧ (g.face p).isNone = true ∧ (g.face m1).isSome = true
    · rw [if_pos hc]
      refine ⟨⟨hI.stored, hI.face, ?_⟩, if_pos hc⟩
      intro p' a b h
      by_cases hp : p' = p
      · subst hp
        simp only [Function.update_self, Option.some.injEq, Prod.mk.injEq] at h
        obtain ⟨rfl, rfl⟩ := h
        exact hc.2.2
      · simp only [Function.update_of_ne hp] at h
        exact hI.concats _ _ _ h
    · rw [if_neg hc]
      exact if_neg hc
  | destroyConcat p =>
    simp only [State.act, State.destroyConcat, Objects.act, State.objects]
    cases h : s.concats p with
    | none => simp
    | some m =>
      simp only [Option.bind_some, Option.map_some]
      refine ⟨⟨hI.stored, hI.face, ?_⟩, trivial⟩
      intro p' a b h
      by_cases hp : p' = p
      · subst hp; simp at h
      · simp only [Function.update_of_ne hp] at h
        exact hI.concats _ _ _ h
  | eval r k a i q =>
    simp only [State.act, State.eval, Objects.act, State.admissible, State.objects]
    cases h : s.sets a with
    | none => simp
    | some o =>
      simp only [Option.bind_some, Option.map_some]
      by_cases hq : q < (g.rules r).points.length ∧ i < o.functions.length
      · have h1 := List.getElem?_eq_getElem hq.1
        have h2 := List.getElem?_eq_getElem hq.2
        rw [if_pos hq]
        simp only [Option.bind_some, h1, h2]
        cases ht : s.stored r k a with
        | some t =>
          obtain ⟨o', ho, hl, rfl, hd⟩ := hI.stored _ _ _ _ ht
          rw [h] at ho; cases ho
          simp only [entry_values, h1, h2, Option.bind_some, Option.map_some, hd, if_true, and_true]
          exact hI
        | none =>
          simp only [elementCase_iff]
          by_cases hd : defined k (g.rules r).dim
          · simp only [hd, if_true, table_some g k o.functions some id (fun _ => rfl), List.map_id, Option.bind_some,
              entry_values, h1, h2, Option.map_some]
            have hs : ∀ b, (s.register a r).sets b = if b = a then some ⟨o.functions, o.listeners ++ [r]⟩ else s.sets b := by
              intro b
              simp only [State.register, h, Option.map_some, Function.update_apply]
            refine ⟨⟨?_, ?_, hI.concats⟩, ?_⟩
            · intro r' k' a' t ht'
              simp only [hs]
              simp only at ht'
              split_ifs at ht' with hc
              · obtain ⟨rfl, rfl, rfl⟩ := hc
                cases ht'
                exact ⟨_, if_pos rfl, by simp, rfl, hd⟩
              · obtain ⟨o', ho, hl, e, hd'⟩ := hI.stored _ _ _ _ ht'
                by_cases ha : a' = a
                · subst ha
                  rw [h] at ho; cases ho
                  exact ⟨_, if_pos rfl, by simp [hl], e, hd'⟩
                · exact ⟨o', by rw [if_neg ha, ho], hl, e, hd'⟩
            · intro r' k' a' m c t hm ht'
              simp only [hs]
              obtain ⟨o', f, ho, hl, e⟩ := hI.face _ _ _ _ _ _ hm ht'
              by_cases ha : a' = a
              · subst ha
                rw [h] at ho; cases ho
                exact ⟨_, f, if_pos rfl, by simp [hl], e⟩
              · exact ⟨o', f, by rw [if_neg ha, ho], hl, e⟩
            · simp only [Option.some.injEq, Prod.mk.injEq, Objects.mk.injEq, and_true, hs]
              refine ⟨?_, rfl⟩
              funext b
              by_cases hb : b = a
              · subst hb; simp [h]
              · simp [hb]
          · simp only [if_neg hd, Option.bind_some, Option.map_none]
      · rw [if_neg hq]
        simp only [Option.bind_none, Option.map_none]
        by_cases h1 : i < o.functions.length
        · have h2 : ¬ q < (g.rules r).points.length := fun h => hq ⟨h, h1⟩
          simp [List.getElem?_eq_getElem h1, List.getElem?_eq_none (Nat.le_of_not_lt h2)]
        · simp [List.getElem?_eq_none (Nat.le_of_not_lt h1)]
  | evalFace r k a i q p =>
    simp only [State.act, State.evalFace, Objects.act, State.admissible]
    have hk := key_map g s hI p
    cases h : s.sets a with
    | none => simp [State.objects, h]
    | some o =>
      have hobj : s.objects.sets a = some o.functions := by simp [State.objects, h]
      rw [hobj]
      simp only [Option.bind_some, Option.map_some]
      by_cases hq : q < (g.rules r).points.length ∧ i < o.functions.length
      · have h1 := List.getElem?_eq_getElem hq.1
        have h2 := List.getElem?_eq_getElem hq.2
        rw [if_pos hq]
        simp only [Option.bind_some, h1, h2]
        cases hc : s.key g p with
        | none =>
          have := hk.2
          rw [hc] at this
          have hn : s.objects.map g p = none := by simpa using this.symm
          simp [hn]
        | some c =>
          rw [hc] at hk
          obtain ⟨f, hf⟩ : ∃ f, s.objects.map g p = some f := Option.isSome_iff_exists.1 (by rw [← hk.2]; rfl)
          have hcf : c.map g = some f := by rw [← hf, ← hk.1]; rfl
          simp only [Option.bind_some, hf]
          cases ht : (s.faceStored r k a).bind (fun m => m c) with
          | some t =>
            rw [Option.bind_eq_some_iff] at ht
            obtain ⟨m, hm, ht⟩ := ht
            obtain ⟨o', f', ho', hl, hf', rfl, hd⟩ := hI.face _ _ _ _ _ _ hm ht
            rw [h] at ho'; cases ho'
            rw [hcf] at hf'; cases hf'
            simp only [entry_values, h1, h2, List.getElem?_map, Option.bind_some, Option.map_some, hd, if_true, and_true]
            exact hI
          | none =>
            simp only [faceCase_iff]
            by_cases hd : defined k ((g.rules r).dim + 1)
            · simp only [hd, if_true, table_some g k o.functions _ f (transform_map g s p f hf), Option.bind_some,
                entry_values, h1, h2, Option.map_some, List.getElem?_map]
              have hs : ∀ b, (s.register a r).sets b = if b = a then some ⟨o.functions, o.listeners ++ [r]⟩ else s.sets b := by
                intro b
                simp only [State.register, h, Option.map_some, Function.update_apply]
              refine ⟨⟨?_, ?_, hI.concats⟩, ?_⟩
              · intro r' k' a' t ht'
                simp only [hs]
                obtain ⟨o', ho, hl, e⟩ := hI.stored _ _ _ _ ht'
                by_cases ha : a' = a
                · subst ha
                  rw [h] at ho; cases ho
                  exact ⟨_, if_pos rfl, by simp [hl], e⟩
                · exact ⟨o', by rw [if_neg ha, ho], hl, e⟩
              · intro r' k' a' m c' t hm ht'
                simp only [hs]
                have old : (∃ m', s.faceStored r' k' a' = some m' ∧ m' c' = some t) → ∃ o' f',
                    (if a' = a then some ⟨o.functions, o.listeners ++ [r]⟩ else s.sets a') = some o' ∧ r' ∈ o'.listeners ∧
                    c'.map g = some f' ∧ t = values g k' o'.functions ((g.rules r').points.map f') ∧
                    defined k' ((g.rules r').dim + 1) := by
                  rintro ⟨m', hm', hmc⟩
                  obtain ⟨o', f', ho, hl, e⟩ := hI.face _ _ _ _ _ _ hm' hmc
                  by_cases ha : a' = a
                  · subst ha
                    rw [h] at ho; cases ho
                    exact ⟨_, f', if_pos rfl, by simp [hl], e⟩
                  · exact ⟨o', f', by rw [if_neg ha, ho], hl, e⟩
                simp only at hm
                split_ifs at hm with hcc
                · obtain ⟨rfl, rfl, rfl⟩ := hcc
                  cases hm
                  by_cases hcc : c' = c
                  · subst hcc
                    simp only [Function.update_self, Option.some.injEq] at ht'
                    subst ht'
                    exact ⟨_, f, if_pos rfl, by simp, hcf, rfl, hd⟩
                  · rw [Function.update_of_ne hcc] at ht'
                    apply old
                    cases hm' : s.faceStored r' k' a' with
                    | none => rw [hm'] at ht'; simp at ht'
                    | some m' => rw [hm'] at ht'; exact ⟨m', rfl, ht'⟩
                · exact old ⟨m, hm, ht'⟩
              · simp only [Option.some.injEq, Prod.mk.injEq, and_true]
                unfold State.objects
                simp only [hs, Objects.mk.injEq]
                refine ⟨?_, rfl⟩
                funext b
                by_cases hb : b = a
                · subst hb; simp [h]
                · simp [hb]
            · simp only [if_neg hd, Option.bind_some, Option.map_none]
      · rw [if_neg hq]
        simp only [Option.bind_none, Option.map_none]
        by_cases h1 : i < o.functions.length
        · have h2 : ¬ q < (g.rules r).points.length := fun h => hq ⟨h, h1⟩
          simp [List.getElem?_eq_getElem h1, List.getElem?_eq_none (Nat.le_of_not_lt h2)]
        · simp [List.getElem?_eq_none (Nat.le_of_not_lt h1)]

theorem answers_objects (s : State φ V) (hI : Inv g s) (l : List (Op φ)) : s.answers g l = s.objects.answers g l := by
  induction l generalizing s with
  | nil => rfl
  | cons a l ih =>
    have h := act_objects g s hI a
    unfold State.answers Objects.answers
    cases ha : s.act g a with
    | none => rw [ha] at h; simp only at h; rw [h]
    | some r =>
      obtain ⟨s', v⟩ := r
      rw [ha] at h
      simp only at h
      rw [h.2]
      simp only [ih s' h.1]

theorem inv_init : Inv g (State.init : State φ V) := ⟨by simp [State.init], by simp [State.init], by simp [State.init]⟩

end Verif.EvalCache
