import Verif.CommandLine.Spec

set_option linter.all false
namespace Verif.CommandLine

/-- The state after options have been set. -/
def applySets (as : List (Nat × Val)) (st : State) : State :=
  as.foldl (fun st a => fun j => if j = a.1 then (a.2, true) else st j) st

theorem applySets_append (as bs : List (Nat × Val)) (st : State) :
    applySets (as ++ bs) st = applySets bs (applySets as st) := by simp [applySets]

theorem applySets_eq (as : List (Nat × Val)) (st : State) (i : Nat) :
    applySets as st i = match (as.filter fun a => a.1 = i).getLast? with
      | some a => (a.2, true)
      | none => st i := by
  induction as generalizing st with
  | nil => rfl
  | cons a as ih =>
    have := ih (fun j => if j = a.1 then (a.2, true) else st j)
    simp only [applySets, List.foldl_cons] at this ⊢
    rw [this]
    by_cases h : a.1 = i
    · simp only [List.filter_cons, h, decide_true, if_true]
      rw [List.getLast?_cons]
      cases hl : (List.filter (fun a => decide (a.1 = i)) as).getLast? <;> simp
    · have h' : ¬ i = a.1 := fun e => h e.symm
      simp only [List.filter_cons, h, h', decide_false, if_false]
      simp

theorem result_eq (opts : List Opt) (as : List (Nat × Val)) : result opts as = applySets as (initial opts) := by
  funext i
  rw [applySets_eq, result]
  rfl

theorem registry_concat (opts : List Opt) (o : Opt) : registry (opts ++ [o]) = (registry opts).register o := by
  simp [registry]

theorem reverse_ind {P : List Opt → Prop} (h0 : P []) (h1 : ∀ l a, P l → P (l ++ [a])) (l : List Opt) : P l := by
  have : ∀ n, ∀ l : List Opt, l.length = n → P l := by
    intro n
    induction n with
    | zero => intro l hl; rw [List.length_eq_zero_iff.1 hl]; exact h0
    | succ n ih =>
      intro l hl
      have hne : l ≠ [] := by rintro rfl; simp at hl
      rw [← List.dropLast_concat_getLast hne]
      exact h1 _ _ (ih _ (by simp [hl]))
  exact this _ l rfl

theorem registry_list (opts : List Opt) : (registry opts).list = opts := by
  induction opts using reverse_ind with
  | h0 => rfl
  | h1 l a ih => rw [registry_concat]; simp [Registry.register, ih]

theorem findIdx?_concat {A : Type} (l : List A) (a : A) (p : A → Bool) :
    (l ++ [a]).findIdx? p = match l.findIdx? p with | some i => some i | none => if p a then some l.length else none := by
  rw [List.findIdx?_append]
  cases l.findIdx? p <;> simp [List.findIdx?_cons]

theorem lmapping_eq (opts : List Opt) (name : Str) : (registry opts).lmapping.lookup name = longOpt opts name := by
  induction opts using reverse_ind generalizing name with
  | h0 => rfl
  | h1 l a ih =>
    rw [registry_concat, Registry.register, longOpt, findIdx?_concat, ← longOpt, registry_list]
    simp only [ih]
    by_cases h : name = a.long
    · subst h
      cases hl : longOpt l a.long with
      | none => simp [List.lookup]
      | some i => simp [ih, hl]
    · have h' : ¬ a.long = name := fun e => h e.symm
      have h'' : (name == a.long) = false := by simpa using h
      split
      · simp only [List.lookup, h'', ih, h', decide_false]
        cases longOpt l name <;> rfl
      · rw [ih]
        simp only [h', decide_false]
        cases longOpt l name <;> rfl

theorem smapping_eq (opts : List Opt) (c : Char) : (registry opts).smapping.lookup c = shortOpt opts c := by
  induction opts using reverse_ind generalizing c with
  | h0 => simp [shortOpt, registry, Registry.empty]
  | h1 l a ih =>
    rw [registry_concat, Registry.register, shortOpt, findIdx?_concat, registry_list]
    simp only [ih]
    by_cases h : c = a.tag
    · subst h
      by_cases h0 : a.tag = '\x00'
      · simp [h0, ih, shortOpt]
      · simp only [h0, shortOpt, if_false, ne_eq, not_false_eq_true, true_and]
        cases hl : l.findIdx? (fun o => decide (o.tag = a.tag)) with
        | none => simp [List.lookup]
        | some i => simp [ih, hl, shortOpt, h0]
    · have h' : ¬ a.tag = c := fun e => h e.symm
      have h'' : (c == a.tag) = false := by simpa using h
      split
      · simp only [List.lookup, h'', ih, h', decide_false, shortOpt]
        split
        · rfl
        · cases l.findIdx? (fun o => decide (o.tag = c)) <;> rfl
      · rw [ih, shortOpt]
        simp only [h', decide_false]
        split
        · rfl
        · cases l.findIdx? (fun o => decide (o.tag = c)) <;> rfl

theorem parse_flag {opts : List Opt} {i : Option Nat} {a : Nat × Val} (h : Sets opts i a) : ∃ o, i = some a.1 ∧ opts[a.1]? = some o ∧
    o.kind.hasArgument = false ∧ ∀ next st, parse o.kind next a.1 st = some (applySets [a] st) := by
  obtain ⟨o, h1, h2, h3, h4⟩ := h
  refine ⟨o, h1, h2, ?_, ?_⟩
  · cases hk : o.kind <;> simp_all [Kind.hasArgument]
  · intro next st
    cases hk : o.kind with
    | arg => simp_all
    | flag => simp [parse, applySets, h4]

theorem parse_arg {opts : List Opt} {i : Option Nat} {v : Str} {a : Nat × Val} (h : SetsTo opts i v a) : ∃ o, i = some a.1 ∧ opts[a.1]? = some o ∧
    o.kind.hasArgument = true ∧ ∀ st, parse o.kind (some v) a.1 st = some (applySets [a] st) := by
  obtain ⟨o, conv, h1, h2, h3, h4⟩ := h
  refine ⟨o, h1, h2, by simp [h3, Kind.hasArgument], ?_⟩
  intro st
  simp [h3, parse, applySets, h4]

/-- The letters before a letter with an argument. -/
theorem letters_flags {opts : List Opt} (rest : List Str) (flags cs : Str) (as : List (Nat × Val)) (hl : flags.length = as.length)
    (h : ∀ p ∈ flags.zip as, Sets opts (shortOpt opts p.1) p.2) (st : State) :
    letters (registry opts) rest (flags ++ cs) st = letters (registry opts) rest cs (applySets as st) := by
  induction flags generalizing as st with
  | nil =>
    have : as = [] := List.length_eq_zero_iff.1 (by simpa using hl.symm)
    subst this; rfl
  | cons c flags ih =>
    cases as with
    | nil => simp at hl
    | cons a as =>
      obtain ⟨o, h1, h2, h3, h4⟩ := parse_flag (h (c, a) (by simp))
      simp only at h1
      rw [List.cons_append, letters, smapping_eq, h1, registry_list]
      simp only [Option.bind_eq_bind, Option.bind_some, h2, h3, Bool.false_and, h4]
      rw [show applySets (a :: as) st = applySets as (applySets [a] st) from rfl]
      exact ih as (by simpa using hl) (fun p hp => h p (by simp [hp])) _

theorem token_long {opts : List Opt} {name : Str} {a : Nat × Val} (h : Sets opts (longOpt opts name) a) (rest : List Str) (st : State) :
    token (registry opts) ('-' :: '-' :: name) rest st = some (applySets [a] st, false) := by
  obtain ⟨o, h1, h2, h3, h4⟩ := parse_flag h
  simp [token, lmapping_eq, h1, registry_list, h2, h3, h4]

theorem token_longArg {opts : List Opt} {name v : Str} {a : Nat × Val} (h : SetsTo opts (longOpt opts name) v a) (rest : List Str) (st : State) :
    token (registry opts) ('-' :: '-' :: name) (v :: rest) st = some (applySets [a] st, true) := by
  obtain ⟨o, h1, h2, h3, h4⟩ := parse_arg h
  simp [token, lmapping_eq, h1, registry_list, h2, h3, h4]

/-- What a round does for an item. -/
theorem token_item {opts : List Opt} {it : Item} {as : List (Nat × Val)} (h : it.Means opts as) (more : List Str) (st : State) :
    ∃ tag rest b, it.words ++ more = tag :: rest ∧ token (registry opts) tag rest st = some (applySets as st, b) ∧
      (if b then rest.tail else rest) = more := by
  cases h with
  | long name a h => exact ⟨_, _, false, rfl, token_long h _ st, rfl⟩
  | longArg name v a h => exact ⟨_, _, true, rfl, token_longArg h _ st, rfl⟩
  | short flags as h1 h2 h3 h4 =>
    refine ⟨_, _, false, rfl, ?_, rfl⟩
    obtain ⟨c, flags, rfl⟩ : ∃ c l, flags = c :: l := by
      cases flags with
      | nil => exact absurd rfl h1
      | cons c l => exact ⟨c, l, rfl⟩
    have hc : c ≠ '-' := by simpa using h2
    have := letters_flags more (c :: flags) [] as h3 h4 st
    rw [List.append_nil] at this
    simp [token, hc, this, letters]
  | shortArg flags c v as a h1 h2 h3 h4 =>
    refine ⟨_, _, true, rfl, ?_, rfl⟩
    have hlen : (flags ++ [c]).length ≥ 1 := by simp
    have hget : ('-' :: (flags ++ [c]))[1]? = (flags ++ [c]).head? := by
      rw [List.getElem?_cons_succ, List.head?_eq_getElem?]
    obtain ⟨o, g1, g2, g3, g4⟩ := parse_arg h4
    rw [token, if_neg (by simp), if_neg (by rw [hget]; exact h1), List.drop_succ_cons, List.drop_zero,
      letters_flags _ _ _ _ h2 h3, letters, smapping_eq, g1, registry_list]
    simp [g2, g3, g4, applySets_append]

theorem isDone_ne {done : Nat} {as : List (Nat × Val)} {st : State} (hst : isDone done st = false) (h : ∀ a ∈ as, a.1 ≠ done) :
    isDone done (applySets as st) = false := by
  have : applySets as st done = st done := by
    rw [applySets_eq]
    have : (as.filter fun a => decide (a.1 = done)) = [] := by
      rw [List.filter_eq_nil_iff]
      intro a ha; simpa using h a ha
    rw [this]; rfl
  rw [isDone, this]; exact hst

/-- The loop on items. -/
theorem loop_words {opts : List Opt} {done : Nat} {its : List Item} {as : List (Nat × Val)} (h : Means opts its as)
    (hd : ∀ a ∈ as, a.1 ≠ done) (more : List Str) (st : State) (hst : isDone done st = false) :
    loop (registry opts) done (words its ++ more) st = loop (registry opts) done more (applySets as st) := by
  induction h generalizing st with
  | nil => rfl
  | cons it its a as h1 h2 ih =>
    have hd1 : ∀ x ∈ a, x.1 ≠ done := fun x hx => hd x (by simp [hx])
    have hd2 : ∀ x ∈ as, x.1 ≠ done := fun x hx => hd x (by simp [hx])
    obtain ⟨tag, rest, b, e1, e2, e3⟩ := token_item h1 (words its ++ more) st
    have hw : words (it :: its) ++ more = it.words ++ (words its ++ more) := by simp [words]
    rw [hw, e1, loop, e2]
    have hst' := isDone_ne (as := a) hst hd1
    rw [applySets_append, ← ih hd2 _ hst']
    cases b
    · simp only [hst', Bool.false_eq_true, if_false] at e3 ⊢; rw [e3]
    · simp only [hst', Bool.false_eq_true, if_false, if_true] at e3 ⊢; rw [e3]

/-- The letters that succeed. -/
theorem letters_inv {opts : List Opt} (rest : List Str) (cs : Str) (st st' : State) (b : Bool)
    (h : letters (registry opts) rest cs st = some (st', b)) :
    (b = false ∧ ∃ as : List (Nat × Val), cs.length = as.length ∧ (∀ p ∈ cs.zip as, Sets opts (shortOpt opts p.1) p.2) ∧ st' = applySets as st) ∨
    (b = true ∧ ∃ flags c v rest' as a, cs = flags ++ [c] ∧ rest = v :: rest' ∧ flags.length = as.length ∧
      (∀ p ∈ flags.zip as, Sets opts (shortOpt opts p.1) p.2) ∧ SetsTo opts (shortOpt opts c) v a ∧ st' = applySets (as ++ [a]) st) := by
  induction cs generalizing st with
  | nil =>
    simp only [letters, Option.some.injEq, Prod.mk.injEq] at h
    obtain ⟨rfl, rfl⟩ := h
    exact Or.inl ⟨rfl, [], rfl, by simp, rfl⟩
  | cons c cs ih =>
    rw [letters, smapping_eq, registry_list] at h
    cases hi : shortOpt opts c with
    | none => rw [hi] at h; simp at h
    | some i =>
      rw [hi] at h
      simp only [Option.bind_eq_bind, Option.bind_some] at h
      cases ho : opts[i]? with
      | none => rw [ho] at h; simp at h
      | some o =>
        rw [ho] at h
        simp only [Option.bind_some] at h
        cases hk : o.kind with
        | flag =>
          simp only [hk, Kind.hasArgument, Bool.false_and, Bool.false_eq_true, if_false, parse, Option.bind_some] at h
          have hset : Sets opts (shortOpt opts c) (i, .bool true) := ⟨o, hi, ho, by simp [hk], rfl⟩
          rcases ih _ h with ⟨hb, as, e1, e2, e3⟩ | ⟨hb, flags, c', v, rest', as, a, e1, e2, e3, e4, e5, e6⟩
          · refine Or.inl ⟨hb, (i, .bool true) :: as, by simp [e1], ?_, by rw [e3]; rfl⟩
            intro p hp
            rw [List.zip_cons_cons, List.mem_cons] at hp
            rcases hp with rfl | hp
            · exact hset
            · exact e2 p hp
          · refine Or.inr ⟨hb, c :: flags, c', v, rest', (i, .bool true) :: as, a, by simp [e1], e2, by simp [e3], ?_, e5, by rw [e6]; rfl⟩
            intro p hp
            rw [List.zip_cons_cons, List.mem_cons] at hp
            rcases hp with rfl | hp
            · exact hset
            · exact e4 p hp
        | arg conv =>
          simp only [hk, Kind.hasArgument, Bool.true_and] at h
          by_cases hc : (!cs.isEmpty || rest.isEmpty) = true
          · rw [if_pos hc] at h; simp at h
          · rw [if_neg hc] at h
            simp only [Bool.or_eq_true, not_or, Bool.not_eq_true, Bool.not_eq_false', List.isEmpty_iff] at hc
            obtain ⟨v, rest', rfl⟩ : ∃ v l, rest = v :: l := by
              cases rest with
              | nil => simp at hc
              | cons v l => exact ⟨v, l, rfl⟩
            have hcs : cs = [] := by simpa using hc.1
            subst hcs
            simp only [parse, List.head?_cons, Option.bind_eq_bind, Option.bind_some] at h
            cases hv : conv v with
            | none => rw [hv] at h; simp at h
            | some x =>
              rw [hv] at h
              simp only [Option.bind_some, if_true, Option.some.injEq, Prod.mk.injEq] at h
              obtain ⟨rfl, rfl⟩ := h
              refine Or.inr ⟨rfl, [], c, v, rest', [], (i, x), rfl, rfl, rfl, by simp, ⟨o, conv, hi, ho, hk, hv⟩, ?_⟩
              simp [applySets]

/-- A round that succeeds reads an item. -/
theorem token_inv {opts : List Opt} (tag : Str) (rest : List Str) (st st' : State) (b : Bool)
    (h : token (registry opts) tag rest st = some (st', b)) :
    ∃ it as, Item.Means opts it as ∧ tag :: rest = it.words ++ (if b then rest.tail else rest) ∧ st' = applySets as st ∧
      (∀ a ∈ as, a.1 ∈ (longOpt opts (tag.drop 2)).toList ∧ tag.take 2 = ['-', '-'] ∨ ∃ c, shortOpt opts c = some a.1) ∧
      (tag = ['-', '-'] → ∀ a ∈ as, some a.1 = longOpt opts []) := by
  rw [token] at h
  split at h
  · simp at h
  · rename_i h0
    simp only [ge_iff_le, Classical.not_not] at h0
    obtain ⟨d, t, rfl⟩ : ∃ d t, tag = '-' :: d :: t := by
      match tag, h0 with
      | a :: b :: t, h0 => exact ⟨b, t, by simpa using h0.2⟩
    split at h
    · rename_i h1
      have : d = '-' := by simpa using h1
      subst this
      rw [lmapping_eq, registry_list] at h
      simp only [List.drop_succ_cons, List.drop_zero] at h ⊢
      cases hi : longOpt opts t with
      | none => rw [hi] at h; simp at h
      | some i =>
        rw [hi] at h
        simp only [Option.bind_eq_bind, Option.bind_some] at h
        cases ho : opts[i]? with
        | none => rw [ho] at h; simp at h
        | some o =>
          rw [ho] at h
          simp only [Option.bind_some] at h
          cases hk : o.kind with
          | flag =>
            simp only [hk, Kind.hasArgument, Bool.false_and, Bool.false_eq_true, if_false, parse, Option.bind_some,
              Option.some.injEq, Prod.mk.injEq] at h
            obtain ⟨rfl, rfl⟩ := h
            refine ⟨.long t, [(i, .bool true)], .long _ _ ⟨o, hi, ho, by simp [hk], rfl⟩, by simp [Item.words], rfl, by simp, ?_⟩
            intro ht a ha
            simp only [List.cons.injEq, true_and] at ht
            subst ht
            simp at ha; subst ha; simp [hi]
          | arg conv =>
            simp only [hk, Kind.hasArgument, Bool.true_and] at h
            split at h
            · simp at h
            · rename_i hr
              obtain ⟨v, rest', rfl⟩ : ∃ v l, rest = v :: l := by
                cases rest with
                | nil => simp at hr
                | cons v l => exact ⟨v, l, rfl⟩
              simp only [parse, List.head?_cons, Option.bind_eq_bind, Option.bind_some] at h
              cases hv : conv v with
              | none => rw [hv] at h; simp at h
              | some x =>
                rw [hv] at h
                simp only [Option.bind_some, Option.some.injEq, Prod.mk.injEq] at h
                obtain ⟨rfl, rfl⟩ := h
                refine ⟨.longArg t v, [(i, x)], .longArg _ _ _ ⟨o, conv, hi, ho, hk, hv⟩, by simp [Item.words], rfl, by simp, ?_⟩
                intro ht a ha
                simp only [List.cons.injEq, true_and] at ht
                subst ht
                simp at ha; subst ha; simp [hi]
    · rename_i h1
      have hd : d ≠ '-' := by simpa using h1
      simp only [List.drop_succ_cons, List.drop_zero] at h ⊢
      have hset : ∀ (flags : Str) (as : List (Nat × Val)), flags.length = as.length → (∀ p ∈ flags.zip as, Sets opts (shortOpt opts p.1) p.2) →
          ∀ a ∈ as, ∃ c, shortOpt opts c = some a.1 := by
        intro flags as hl hz a ha
        obtain ⟨n, hn, rfl⟩ := List.getElem_of_mem ha
        have hn' : n < flags.length := by omega
        have hm : (flags[n], as[n]) ∈ flags.zip as := by
          rw [List.mem_iff_getElem]
          exact ⟨n, by simp; omega, by simp⟩
        obtain ⟨o, e, -⟩ := hz _ hm
        exact ⟨_, e⟩
      rcases letters_inv _ _ _ _ _ h with ⟨rfl, as, e1, e2, e3⟩ | ⟨rfl, flags, c', v, rest', as, a, e1, e2, e3, e4, e5, e6⟩
      · refine ⟨.short (d :: t), as, .short _ _ (by simp) (by simpa using hd) e1 e2, by simp [Item.words], e3,
          fun a ha => Or.inr (hset _ _ e1 e2 a ha), ?_⟩
        intro ht; simp at ht; exact absurd ht.1 hd
      · subst e2
        refine ⟨.shortArg flags c' v, as ++ [a], .shortArg _ _ _ _ _ (by rw [← e1]; simpa using hd) e3 e4 e5,
          by simp [Item.words, e1], e6, ?_, ?_⟩
        · intro x hx
          rw [List.mem_append] at hx
          rcases hx with hx | hx
          · exact Or.inr (hset _ _ e3 e4 x hx)
          · simp at hx; subst hx
            obtain ⟨o, conv, h1, -⟩ := e5
            exact Or.inr ⟨_, h1⟩
        · intro ht; simp at ht; exact absurd ht.1 hd

theorem findIdx?_spec {A : Type} {p : A → Bool} {l : List A} {i : Nat} (h : l.findIdx? p = some i) : ∃ a, l[i]? = some a ∧ p a = true := by
  rw [List.findIdx?_eq_some_iff_getElem] at h
  obtain ⟨h1, h2, -⟩ := h
  exact ⟨l[i], by simp [h1], h2⟩

/-- `--` is the only way to the option that ends the arguments. -/
theorem done_only {opts : List Opt} {done help : Nat} (hs : Special opts done help) :
    (∀ name, longOpt opts name = some done → name = []) ∧ (∀ c, shortOpt opts c ≠ some done) := by
  obtain ⟨o, h1, h2, h3, -⟩ := hs.flag
  constructor
  · intro name h
    obtain ⟨a, ha, hp⟩ := findIdx?_spec h
    obtain ⟨b, hb, hq⟩ := findIdx?_spec hs.ends
    rw [h1] at ha hb
    cases ha; cases hb
    simp at hp hq
    rw [← hp, hq]
  · intro c h
    rw [shortOpt] at h
    split at h
    · simp at h
    · rename_i hc
      obtain ⟨a, ha, hp⟩ := findIdx?_spec h
      rw [h1] at ha
      cases ha
      simp at hp
      exact hc (hp ▸ h3)

/-- The loop that succeeds reads items. -/
theorem loop_inv {opts : List Opt} {done help : Nat} (hs : Special opts done help) (n : Nat) (args : List Str) (hn : args.length ≤ n) (st st' : State)
    (left : List Str) (hst : isDone done st = false) (h : loop (registry opts) done args st = some (st', left)) :
    ∃ its as, Means opts its as ∧ (∀ a ∈ as, a.1 ≠ done) ∧
      ((args = words its ∧ left = [] ∧ st' = applySets as st) ∨
       (∃ rest, args = words its ++ ['-', '-'] :: rest ∧ left = ['-', '-'] :: rest ∧ st' = applySets (as ++ [(done, .bool true)]) st)) := by
  induction n generalizing args st with
  | zero =>
    have : args = [] := List.length_eq_zero_iff.1 (by omega)
    subst this
    rw [loop] at h
    simp only [Option.some.injEq, Prod.mk.injEq] at h
    exact ⟨[], [], .nil, by simp, Or.inl ⟨rfl, h.2.symm, h.1.symm⟩⟩
  | succ n ih =>
    cases args with
    | nil =>
      rw [loop] at h
      simp only [Option.some.injEq, Prod.mk.injEq] at h
      exact ⟨[], [], .nil, by simp, Or.inl ⟨rfl, h.2.symm, h.1.symm⟩⟩
    | cons tag rest =>
      rw [loop] at h
      cases ht : token (registry opts) tag rest st with
      | none => rw [ht] at h; simp at h
      | some r =>
        obtain ⟨st1, b⟩ := r
        rw [ht] at h
        obtain ⟨it, as, e1, e2, e3, e4, e5⟩ := token_inv _ _ _ _ _ ht
        by_cases htag : tag = ['-', '-']
        · subst htag
          have hset : Sets opts (longOpt opts []) (done, .bool true) := by
            obtain ⟨o, h1, h2, -⟩ := hs.flag
            exact ⟨o, hs.ends, h1, by simp [h2], rfl⟩
          have := token_long hset rest st
          rw [ht] at this
          simp only [Option.some.injEq, Prod.mk.injEq] at this
          obtain ⟨rfl, rfl⟩ := this
          have hdn : isDone done (applySets [(done, .bool true)] st) = true := by simp [isDone, applySets]
          simp only [hdn, if_true, Option.some.injEq, Prod.mk.injEq] at h
          exact ⟨[], [], .nil, by simp, Or.inr ⟨rest, rfl, h.2.symm, h.1.symm⟩⟩
        · have hne : ∀ a ∈ as, a.1 ≠ done := by
            rintro a ha rfl
            rcases e4 a ha with ⟨h1, h2⟩ | ⟨c, hc⟩
            · have h3 := (done_only hs).1 _ (by simpa using h1)
              refine htag ?_
              rw [← List.take_append_drop 2 tag, h2, h3, List.append_nil]
            · exact (done_only hs).2 c hc
          have hst1 : isDone done st1 = false := by rw [e3]; exact isDone_ne hst hne
          have hrec : ∃ args', args' = (if b then rest.tail else rest) ∧ loop (registry opts) done args' st1 = some (st', left) := by
            refine ⟨_, rfl, ?_⟩
            cases b <;> simpa [hst1] using h
          obtain ⟨args', ea, hrec⟩ := hrec
          have hlen : args'.length ≤ n := by
            rw [ea]
            simp only [List.length_cons] at hn
            split <;> (try simp only [List.length_tail]) <;> omega
          obtain ⟨its, bs, m, hb, hcase⟩ := ih args' hlen st1 hst1 hrec
          refine ⟨it :: its, as ++ bs, .cons _ _ _ _ e1 m, ?_, ?_⟩
          · intro a ha
            rw [List.mem_append] at ha
            exact ha.elim (hne a) (hb a)
          · rw [e2, ← ea]
            rcases hcase with ⟨h1, h2, h3⟩ | ⟨rest', h1, h2, h3⟩
            · exact Or.inl ⟨by rw [h1]; simp [words], h2, by rw [h3, e3, applySets_append]⟩
            · refine Or.inr ⟨rest', by rw [h1]; simp [words], h2, ?_⟩
              rw [h3, e3, List.append_assoc, applySets_append as]

end Verif.CommandLine
