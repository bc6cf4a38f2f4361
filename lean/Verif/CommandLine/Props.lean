import Verif.CommandLine.Lemmas

/-! # Properties of the command line (C27) -/
namespace Verif.CommandLine

private theorem go_iff (opts : List Opt) (done help : Nat) (prog : Str) (args : List Str) (st : State) (left : List Str) :
    go opts done help (prog :: args) = some (st, left) ↔
      loop (registry opts) done args (initial opts) = some (st, left) ∧
      (∀ i o, opts[i]? = some o → o.required = true → (st i).2 = true) ∧ (st help).1 ≠ .bool true := by
  rw [go]
  cases hl : loop (registry opts) done args (initial opts) with
  | none => simp
  | some r =>
    obtain ⟨s, l⟩ := r
    simp only [Option.bind_eq_bind, Option.bind_some]
    have hkill : (List.range opts.length).any (missing (registry opts) s) = true ↔
        ¬ ∀ i o, opts[i]? = some o → o.required = true → (s i).2 = true := by
      rw [List.any_eq_true]
      constructor
      · rintro ⟨i, -, h⟩ hall
        rw [missing, registry_list] at h
        cases ho : opts[i]? with
        | none => simp [ho] at h
        | some o =>
          simp only [ho, Bool.and_eq_true, Bool.not_eq_true'] at h
          rw [hall i o ho h.1] at h
          simp at h
      · intro h
        simp only [Classical.not_forall] at h
        obtain ⟨i, o, ho, hr, hu⟩ := h
        refine ⟨i, ?_, by simp [missing, registry_list, ho, hr, hu]⟩
        rw [List.mem_range]
        exact (List.getElem?_eq_some_iff.1 ho).1
    constructor
    · intro h
      split at h
      · simp at h
      · rename_i hc
        simp only [Option.some.injEq, Prod.mk.injEq] at h
        obtain ⟨rfl, rfl⟩ := h
        rw [hkill, not_or, Classical.not_not] at hc
        exact ⟨rfl, hc.2, hc.1⟩
    · rintro ⟨h1, h2, h3⟩
      simp only [Option.some.injEq, Prod.mk.injEq] at h1
      obtain ⟨rfl, rfl⟩ := h1
      rw [if_neg]
      rw [hkill, not_or, Classical.not_not]
      exact ⟨h3, h2⟩

private theorem isDone_initial {opts : List Opt} {done help : Nat} (_ : Special opts done help) :
    isDone done (initial opts) = false := by simp [isDone, initial]

/-- C27: the command lines that are accepted, with their effect. A command line is accepted if and only if it
consists of items that have a meaning, possibly followed by `--` and arbitrary words, such that every required
option is set and help is not asked for. An option has the value of the last item that sets it, or its default.
The libraries get the words after `--` behind the name of the program. -/
theorem accepted_iff (opts : List Opt) (done help : Nat) (hs : Special opts done help) (prog : Str) (args : List Str)
    (st : State) (lib : List Str) :
    parseOptions opts done help (prog :: args) = some (st, lib) ↔
      ∃ its as, Means opts its as ∧ (∀ a ∈ as, a.1 ≠ done) ∧
        ((args = words its ∧ lib = [] ∧ st = result opts as) ∨
         (∃ rest, args = words its ++ ['-', '-'] :: rest ∧ lib = prog :: rest ∧
            st = result opts (as ++ [(done, .bool true)]))) ∧
        (∀ i o, opts[i]? = some o → o.required = true → (st i).2 = true) ∧ (st help).1 ≠ .bool true := by
  have hpo : parseOptions opts done help (prog :: args) = some (st, lib) ↔
      ∃ left, go opts done help (prog :: args) = some (st, left) ∧
        lib = (match left with | [] => [] | _ :: rest => prog :: rest) := by
    rw [parseOptions]
    cases go opts done help (prog :: args) with
    | none => simp
    | some r =>
      obtain ⟨s, l⟩ := r
      simp only [Option.bind_eq_bind, Option.bind_some, List.head?_cons, Option.some.injEq, Prod.mk.injEq]
      constructor
      · rintro ⟨rfl, rfl⟩; exact ⟨l, ⟨rfl, rfl⟩, rfl⟩
      · rintro ⟨left, ⟨rfl, rfl⟩, rfl⟩; exact ⟨rfl, rfl⟩
  rw [hpo]
  constructor
  · rintro ⟨left, hg, rfl⟩
    rw [go_iff] at hg
    obtain ⟨hl, h2, h3⟩ := hg
    obtain ⟨its, as, m, hd, hcase⟩ := loop_inv hs _ _ (Nat.le_refl _) _ _ _ (isDone_initial hs) hl
    refine ⟨its, as, m, hd, ?_, h2, h3⟩
    rcases hcase with ⟨e1, e2, e3⟩ | ⟨rest, e1, e2, e3⟩
    · exact Or.inl ⟨e1, by rw [e2], by rw [e3, result_eq]⟩
    · exact Or.inr ⟨rest, e1, by rw [e2], by rw [e3, result_eq]⟩
  · rintro ⟨its, as, m, hd, hcase, h2, h3⟩
    rcases hcase with ⟨rfl, rfl, rfl⟩ | ⟨rest, rfl, rfl, rfl⟩
    · refine ⟨[], ?_, rfl⟩
      rw [go_iff]
      refine ⟨?_, h2, h3⟩
      have := loop_words m hd [] _ (isDone_initial hs)
      rw [List.append_nil] at this
      rw [this, loop, result_eq]
    · refine ⟨['-', '-'] :: rest, ?_, rfl⟩
      rw [go_iff]
      refine ⟨?_, h2, h3⟩
      rw [loop_words m hd _ _ (isDone_initial hs), loop]
      have hset : Sets opts (longOpt opts []) (done, .bool true) := by
        obtain ⟨o, h1, h2, -⟩ := hs.flag
        exact ⟨o, hs.ends, h1, by simp [h2], rfl⟩
      rw [token_long hset]
      have hdn : isDone done (applySets [(done, .bool true)] (applySets as (initial opts))) = true := by
        simp [isDone, applySets]
      simp only [hdn, if_true, result_eq, applySets_append]

/-- C27: a word that cannot start an item makes the program abort: it is too short, does not start with a dash,
has an unknown long tag, an unknown letter, or misses its argument. -/
theorem unknown_rejected (opts : List Opt) (done help : Nat) (hs : Special opts done help) (prog : Str) (its : List Item)
    (as : List (Nat × Val)) (hm : Means opts its as) (hd : ∀ a ∈ as, a.1 ≠ done) (word : Str) (rest : List Str)
    (hw : word.length < 2 ∨ word.head? ≠ some '-' ∨
      (∃ name, word = '-' :: '-' :: name ∧ longOpt opts name = none) ∨
      (∃ name i o conv, word = '-' :: '-' :: name ∧ longOpt opts name = some i ∧ opts[i]? = some o ∧ o.kind = .arg conv ∧
        (rest = [] ∨ ∃ v, rest.head? = some v ∧ conv v = none)) ∨
      (∃ c, word[1]? ≠ some '-' ∧ c ∈ word.tail ∧ shortOpt opts c = none)) :
    parseOptions opts done help (prog :: (words its ++ word :: rest)) = none := by
  have htok : ∀ st, token (registry opts) word rest st = none := by
    intro st
    rcases hw with h | h | ⟨name, rfl, h⟩ | ⟨name, i, o, conv, rfl, h1, h2, h3, h4⟩ | ⟨c, h1, h2, h3⟩
    · rw [token, if_pos (by omega)]
    · rw [token, if_pos (by rintro ⟨-, h'⟩; exact h h')]
    · simp [token, lmapping_eq, h]
    · rcases h4 with rfl | ⟨v, hv, hc⟩
      · simp [token, lmapping_eq, h1, registry_list, h2, h3, Kind.hasArgument]
      · obtain ⟨r, rfl⟩ : ∃ r, rest = v :: r := by cases rest <;> simp_all
        simp [token, lmapping_eq, h1, registry_list, h2, h3, Kind.hasArgument, parse, hc]
    · cases ht : token (registry opts) word rest st with
      | none => rfl
      | some r =>
        exfalso
        rw [token] at ht
        split at ht
        · simp at ht
        · rw [List.drop_one] at ht
          obtain ⟨st', b⟩ := r
          have hz : ∀ (flags : Str) (bs : List (Nat × Val)), flags.length = bs.length →
              (∀ p ∈ flags.zip bs, Sets opts (shortOpt opts p.1) p.2) → c ∉ flags := by
            intro flags bs hl hz hc
            obtain ⟨n, hn, rfl⟩ := List.getElem_of_mem hc
            have hm : (flags[n], bs[n]'(by omega)) ∈ flags.zip bs := by
              rw [List.mem_iff_getElem]
              exact ⟨n, by simp; omega, by simp⟩
            obtain ⟨o, e, -⟩ := hz _ hm
            simp [h3] at e
          rcases letters_inv _ _ _ _ _ ht with ⟨-, bs, e1, e2, -⟩ | ⟨-, flags, c', v, r', bs, a, e1, -, e3, e4, ⟨o, cv, e5, -⟩, -⟩
          · exact hz _ _ e1 e2 h2
          · rw [e1, List.mem_append] at h2
            rcases h2 with h2 | h2
            · exact hz _ _ e3 e4 h2
            · simp only [List.mem_singleton] at h2
              subst h2
              simp [h3] at e5
  have hloop : loop (registry opts) done (words its ++ word :: rest) (initial opts) = none := by
    rw [loop_words hm hd _ _ (isDone_initial hs), loop, htok]
  simp [parseOptions, go, hloop]

private theorem Means.perm {opts : List Opt} {its its' : List Item} (hp : its.Perm its') :
    ∀ {as}, Means opts its as → ∃ as', Means opts its' as' ∧ as.Perm as' := by
  induction hp with
  | nil => intro as h; exact ⟨as, h, .refl _⟩
  | cons x _ ih =>
    intro as h
    cases h with
    | cons _ _ a as h1 h2 =>
      obtain ⟨as', h3, h4⟩ := ih h2
      exact ⟨a ++ as', .cons _ _ _ _ h1 h3, h4.append_left _⟩
  | swap x y l =>
    intro as h
    cases h with
    | cons _ _ a as h1 h2 =>
      cases h2 with
      | cons _ _ b bs h3 h4 =>
        refine ⟨b ++ (a ++ bs), .cons _ _ _ _ h3 (.cons _ _ _ _ h1 h4), ?_⟩
        rw [← List.append_assoc, ← List.append_assoc]
        exact List.perm_append_comm.append_right _
  | trans _ _ ih1 ih2 =>
    intro as h
    obtain ⟨as', h1, h2⟩ := ih1 h
    obtain ⟨as'', h3, h4⟩ := ih2 h1
    exact ⟨as'', h3, h2.trans h4⟩

private theorem result_perm {opts : List Opt} {as as' : List (Nat × Val)} (hp : as.Perm as') (hn : (as.map Prod.fst).Nodup) :
    result opts as = result opts as' := by
  funext i
  have hf := hp.filter fun a => decide (a.1 = i)
  have hlen : (as.filter fun a => decide (a.1 = i)).length ≤ 1 := by
    clear hf hp
    induction as with
    | nil => simp
    | cons a as ih =>
      rw [List.map_cons, List.nodup_cons] at hn
      rw [List.filter_cons]
      split
      · rename_i ha
        have : as.filter (fun a => decide (a.1 = i)) = [] := by
          rw [List.filter_eq_nil_iff]
          intro b hb h
          refine hn.1 (List.mem_map.2 ⟨b, hb, ?_⟩)
          have h1 : b.1 = i := by simpa using h
          have h2 : a.1 = i := by simpa using ha
          omega
        simp [this]
      · exact ih hn.2
  have : (as.filter fun a => decide (a.1 = i)) = as'.filter fun a => decide (a.1 = i) := by
    generalize as.filter _ = l at hf hlen
    generalize as'.filter _ = l' at hf
    match l, hlen with
    | [], _ => exact hf.symm.eq_nil.symm
    | [x], _ => exact (List.perm_singleton.1 hf.symm).symm
  rw [result, result, this]

/-- C27: the order of the items does not matter if no option is set twice. -/
theorem order_independent (opts : List Opt) (done help : Nat) (hs : Special opts done help) (prog : Str)
    (its its' : List Item) (hp : its.Perm its') (as : List (Nat × Val)) (hm : Means opts its as) (hd : ∀ a ∈ as, a.1 ≠ done)
    (hn : (as.map Prod.fst).Nodup) (rest : List Str) :
    parseOptions opts done help (prog :: words its) = parseOptions opts done help (prog :: words its') ∧
    parseOptions opts done help (prog :: (words its ++ ['-', '-'] :: rest)) =
      parseOptions opts done help (prog :: (words its' ++ ['-', '-'] :: rest)) := by
  obtain ⟨as', hm', hp'⟩ := Means.perm hp hm
  have hd' : ∀ a ∈ as', a.1 ≠ done := fun a ha => hd a (hp'.mem_iff.2 ha)
  have hr : ∀ more, loop (registry opts) done (words its ++ more) (initial opts) =
      loop (registry opts) done (words its' ++ more) (initial opts) := by
    intro more
    rw [loop_words hm hd _ _ (isDone_initial hs), loop_words hm' hd' _ _ (isDone_initial hs), ← result_eq, ← result_eq,
      result_perm hp' hn]
  have h0 := hr []
  rw [List.append_nil, List.append_nil] at h0
  exact ⟨by simp only [parseOptions, go, h0, List.head?_cons], by simp only [parseOptions, go, hr, List.head?_cons]⟩

/-! ## Integers -/

private theorem digit_digitChar {d : Nat} (h : d < 10) : digit (Nat.digitChar d) = d := by
  have : d = 0 ∨ d = 1 ∨ d = 2 ∨ d = 3 ∨ d = 4 ∨ d = 5 ∨ d = 6 ∨ d = 7 ∨ d = 8 ∨ d = 9 := by omega
  rcases this with h | h | h | h | h | h | h | h | h | h <;> subst h <;> decide

private theorem foldl_toDigits (n : Nat) : (Nat.toDigits 10 n).foldl (fun a c => 10 * a + digit c) 0 = n := by
  induction n using Nat.strongRecOn with
  | ind n ih =>
    rw [Nat.toDigits_eq_if (by decide)]
    split
    · rename_i h
      simp [digit_digitChar h]
    · rename_i h
      rw [List.foldl_append, ih (n / 10) (by omega)]
      simp only [List.foldl_cons, List.foldl_nil, digit_digitChar (Nat.mod_lt n (by decide : 10 > 0))]
      omega

private theorem takeWhile_all {p : Char → Bool} {l : Str} (h : ∀ c ∈ l, p c = true) : l.takeWhile p = l ∧ l.dropWhile p = [] := by
  induction l with
  | nil => simp
  | cons c l ih =>
    obtain ⟨h1, h2⟩ := ih fun c hc => h c (by simp [hc])
    simp [h c (by simp), h1, h2]

private theorem dropWhile_space {p : Char → Bool} {ws l : Str} (h : ∀ c ∈ ws, p c = true) (hl : ∀ c, l.head? = some c → p c = false) :
    (ws ++ l).dropWhile p = l := by
  induction ws with
  | nil =>
    cases l with
    | nil => rfl
    | cons c l => simp [hl c rfl]
  | cons c ws ih => simp [h c (by simp), ih fun c hc => h c (by simp [hc])]

private theorem digit_not_space (c : Char) (h : c.isDigit = true) : isSpace c = false ∧ c ≠ '-' ∧ c ≠ '+' := by
  refine ⟨?_, ?_, ?_⟩
  · rw [Bool.eq_false_iff]
    intro hs
    simp only [isSpace, Bool.or_eq_true, decide_eq_true_eq] at hs
    rcases hs with ((((hs | hs) | hs) | hs) | hs) | hs <;> subst hs <;> simp [Char.isDigit] at h
  · rintro rfl; simp [Char.isDigit] at h
  · rintro rfl; simp [Char.isDigit] at h

/-- How a number can be written: white space, a sign, digits. -/
def numeral (ws : Str) (sign : Option Bool) (digits : Str) : Str :=
  ws ++ ((match sign with | none => [] | some true => ['-'] | some false => ['+']) ++ digits)

private theorem extract_numeral (lo hi : Int) (ws : Str) (sign : Option Bool) (digits : Str) (hw : ∀ c ∈ ws, isSpace c = true)
    (hd : ∀ c ∈ digits, c.isDigit = true) :
    extractInt lo hi (numeral ws sign digits) =
      (let n : Int := ((digits.foldl (fun a c => 10 * a + digit c) 0 : Nat) : Int)
       if lo = 0 then
         if n > hi then hi else if sign = some true then (if n = 0 then 0 else hi + 1 - n) else n
       else if sign = some true then max lo (-n) else min hi n, []) := by
  have htail : ∀ c l, digits = c :: l → c ≠ '-' ∧ c ≠ '+' ∧ isSpace c = false := by
    intro c l h
    have := digit_not_space c (hd c (by simp [h]))
    exact ⟨this.2.1, this.2.2, this.1⟩
  have hdrop : (numeral ws sign digits).dropWhile isSpace =
      (match sign with | none => [] | some true => ['-'] | some false => ['+']) ++ digits := by
    refine dropWhile_space hw ?_
    intro c hc
    match sign with
    | some true => simp at hc; subst hc; decide
    | some false => simp at hc; subst hc; decide
    | none =>
      cases digits with
      | nil => simp at hc
      | cons a l => simp at hc; subst hc; exact (htail _ _ rfl).2.2
  obtain ⟨t1, t2⟩ := takeWhile_all hd
  simp only [extractInt, hdrop]
  match sign with
  | some true => simp [t1, t2]
  | some false => simp [t1, t2]
  | none =>
    cases hdig : digits with
    | nil => simp
    | cons a l =>
      have ha := htail a l hdig
      rw [hdig] at t1 t2
      simp only [List.nil_append, List.head?_cons, Option.some.injEq, ha.1, ha.2.1, or_self, if_false, t1, t2]
      simp [ha.1]

/-- C27: an integer that the type can hold, written in decimal, gets its value. -/
theorem int_value (lo hi z : Int) (ws : Str) (hw : ∀ c ∈ ws, isSpace c = true) (h1 : lo ≤ z) (h2 : z ≤ hi) :
    (0 ≤ z → parseInt lo hi (ws ++ Nat.toDigits 10 z.toNat) = some (.int z) ∧
      parseInt lo hi (ws ++ '+' :: Nat.toDigits 10 z.toNat) = some (.int z)) ∧
    (z < 0 → parseInt lo hi (ws ++ '-' :: Nat.toDigits 10 (-z).toNat) = some (.int z)) := by
  have hd : ∀ n, ∀ c ∈ Nat.toDigits 10 n, c.isDigit = true := fun n c hc => Nat.isDigit_of_mem_toDigits (by decide) (by decide) hc
  refine ⟨fun hz => ⟨?_, ?_⟩, fun hz => ?_⟩
  · have := extract_numeral lo hi ws none _ hw (hd z.toNat)
    simp only [numeral, List.nil_append] at this
    simp only [parseInt, this, foldl_toDigits, if_true, Option.some.injEq, Val.int.injEq]
    simp only [reduceCtorEq, if_false]
    split
    · split <;> omega
    · omega
  · have := extract_numeral lo hi ws (some false) _ hw (hd z.toNat)
    simp only [numeral, List.cons_append, List.nil_append] at this
    simp only [parseInt, this, foldl_toDigits, if_true, Option.some.injEq, Val.int.injEq]
    simp only [Bool.false_eq_true, if_false]
    split
    · split <;> omega
    · omega
  · have := extract_numeral lo hi ws (some true) _ hw (hd (-z).toNat)
    simp only [numeral, List.cons_append, List.nil_append] at this
    simp only [parseInt, this, foldl_toDigits, if_true, Option.some.injEq, Val.int.injEq]
    split <;> omega

private theorem drop_take (p : Char → Bool) (l : Str) : l = l.takeWhile p ++ l.dropWhile p := (List.takeWhile_append_dropWhile).symm

private theorem mem_takeWhile {p : Char → Bool} {l : Str} : ∀ c ∈ l.takeWhile p, p c = true := by
  induction l with
  | nil => simp
  | cons a l ih =>
    intro c hc
    rw [List.takeWhile_cons] at hc
    split at hc
    · rename_i ha
      rcases List.mem_cons.1 hc with rfl | hc
      · exact ha
      · exact ih c hc
    · simp at hc

/-- C27: the texts that are accepted as integers: white space, a sign, digits, each of which may be missing. -/
theorem int_accepted_iff (lo hi : Int) (s : Str) : (parseInt lo hi s).isSome ↔
    ∃ ws sign digits, s = numeral ws sign digits ∧ (∀ c ∈ ws, isSpace c = true) ∧ (∀ c ∈ digits, c.isDigit = true) := by
  constructor
  · intro h
    simp only [parseInt] at h
    split at h
    · rename_i h0
      simp only [extractInt] at h0
      refine ⟨s.takeWhile isSpace, if (s.dropWhile isSpace).head? = some '-' then some true else
        if (s.dropWhile isSpace).head? = some '+' then some false else none,
        (if (s.dropWhile isSpace).head? = some '-' ∨ (s.dropWhile isSpace).head? = some '+' then (s.dropWhile isSpace).tail
          else s.dropWhile isSpace).takeWhile Char.isDigit, ?_, mem_takeWhile, mem_takeWhile⟩
      have h1 := drop_take Char.isDigit (if (s.dropWhile isSpace).head? = some '-' ∨ (s.dropWhile isSpace).head? = some '+' then (s.dropWhile isSpace).tail
          else s.dropWhile isSpace)
      rw [h0, List.append_nil] at h1
      rw [← h1, numeral.eq_def]
      conv => lhs; rw [drop_take isSpace s]
      congr 1
      generalize s.dropWhile isSpace = t
      cases t with
      | nil => simp
      | cons a t =>
        by_cases ha : a = '-'
        · simp [ha]
        · by_cases hb : a = '+'
          · simp [hb]
          · simp [ha, hb]
    · simp at h
  · rintro ⟨ws, sign, digits, rfl, hw, hd⟩
    rw [parseInt, extract_numeral lo hi ws sign digits hw hd]
    simp

/-- Finding: a text without digits is accepted as 0, since the error flag of the stream is not looked at. -/
theorem int_empty_accepted (lo hi : Int) (hlo : lo ≤ 0) (hhi : 0 ≤ hi) :
    parseInt lo hi [] = some (.int 0) ∧ parseInt lo hi ['-'] = some (.int 0) := by
  have h1 := extract_numeral lo hi [] none [] (by simp) (by simp)
  have h2 := extract_numeral lo hi [] (some true) [] (by simp) (by simp)
  simp only [numeral, List.append_nil, List.nil_append, List.foldl_nil] at h1 h2
  simp only [parseInt, h1, h2, if_true, Option.some.injEq, Val.int.injEq]
  constructor <;> split <;> simp <;> omega

/-- Finding: a number that the type cannot hold is accepted as the largest value of the type. -/
theorem int_overflow_accepted (lo hi : Int) (n : Nat) (h : hi < n) :
    parseInt lo hi (Nat.toDigits 10 n) = some (.int hi) := by
  have h1 := extract_numeral lo hi [] none (Nat.toDigits 10 n) (by simp)
    fun c hc => Nat.isDigit_of_mem_toDigits (by decide) (by decide) hc
  simp only [numeral, List.nil_append] at h1
  simp only [parseInt, h1, foldl_toDigits, if_true, Option.some.injEq, Val.int.injEq, reduceCtorEq, if_false]
  split <;> omega

/-- Finding: a negative number is accepted for an unsigned type, as a large positive number. -/
theorem unsigned_negative_accepted (hi : Int) (n : Nat) (h0 : 0 < n) (h : n ≤ hi) :
    parseInt 0 hi ('-' :: Nat.toDigits 10 n) = some (.int (hi + 1 - n)) := by
  have h1 := extract_numeral 0 hi [] (some true) (Nat.toDigits 10 n) (by simp)
    fun c hc => Nat.isDigit_of_mem_toDigits (by decide) (by decide) hc
  simp only [numeral, List.cons_append, List.nil_append] at h1
  simp only [parseInt, h1, foldl_toDigits, if_true, Option.some.injEq, Val.int.injEq]
  rw [if_neg (by omega), if_neg (by omega)]

/-! ## Shared tags -/

/-- Finding: an option whose long tag and short tag have been taken by options registered before it can not be
set, and if it is required no command line is accepted. -/
theorem shadowed_required_unusable (opts : List Opt) (done help : Nat) (hs : Special opts done help) (i : Nat) (o : Opt)
    (ho : opts[i]? = some o) (hr : o.required = true) (hl : longOpt opts o.long ≠ some i)
    (ht : o.tag = '\x00' ∨ shortOpt opts o.tag ≠ some i) (prog : Str) (args : List Str) :
    parseOptions opts done help (prog :: args) = none := by
  have hlong : ∀ name, longOpt opts name ≠ some i := by
    intro name h
    obtain ⟨a, ha, hp⟩ := findIdx?_spec h
    rw [ho] at ha; cases ha
    simp at hp
    exact hl (hp ▸ h)
  have hshort : ∀ c, shortOpt opts c ≠ some i := by
    intro c h
    have h' := h
    rw [shortOpt] at h'
    split at h'
    · simp at h'
    · rename_i hc
      obtain ⟨a, ha, hp⟩ := findIdx?_spec h'
      rw [ho] at ha; cases ha
      simp at hp
      rcases ht with ht | ht
      · exact hc (hp ▸ ht)
      · exact ht (hp ▸ h)
  cases hp : parseOptions opts done help (prog :: args) with
  | none => rfl
  | some r =>
    exfalso
    obtain ⟨st, lib⟩ := r
    obtain ⟨its, as, m, hd, hcase, h2, h3⟩ := (accepted_iff opts done help hs prog args st lib).1 hp
    have hz : ∀ (flags : Str) (bs : List (Nat × Val)), flags.length = bs.length →
        (∀ p ∈ flags.zip bs, Sets opts (shortOpt opts p.1) p.2) → ∀ b ∈ bs, b.1 ≠ i := by
      intro flags bs hl hz b hb
      obtain ⟨n, hn, rfl⟩ := List.getElem_of_mem hb
      have hm : (flags[n]'(by omega), bs[n]) ∈ flags.zip bs := by
        rw [List.mem_iff_getElem]
        exact ⟨n, by simp; omega, by simp⟩
      obtain ⟨o, e, -⟩ := hz _ hm
      intro hh
      exact hshort _ (hh ▸ e)
    have hno : ∀ a ∈ as, a.1 ≠ i := by
      clear hcase h2 h3 hp hd
      induction m with
      | nil => simp
      | cons it its a as h1 _ ih =>
        intro x hx
        rw [List.mem_append] at hx
        rcases hx with hx | hx
        · cases h1 with
          | long name a h =>
            simp at hx; subst hx
            obtain ⟨o, e, -⟩ := h
            intro hh; exact hlong _ (hh ▸ e)
          | longArg name v a h =>
            simp at hx; subst hx
            obtain ⟨o, cv, e, -⟩ := h
            intro hh; exact hlong _ (hh ▸ e)
          | short flags as e1 e2 e3 e4 => exact hz _ _ e3 e4 x hx
          | shortArg flags c v as a e1 e2 e3 e4 =>
            rw [List.mem_append] at hx
            rcases hx with hx | hx
            · exact hz _ _ e2 e3 x hx
            · simp at hx; subst hx
              obtain ⟨o, cv, e, -⟩ := e4
              intro hh; exact hshort _ (hh ▸ e)
        · exact ih x hx
    have hdi : done ≠ i := by
      rintro rfl
      exact hlong _ hs.ends
    have hnil : ∀ bs : List (Nat × Val), (∀ b ∈ bs, b.1 ≠ i) → (result opts bs i).2 = false := by
      intro bs hb
      have : (bs.filter fun a => decide (a.1 = i)) = [] := by
        rw [List.filter_eq_nil_iff]
        intro b hbm; simpa using hb b hbm
      rw [result, this]; rfl
    have hreq := h2 i o ho hr
    rcases hcase with ⟨-, -, rfl⟩ | ⟨rest, -, -, rfl⟩
    · rw [hnil as hno] at hreq; simp at hreq
    · rw [hnil] at hreq
      · simp at hreq
      · intro b hb
        rw [List.mem_append] at hb
        rcases hb with hb | hb
        · exact hno b hb
        · simp at hb; subst hb; exact hdi

/-! ## An example -/

/-- A program with a required name, a number and a flag. -/
def exOpts : List Opt :=
  [⟨'\x00', [], false, .flag, .bool false⟩, ⟨'?', ['h', 'e', 'l', 'p'], false, .flag, .bool false⟩,
   ⟨'n', ['n', 'a', 'm', 'e'], true, .arg parseStr, .str []⟩, ⟨'p', ['o', 'r', 'd', 'e', 'r'], false, .arg (parseInt (-128) 127), .int 1⟩,
   ⟨'v', ['v'], false, .flag, .bool false⟩]

example : Special exOpts 0 1 := ⟨rfl, ⟨_, rfl, rfl, rfl, rfl⟩, ⟨_, rfl, rfl, rfl⟩⟩

/-- `--name a -vp 23` -/
example : Means exOpts [.longArg ['n', 'a', 'm', 'e'] ['a'], .shortArg ['v'] 'p' ['2', '3']]
    [(2, .str ['a']), (4, .bool true), (3, .int 23)] :=
  .cons _ _ [_] _ (.longArg _ _ _ ⟨_, _, rfl, rfl, rfl, rfl⟩)
    (.cons _ _ [_, _] [] (.shortArg _ _ _ [_] _ (by decide) rfl
      (by intro p hp; simp at hp; subst hp; exact ⟨_, rfl, rfl, trivial, rfl⟩) ⟨_, _, rfl, rfl, rfl, by decide⟩) .nil)

example : numeral [' '] (some true) ['4', '2'] = [' ', '-', '4', '2'] := rfl

end Verif.CommandLine
