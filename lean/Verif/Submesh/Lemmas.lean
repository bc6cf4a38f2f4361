import Verif.Submesh.Spec

/-! # Buffers and sorted searches -/
set_option linter.all false
namespace Verif.Submesh

/-! ## Prefix sums and blocks -/

theorem partialSum_get (l : List Nat) : ∀ (s i : Nat), i < l.length → (partialSum s l)[i]? = some (s + (l.take (i + 1)).sum) := by
  induction l with
  | nil => intro s i h; simp at h
  | cons a l ih =>
    intro s i h
    cases i with
    | zero => simp [partialSum]
    | succ i =>
      simp only [partialSum, List.getElem?_cons_succ]
      rw [ih (s + a) i (by simpa using h)]
      simp [List.take_succ_cons, Nat.add_assoc]

theorem cum_get (counts : List Nat) (i : Nat) (h : i ≤ counts.length) :
    (partialSum 0 (0 :: counts))[i]? = some ((counts.take i).sum) := by
  rw [partialSum_get _ _ _ (by simp; omega)]
  simp [List.take_succ_cons]

theorem place_mid (pre rest block : List Nat) (h : block.length ≤ rest.length) :
    place (pre ++ rest) pre.length block = (pre ++ block) ++ rest.drop block.length := by
  simp [place, List.take_append, List.drop_append]

theorem partialSum_cons (s : Nat) (l : List Nat) : partialSum s (0 :: l) = s :: partialSum s l := by simp [partialSum]

theorem placeAll_from (blocks : List (List Nat)) : ∀ (pre rest : List Nat), (blocks.map List.length).sum = rest.length →
    placeAll (pre ++ rest) (partialSum pre.length (0 :: blocks.map List.length)) blocks = pre ++ blocks.flatten := by
  induction blocks with
  | nil =>
    intro pre rest h
    have : rest = [] := List.length_eq_zero_iff.1 (by simpa using h.symm)
    subst this
    simp [placeAll]
  | cons b blocks ih =>
    intro pre rest h
    simp only [List.map_cons, List.sum_cons] at h
    unfold placeAll
    rw [partialSum_cons, List.zip_cons_cons, List.foldl_cons]
    simp only
    rw [place_mid _ _ _ (by omega)]
    have := ih (pre ++ b) (rest.drop b.length) (by simp; omega)
    unfold placeAll at this
    simp only [List.map_cons, partialSum]
    rw [List.length_append, partialSum_cons] at this
    rw [this]
    simp

theorem placeAll_eq (blocks : List (List Nat)) (total : Nat) (h : (blocks.map List.length).sum = total) :
    placeAll (List.replicate total 0) (partialSum 0 (0 :: blocks.map List.length)) blocks = blocks.flatten := by
  have := placeAll_from blocks [] (List.replicate total 0) (by simpa using h)
  simpa using this

theorem drop_flatten (blocks : List (List Nat)) (i : Nat) (b : List Nat) (h : blocks[i]? = some b) :
    blocks.flatten.drop (((blocks.map List.length).take i).sum) = b ++ (blocks.drop (i + 1)).flatten := by
  induction blocks generalizing i with
  | nil => simp at h
  | cons a l ih =>
    cases i with
    | zero => simp at h; simp [h]
    | succ i =>
      simp only [List.getElem?_cons_succ] at h
      simp only [List.map_cons, List.take_succ_cons, List.sum_cons, List.flatten_cons, List.drop_succ_cons]
      rw [List.drop_append, List.drop_eq_nil_of_le (by omega), Nat.add_sub_cancel_left, ih i h]
      simp

/-! ## Segments -/

theorem segment_length (w : Rank) : (segment w).length = w.elems.length + 1 := by simp [segment]

theorem segment_mem (w : Rank) (x : Nat) : x ∈ segment w ↔ x ∈ w.elems ∨ x = sentinel := by simp [segment]

theorem segment_sorted (w : Rank) : (segment w).Pairwise (· ≤ ·) := List.pairwise_insertionSort _ _

theorem elementIDs_eq (ws : List Rank) : elementIDs ws = some ((ws.map segment).flatten) := by
  have h1 : numberOfElements ws = 0 :: (ws.map segment).map List.length := by
    simp [numberOfElements, List.map_map, Function.comp_def, segment_length]
  unfold elementIDs
  rw [h1, cum_get _ _ (by simp)]
  simp only [Option.bind_eq_bind, Option.bind_some]
  rw [placeAll_eq]
  rw [List.take_of_length_le (by simp)]

theorem advance_eq (id : Nat) (l : List Nat) (h : ∃ a ∈ l, id ≤ a) : advance id l = some (l.dropWhile fun a => decide (a < id)) ∧
    l.dropWhile (fun a => decide (a < id)) ≠ [] := by
  induction l with
  | nil => simp at h
  | cons a l ih =>
    unfold advance
    by_cases hlt : a < id
    · rw [if_pos hlt, List.dropWhile_cons_of_pos (by simpa using hlt)]
      apply ih
      obtain ⟨b, hb, hle⟩ := h
      cases hb with
      | head => omega
      | tail _ hb => exact ⟨b, hb, hle⟩
    · rw [if_neg hlt, List.dropWhile_cons_of_neg (by simpa using hlt)]
      exact ⟨rfl, by simp⟩

theorem dropWhile_twice (x y : Nat) (h : x ≤ y) (l : List Nat) :
    (l.dropWhile fun a => decide (a < x)).dropWhile (fun a => decide (a < y)) = l.dropWhile fun a => decide (a < y) := by
  induction l with
  | nil => rfl
  | cons a l ih =>
    by_cases ha : a < x
    · rw [List.dropWhile_cons_of_pos (by simpa using ha), List.dropWhile_cons_of_pos (by simp; omega), ih]
    · rw [List.dropWhile_cons_of_neg (by simpa using ha)]

theorem head_dropWhile (y : Nat) (seg rest : List Nat) (hs : seg.Pairwise (· ≤ ·)) (hb : ∃ a ∈ seg, y ≤ a) :
    ((seg ++ rest).dropWhile fun a => decide (a < y)).head? = some y ↔ y ∈ seg := by
  induction seg with
  | nil => simp at hb
  | cons a l ih =>
    rw [List.pairwise_cons] at hs
    by_cases ha : a < y
    · rw [List.cons_append, List.dropWhile_cons_of_pos (by simpa using ha)]
      rw [ih hs.2 (by obtain ⟨b, hb, hle⟩ := hb; cases hb with | head => omega | tail _ hb => exact ⟨b, hb, hle⟩)]
      simp only [List.mem_cons]
      constructor
      · exact Or.inr
      · rintro (h | h)
        · omega
        · exact h
    · rw [List.cons_append, List.dropWhile_cons_of_neg (by simpa using ha)]
      simp only [List.head?_cons, Option.some.injEq, List.mem_cons]
      constructor
      · intro h; exact Or.inl h.symm
      · rintro (h | h)
        · exact h.symm
        · have := hs.1 y h; omega

/-! ## The requests of one process -/

theorem lowerBound_spec (l : List Nat) (x : Nat) (hs : l.Pairwise (· < ·)) : ∀ (len first : Nat), first + len ≤ l.length →
    (∀ i a : Nat, i < first → l[i]? = some a → a < x) → (∀ i a : Nat, first + len ≤ i → l[i]? = some a → x ≤ a) →
    ∃ i, lowerBound l x first len = some i ∧ (∀ j a : Nat, j < i → l[j]? = some a → a < x) ∧ ∀ j a : Nat, i ≤ j → l[j]? = some a → x ≤ a := by
  intro len
  induction len using Nat.strongRecOn with
  | ind len ih =>
    intro first hle hlow hhigh
    rw [lowerBound]
    by_cases h0 : len = 0
    · subst h0
      exact ⟨first, by simp, hlow, by simpa using hhigh⟩
    · rw [if_neg h0]
      have hlt : first + len / 2 < l.length := by omega
      simp only [List.getElem?_eq_getElem hlt, Option.bind_eq_bind, Option.bind_some]
      have mono : ∀ i j a b : Nat, i < j → l[i]? = some a → l[j]? = some b → a < b := by
        intro i j a b hij ha hb
        obtain ⟨h1, rfl⟩ := List.getElem?_eq_some_iff.1 ha
        obtain ⟨h2, rfl⟩ := List.getElem?_eq_some_iff.1 hb
        exact List.pairwise_iff_getElem.1 hs i j h1 h2 hij
      by_cases hx : l[first + len / 2] < x
      · rw [if_pos hx]
        apply ih (len - len / 2 - 1) (by omega)
        · omega
        · intro i a hi ha
          by_cases hi' : i = first + len / 2
          · subst hi'; rw [List.getElem?_eq_getElem hlt] at ha; cases ha; exact hx
          · exact Nat.lt_trans (mono i (first + len / 2) a _ (by omega) ha (List.getElem?_eq_getElem hlt)) hx
        · intro i a hi ha
          exact hhigh i a (by omega) ha
      · rw [if_neg hx]
        apply ih (len / 2) (by omega)
        · omega
        · exact hlow
        · intro i a hi ha
          by_cases hi' : i = first + len / 2
          · subst hi'; rw [List.getElem?_eq_getElem hlt] at ha; cases ha; omega
          · have := mono (first + len / 2) i _ a (by omega) (List.getElem?_eq_getElem hlt) ha
            omega

theorem binarySearch_spec (l : List Nat) (x : Nat) (hs : l.Pairwise (· < ·)) : binarySearch l x = some (decide (x ∈ l)) := by
  obtain ⟨i, h1, h2, h3⟩ := lowerBound_spec l x hs l.length 0 (by omega) (by intro i a hi; omega)
    (by intro i a hi ha; rw [List.getElem?_eq_none (by omega)] at ha; simp at ha)
  unfold binarySearch
  simp only [h1, Option.bind_eq_bind, Option.bind_some]
  cases ha : l[i]? with
  | none =>
    have : x ∉ l := by
      intro hm
      obtain ⟨j, hj⟩ := List.getElem?_of_mem hm
      have hji : j < i := by
        by_contra hc
        rw [List.getElem?_eq_none_iff] at ha
        rw [List.getElem?_eq_none (by omega)] at hj
        simp at hj
      have := h2 j x hji hj
      omega
    simp [this]
  | some a =>
    have hxa := h3 i a (Nat.le_refl _) ha
    by_cases hlt : x < a
    · have : x ∉ l := by
        intro hm
        obtain ⟨j, hj⟩ := List.getElem?_of_mem hm
        rcases Nat.lt_trichotomy j i with h | h | h
        · have := h2 j x h hj; omega
        · subst h; rw [ha] at hj; cases hj; omega
        · obtain ⟨g1, rfl⟩ := List.getElem?_eq_some_iff.1 ha
          obtain ⟨g2, rfl⟩ := List.getElem?_eq_some_iff.1 hj
          have := List.pairwise_iff_getElem.1 hs i j g1 g2 h
          omega
      simp [this, hlt]
    · have : x = a := by omega
      subst this
      simp [List.mem_of_getElem? ha]

theorem mergeLast_sorted (l : List Nat) (x : Nat) (hs : l.Pairwise (· < ·)) (hx : x ∉ l) :
    (mergeLast l x).Pairwise (· < ·) ∧ ∀ y, y ∈ mergeLast l x ↔ y = x ∨ y ∈ l := by
  induction l with
  | nil => simp [mergeLast]
  | cons a l ih =>
    rw [List.pairwise_cons] at hs
    have hxl : x ∉ l := fun h => hx (List.mem_cons_of_mem _ h)
    have hxa : x ≠ a := fun h => hx (by simp [h])
    obtain ⟨ih1, ih2⟩ := ih hs.2 hxl
    by_cases h : a ≤ x
    · have : mergeLast (a :: l) x = a :: mergeLast l x := by simp [mergeLast, h]
      rw [this]
      refine ⟨List.pairwise_cons.2 ⟨?_, ih1⟩, ?_⟩
      · intro b hb
        rcases (ih2 b).1 hb with hb | hb
        · omega
        · exact hs.1 b hb
      · intro y
        rw [List.mem_cons, ih2, List.mem_cons]
        tauto
    · have : mergeLast (a :: l) x = x :: a :: l := by simp [mergeLast, h]
      rw [this]
      refine ⟨List.pairwise_cons.2 ⟨?_, List.pairwise_cons.2 hs⟩, by simp⟩
      intro b hb
      rcases List.mem_cons.1 hb with hb | hb
      · omega
      · have := hs.1 b hb; omega

/-! ## The search -/

/-- Process `i` has element `x`. -/
def owns (ws : List Rank) (i x : Nat) : Bool := (ws[i]?).elim false fun w => decide (x ∈ w.elems)

/-- The state of the search after some requests. -/
structure Found (ws : List Rank) (rank : Nat) (w : Rank) (done : List Nat) (s : Search) : Prop where
  news : ∀ i, s.news i = if i ≠ rank then done.filter (owns ws i) else []
  pull : ∀ i, s.pull i = w.pull i ++ s.news i
  it : ∀ i wi, i ≠ rank → ws[i]? = some wi → ∃ rest, ∀ y, (∀ x ∈ done, x ≤ y) →
    (s.it i).dropWhile (fun a => decide (a < y)) = (segment wi ++ rest).dropWhile fun a => decide (a < y)

theorem dropWhile_ne_nil {p : Nat → Bool} {l : List Nat} (h : l.dropWhile p ≠ []) : ∃ a ∈ l, p a = false := by
  induction l with
  | nil => simp at h
  | cons a l ih =>
    by_cases ha : p a = true
    · rw [List.dropWhile_cons_of_pos ha] at h
      obtain ⟨b, hb, hp⟩ := ih h
      exact ⟨b, List.mem_cons_of_mem _ hb, hp⟩
    · exact ⟨a, by simp, by simpa using ha⟩

theorem searchOne_eq (rank id : Nat) (s : Search) (i : Nat) (hi : i ≠ rank) (h : ∃ a ∈ s.it i, id ≤ a) :
    ∃ s', searchOne rank id s i = some s' ∧ s'.it = Function.update s.it i ((s.it i).dropWhile fun a => decide (a < id)) ∧
      s'.news = Function.update s.news i (s.news i ++ if ((s.it i).dropWhile fun a => decide (a < id)).head? = some id then [id] else []) ∧
      s'.pull = Function.update s.pull i (s.pull i ++ if ((s.it i).dropWhile fun a => decide (a < id)).head? = some id then [id] else []) := by
  obtain ⟨h1, h2⟩ := advance_eq id (s.it i) h
  unfold searchOne
  rw [if_neg hi, h1]
  generalize (s.it i).dropWhile (fun a => decide (a < id)) = it at h2
  cases it with
  | nil => exact absurd rfl h2
  | cons a l =>
    simp only [Option.bind_eq_bind, Option.bind_some, List.head?_cons]
    by_cases ha : a = id
    · subst ha
      simp
    · rw [if_neg ha]
      refine ⟨_, rfl, rfl, ?_, ?_⟩
      · simp [ha]
      · simp [ha]

theorem searchAll_loop (rank id : Nat) : ∀ (l : List Nat) (s : Search), l.Nodup → (∀ i ∈ l, i ≠ rank → ∃ a ∈ s.it i, id ≤ a) →
    ∃ s', l.foldlM (searchOne rank id) s = some s' ∧
      (∀ i, s'.it i = if i ∈ l ∧ i ≠ rank then (s.it i).dropWhile (fun a => decide (a < id)) else s.it i) ∧
      (∀ i, s'.news i = s.news i ++ if i ∈ l ∧ i ≠ rank ∧ ((s.it i).dropWhile fun a => decide (a < id)).head? = some id then [id] else []) ∧
      (∀ i, s'.pull i = s.pull i ++ if i ∈ l ∧ i ≠ rank ∧ ((s.it i).dropWhile fun a => decide (a < id)).head? = some id then [id] else []) := by
  intro l
  induction l with
  | nil => intro s _ _; exact ⟨s, rfl, by simp, by simp, by simp⟩
  | cons k l ih =>
    intro s hn hit
    rw [List.nodup_cons] at hn
    by_cases hk : k = rank
    · have h1 : searchOne rank id s k = some s := by simp [searchOne, hk]
      obtain ⟨s', g1, g2, g3, g4⟩ := ih s hn.2 (fun i hi => hit i (List.mem_cons_of_mem _ hi))
      refine ⟨s', by simp [List.foldlM_cons, h1, g1], ?_, ?_, ?_⟩
      · intro i
        rw [g2 i]
        by_cases hi : i = rank
        · simp [hi]
        · have : i ≠ k := by rw [hk]; exact hi
          simp [hi, this]
      · intro i
        rw [g3 i]
        by_cases hi : i = rank
        · simp [hi]
        · have : i ≠ k := by rw [hk]; exact hi
          simp [hi, this]
      · intro i
        rw [g4 i]
        by_cases hi : i = rank
        · simp [hi]
        · have : i ≠ k := by rw [hk]; exact hi
          simp [hi, this]
    · obtain ⟨s1, f1, f2, f3, f4⟩ := searchOne_eq rank id s k hk (hit k (by simp) hk)
      have hother : ∀ i, i ≠ k → s1.it i = s.it i ∧ s1.news i = s.news i ∧ s1.pull i = s.pull i := by
        intro i hi
        rw [f2, f3, f4]
        simp [Function.update_of_ne hi]
      obtain ⟨s', g1, g2, g3, g4⟩ := ih s1 hn.2 (by
        intro i hi hne
        have : i ≠ k := fun h => hn.1 (h ▸ hi)
        rw [(hother i this).1]
        exact hit i (List.mem_cons_of_mem _ hi) hne)
      refine ⟨s', by simp [List.foldlM_cons, f1, g1], ?_, ?_, ?_⟩
      · intro i
        rw [g2 i]
        by_cases hi : i = k
        · subst hi
          simp [hn.1, hk, f2]
        · rw [(hother i hi).1]
          simp [hi]
      · intro i
        rw [g3 i]
        by_cases hi : i = k
        · subst hi
          simp [hn.1, hk, f3]
        · rw [(hother i hi).1, (hother i hi).2.1]
          simp [hi]
      · intro i
        rw [g4 i]
        by_cases hi : i = k
        · subst hi
          simp [hn.1, hk, f4]
        · rw [(hother i hi).1, (hother i hi).2.2]
          simp [hi]

theorem search_loop (ws : List Rank) (rank : Nat) (w : Rank) : ∀ (todo done : List Nat) (s : Search), Found ws rank w done s →
    (done ++ todo).Pairwise (· < ·) → (∀ x ∈ todo, x < sentinel) →
    ∃ s', todo.foldlM (searchAll ws.length rank) s = some s' ∧ Found ws rank w (done ++ todo) s' := by
  intro todo
  induction todo with
  | nil => intro done s h _ _; exact ⟨s, rfl, by simpa using h⟩
  | cons id todo ih =>
    intro done s h hp hlt
    have hdone : ∀ x ∈ done, x ≤ id := by
      intro x hx
      have := (List.pairwise_append.1 hp).2.2 x hx id (by simp)
      omega
    have hid := hlt id (by simp)
    have hseg : ∀ (wi : Rank), ∃ a ∈ segment wi, id ≤ a := fun wi => ⟨sentinel, (segment_mem wi _).2 (Or.inr rfl), by omega⟩
    have hne : ∀ i wi, i ≠ rank → ws[i]? = some wi → ∃ a ∈ s.it i, id ≤ a := by
      intro i wi hi hwi
      obtain ⟨rest, hr⟩ := h.it i wi hi hwi
      have h2 := hr id hdone
      have h3 := (advance_eq id (segment wi ++ rest) (by
        obtain ⟨a, ha, hle⟩ := hseg wi; exact ⟨a, List.mem_append_left _ ha, hle⟩)).2
      rw [← h2] at h3
      obtain ⟨a, ha, hp⟩ := dropWhile_ne_nil h3
      exact ⟨a, ha, by simpa using hp⟩
    have hhead : ∀ i, i < ws.length → i ≠ rank → (((s.it i).dropWhile fun a => decide (a < id)).head? = some id ↔ owns ws i id = true) := by
      intro i hi hr
      have hwi := List.getElem?_eq_getElem hi
      obtain ⟨rest, h1⟩ := h.it i _ hr hwi
      rw [h1 id hdone, head_dropWhile id _ rest (segment_sorted _) (hseg _), segment_mem]
      simp only [owns, hwi, Option.elim_some, decide_eq_true_eq]
      constructor
      · rintro (h | h)
        · exact h
        · omega
      · exact Or.inl
    obtain ⟨s1, g1, g2, g3, g4⟩ := searchAll_loop rank id (List.range ws.length) s List.nodup_range (by
      intro i hi hr
      have hi := List.mem_range.1 hi
      exact hne i _ hr (List.getElem?_eq_getElem hi))
    have hnew : ∀ i, (if i ∈ List.range ws.length ∧ i ≠ rank ∧ ((s.it i).dropWhile fun a => decide (a < id)).head? = some id then [id] else []) =
        if i ≠ rank then [id].filter (owns ws i) else [] := by
      intro i
      by_cases hr : i = rank
      · simp [hr]
      by_cases hi : i < ws.length
      · have hh := hhead i hi hr
        by_cases ho : owns ws i id = true
        · rw [if_pos ⟨List.mem_range.2 hi, hr, hh.2 ho⟩]
          simp [hr, ho]
        · rw [if_neg (by rintro ⟨_, _, h⟩; exact ho (hh.1 h))]
          simp [hr, ho]
      · rw [if_neg (by rintro ⟨h, _⟩; exact hi (List.mem_range.1 h))]
        have : owns ws i id = false := by simp [owns, List.getElem?_eq_none (Nat.not_lt.1 hi)]
        simp [this]
    have hfound : Found ws rank w (done ++ [id]) s1 := by
      refine ⟨?_, ?_, ?_⟩
      · intro i
        rw [g3, hnew, h.news]
        by_cases hr : i = rank
        · simp [hr]
        · simp [hr, List.filter_append]
      · intro i
        rw [g4, g3, h.pull, List.append_assoc]
      · intro i wi hi hwi
        obtain ⟨rest, hr⟩ := h.it i wi hi hwi
        refine ⟨rest, ?_⟩
        intro y hy
        have hyid := hy id (by simp)
        have hlt : i < ws.length := by
          by_contra hc
          rw [List.getElem?_eq_none (by omega)] at hwi
          simp at hwi
        rw [g2 i, if_pos ⟨List.mem_range.2 hlt, hi⟩, dropWhile_twice id y hyid]
        exact hr y (fun x hx => Nat.le_trans (hdone x hx) hyid)
    obtain ⟨s', k1, k2⟩ := ih (done ++ [id]) s1 hfound (by simpa using hp) (fun x hx => hlt x (List.mem_cons_of_mem _ hx))
    refine ⟨s', ?_, by simpa using k2⟩
    rw [List.foldlM_cons]
    show (searchAll ws.length rank s id).bind _ = _
    unfold searchAll at k1 ⊢
    rw [g1]
    exact k1

theorem search_spec (ws : List Rank) (rank : Nat) (w : Rank) (hp : w.other.Pairwise (· < ·)) (hlt : ∀ x ∈ w.other, x < sentinel) :
    ∃ s, search ws rank w = some s ∧ Found ws rank w w.other s := by
  unfold search
  rw [elementIDs_eq]
  simp only [Option.bind_eq_bind, Option.bind_some]
  apply search_loop ws rank w w.other [] _ _ (by simpa using hp) hlt
  refine ⟨by simp, by simp, ?_⟩
  intro i wi hi hwi
  have hlti : i < ws.length := by
    by_contra hc
    rw [List.getElem?_eq_none (by omega)] at hwi
    simp at hwi
  refine ⟨((ws.map segment).drop (i + 1)).flatten, ?_⟩
  intro y _
  have h1 : numberOfElements ws = 0 :: (ws.map segment).map List.length := by
    simp [numberOfElements, List.map_map, Function.comp_def, segment_length]
  rw [h1]
  dsimp only
  rw [List.getD_eq_getElem?_getD, cum_get _ _ (by simp; omega), Option.getD_some,
    drop_flatten _ i (segment wi) (by simp [hwi])]

/-! ## Sending the requests -/

theorem mapM_some' {α β : Type} {f : α → Option β} {g : α → β} : ∀ {l : List α}, (∀ x ∈ l, f x = some (g x)) → l.mapM f = some (l.map g)
  | [], _ => rfl
  | a :: l, h => by
    rw [List.mapM_cons, h a (by simp), mapM_some' fun x hx => h x (List.mem_cons_of_mem a hx)]
    rfl

theorem sentTo_eq (n r : Nat) (s : Search) (hr : r < n) : sentTo n r s = some (s.news r) := by
  have h1 : numberOfSends n s = 0 :: ((List.range n).map s.news).map List.length := by simp [numberOfSends, Function.comp_def]
  have h2 : sendBuffer n s = ((List.range n).map s.news).flatten := by simp [sendBuffer, List.flatMap]
  have h3 : ((List.range n).map s.news)[r]? = some (s.news r) := by simp [hr]
  unfold sentTo
  rw [h1, cum_get _ _ (by simp; omega), h2]
  simp only [Option.bind_eq_bind, Option.bind_some, List.getElem?_cons_succ, List.getElem?_map, List.getElem?_range hr, Option.map_some]
  rw [drop_flatten _ r _ h3]
  simp

theorem numberOfReceives_eq (n r : Nat) (ss : List Search) (hr : r < n) :
    numberOfReceives n r ss = some (0 :: (ss.map fun s => s.news r).map List.length) := by
  unfold numberOfReceives
  rw [mapM_some' (g := fun s => (s.news r).length) (by intro s _; simp [numberOfSends, hr])]
  simp [Function.comp_def]

theorem receiveBuffer_eq (n r : Nat) (ss : List Search) (hr : r < n) (hl : ss.length = n) :
    receiveBuffer n r ss = some ((ss.map fun s => s.news r).flatten) := by
  unfold receiveBuffer
  rw [numberOfReceives_eq n r ss hr]
  simp only [Option.bind_eq_bind, Option.bind_some]
  rw [cum_get _ _ (by simp [hl]), mapM_some' (g := fun s => s.news r) (fun s _ => sentTo_eq n r s hr)]
  simp only [Option.bind_some]
  rw [placeAll_eq]
  rw [List.take_of_length_le (by simp [hl])]

theorem push_loop (elems : List Nat) (blocks : List (List Nat)) (hb : ∀ b ∈ blocks, ∀ x ∈ b, x ∈ elems) :
    ∀ (m k : Nat) (push : Nat → List Nat), k + m = blocks.length →
    ∃ rest pos push', (List.range' k m).foldlM (pushOne elems (partialSum 0 (0 :: blocks.map List.length)))
        ((blocks.drop k).flatten, ((blocks.map List.length).take k).sum, push) = some (rest, pos, push') ∧
      ∀ i, push' i = push i ++ if k ≤ i then blocks.getD i [] else [] := by
  intro m
  induction m with
  | zero =>
    intro k push hk
    refine ⟨_, _, push, rfl, ?_⟩
    intro i
    by_cases hi : k ≤ i
    · simp [hi, List.getElem?_eq_none (show blocks.length ≤ i by omega)]
    · simp [hi]
  | succ m ih =>
    intro k push hk
    have hlt : k < blocks.length := by omega
    have hget := List.getElem?_eq_getElem hlt
    have hdrop : blocks.drop k = blocks[k] :: blocks.drop (k + 1) := List.drop_eq_getElem_cons hlt
    have hsum : ((blocks.map List.length).take (k + 1)).sum = ((blocks.map List.length).take k).sum + blocks[k].length := by
      rw [List.take_add_one]
      simp [hlt]
    rw [List.range'_succ, List.foldlM_cons]
    have hone : pushOne elems (partialSum 0 (0 :: blocks.map List.length)) ((blocks.drop k).flatten, ((blocks.map List.length).take k).sum, push) k =
        some ((blocks.drop (k + 1)).flatten, ((blocks.map List.length).take (k + 1)).sum, Function.update push k (push k ++ blocks[k])) := by
      unfold pushOne
      rw [cum_get _ _ (by simp; omega), hsum, hdrop]
      simp only [Option.bind_eq_bind, Option.bind_some, List.flatten_cons, List.length_append, Nat.add_sub_cancel_left]
      rw [if_neg (by omega)]
      rw [List.take_left', List.drop_left' rfl]
      · rw [if_pos]
        simp only [List.all_eq_true, decide_eq_true_eq]
        exact hb _ (List.getElem_mem hlt)
      · rfl
    rw [hone]
    obtain ⟨rest, pos, push', g1, g2⟩ := ih (k + 1) (Function.update push k (push k ++ blocks[k])) (by omega)
    refine ⟨rest, pos, push', g1, ?_⟩
    intro i
    rw [g2 i]
    by_cases hi : i = k
    · subst hi
      simp [hlt]
    · rw [Function.update_of_ne hi]
      have : k + 1 ≤ i ↔ k ≤ i := by omega
      simp [this]

/-- What all requests together do. -/
theorem processPullRequests_spec (ws : List Rank) (hp : ∀ w ∈ ws, w.other.Pairwise (· < ·)) (hlt : ∀ w ∈ ws, ∀ x ∈ w.other, x < sentinel) :
    ∃ ws', processPullRequests ws = some ws' ∧ ws'.length = ws.length ∧ ∀ (r : Nat) (w : Rank), ws[r]? = some w → ∃ w', ws'[r]? = some w' ∧
      w'.elems = w.elems ∧ w'.other = [] ∧
      (∀ p, w'.pull p = w.pull p ++ if p ≠ r then w.other.filter (owns ws p) else []) ∧
      (∀ q, w'.push q = w.push q ++ if q ≠ r then ((ws[q]?).elim [] fun wq => wq.other.filter (owns ws r)) else []) := by
  unfold processPullRequests
  by_cases hany : ws.any (fun w => decide (w.other ≠ [])) = true
  · rw [if_pos hany]
    let g : Rank × Nat → Search := fun x => (search ws x.2 x.1).getD ⟨fun _ => [], fun _ => [], fun _ => []⟩
    have hg : ∀ x ∈ ws.zipIdx, search ws x.2 x.1 = some (g x) ∧ Found ws x.2 x.1 x.1.other (g x) := by
      intro x hx
      have hm : x.1 ∈ ws := by
        have := List.mem_zipIdx_iff_getElem?.1 hx
        exact List.mem_of_getElem? this
      obtain ⟨s, h1, h2⟩ := search_spec ws x.2 x.1 (hp _ hm) (hlt _ hm)
      simp only [g, h1, Option.getD_some]
      exact ⟨trivial, h2⟩
    have hss : ws.zipIdx.mapM (fun x => search ws x.2 x.1) = some (ws.zipIdx.map g) := mapM_some' fun x hx => (hg x hx).1
    rw [hss]
    simp only [Option.bind_eq_bind, Option.bind_some]
    have hlen : (ws.zipIdx.map g).length = ws.length := by simp
    have hget : ∀ (r : Nat) (w : Rank), ws[r]? = some w → (w, r) ∈ ws.zipIdx := by
      intro r w hw
      exact List.mem_zipIdx_iff_getElem?.2 hw
    have hfin : ∀ x ∈ ws.zipIdx, ∃ w', finish ws.length (ws.zipIdx.map g) x.2 x.1 = some w' ∧ w'.elems = x.1.elems ∧ w'.other = [] ∧
        (∀ p, w'.pull p = x.1.pull p ++ if p ≠ x.2 then x.1.other.filter (owns ws p) else []) ∧
        (∀ q, w'.push q = x.1.push q ++ if q ≠ x.2 then ((ws[q]?).elim [] fun wq => wq.other.filter (owns ws x.2)) else []) := by
      rintro ⟨w, r⟩ hx
      have hw : ws[r]? = some w := List.mem_zipIdx_iff_getElem?.1 hx
      have hr : r < ws.length := by
        by_contra hc
        rw [List.getElem?_eq_none (by omega)] at hw
        simp at hw
      have hblocks : ∀ (q : Nat) (wq : Rank), ws[q]? = some wq → ((ws.zipIdx.map g).map fun s => s.news r)[q]? =
          some (if q ≠ r then wq.other.filter (owns ws r) else []) := by
        intro q wq hq
        have := (hg (wq, q) (hget q wq hq)).2.news r
        simp only [List.getElem?_map, List.getElem?_zipIdx, hq, Option.map_some, Nat.zero_add, this]
        by_cases hqr : r = q
        · simp [hqr]
        · simp [hqr, Ne.symm hqr]
      have hb : ∀ b ∈ (ws.zipIdx.map g).map (fun s => s.news r), ∀ x ∈ b, x ∈ w.elems := by
        intro b hb x hx
        obtain ⟨q, hq⟩ := List.getElem?_of_mem hb
        have hql : q < ws.length := by
          by_contra hc
          rw [List.getElem?_eq_none (by simp; omega)] at hq
          simp at hq
        rw [hblocks q _ (List.getElem?_eq_getElem hql)] at hq
        cases hq
        by_cases hqr : q = r
        · simp [hqr] at hx
        · simp only [ne_eq, hqr, not_false_eq_true, if_true, List.mem_filter] at hx
          simpa [owns, hw] using hx.2
      obtain ⟨rest, pos, push', h1, h2⟩ := push_loop w.elems _ hb ws.length 0 w.push (by simp)
      have hs : (ws.zipIdx.map g)[r]? = some (g (w, r)) := by simp [hw]
      refine ⟨⟨w.elems, [], (g (w, r)).pull, push'⟩, ?_, rfl, rfl, ?_, ?_⟩
      · unfold finish
        rw [hs, receiveBuffer_eq _ _ _ hr hlen, numberOfReceives_eq _ _ _ hr]
        simp only [Option.bind_eq_bind, Option.bind_some]
        rw [List.range_eq_range']
        simp only [List.drop_zero, List.take_zero, List.sum_nil] at h1
        rw [h1]
        rfl
      · intro p
        have := (hg (w, r) hx).2
        dsimp only at this ⊢
        rw [this.pull, this.news]
      · intro q
        dsimp only
        rw [h2 q, if_pos (Nat.zero_le _), List.getD_eq_getElem?_getD]
        cases hq : ws[q]? with
        | none =>
          have hlq : ws.length ≤ q := by simpa using hq
          rw [List.getElem?_eq_none (by simpa using hlq)]
          simp
        | some wq =>
          rw [hblocks q wq hq]
          simp
    let g' : Rank × Nat → Rank := fun x => (finish ws.length (ws.zipIdx.map g) x.2 x.1).getD x.1
    have hall : ws.zipIdx.mapM (fun x => finish ws.length (ws.zipIdx.map g) x.2 x.1) = some (ws.zipIdx.map g') := by
      apply mapM_some'
      intro x hx
      obtain ⟨w', h1, _⟩ := hfin x hx
      simp [g', h1]
    refine ⟨_, hall, by simp, ?_⟩
    intro r w hw
    obtain ⟨w', h1, h2⟩ := hfin (w, r) (hget r w hw)
    refine ⟨w', ?_, h2⟩
    simp [hw, g', h1]
  · rw [if_neg hany]
    have hnil : ∀ w ∈ ws, w.other = [] := by
      intro w hw
      by_contra hc
      exact hany (List.any_eq_true.2 ⟨w, hw, by simpa using hc⟩)
    refine ⟨ws, rfl, rfl, ?_⟩
    intro r w hw
    have h0 := hnil w (List.mem_of_getElem? hw)
    refine ⟨w, hw, rfl, h0, by simp [h0], ?_⟩
    intro q
    cases hq : ws[q]? with
    | none => simp
    | some wq => simp [hnil wq (List.mem_of_getElem? hq)]

end Verif.Submesh
