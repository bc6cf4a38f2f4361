import Verif.Centaur.Lemmas
import Mathlib.Data.List.GetD

set_option linter.all false

namespace Verif.Centaur

theorem W_eq : W = 4294967296 := by norm_num [W]

theorem W_pow : W = 2 ^ 32 := by rw [W]

theorem flatten_length_uniform {T : Type} (n : Nat) : ∀ (es : List (List T)), (∀ e ∈ es, e.length = n) →
    es.flatten.length = es.length * n := by
  intro es
  induction es with
  | nil => intro _; simp
  | cons e es ih =>
    intro h
    rw [List.flatten_cons, List.length_append, ih (fun x hx => h x (by simp [hx])), h e (by simp),
      List.length_cons]
    ring

theorem readLines_done {T : Type} (per total numC : Nat) (recs : List (List T)) (data : List T) :
    readLines per total numC recs total data = some (data, recs) := by
  cases recs <;> simp [readLines]

theorem splice_ok {T : Type} (data r : List T) (off : Nat) (h : off + r.length ≤ data.length) :
    splice data off r = some (data.take off ++ r ++ data.drop (off + r.length)) := by
  rw [splice, if_pos h]

theorem readLines_spec {T : Type} (per numC total : Nat) (hW : total * numC < W) (es lines : List (List T))
    (hl : IsLines per es lines) (he : ∀ e ∈ es, e.length = numC) :
    ∀ (more : List (List T)) (read : Nat) (data : List T), read + es.length = total →
      data.length = total * numC →
        readLines per total numC (lines ++ more) read data =
          some (data.take (read * numC) ++ es.flatten, more) := by
  induction hl with
  | last es h0 h =>
    intro more read data hr hd
    have hpos : 0 < es.length := List.length_pos_iff.mpr h0
    have hfl := flatten_length_uniform numC es he
    have hmin : min per (total - read) = es.length := by omega
    have hmul : total * numC = read * numC + es.length * numC := by rw [← hr]; ring
    rw [List.singleton_append, readLines, if_pos (by omega)]
    simp only [hmin]
    rw [if_pos (by rw [hfl, Nat.mod_eq_of_lt (by omega)]), Nat.mod_eq_of_lt (by omega),
      splice_ok _ _ _ (by omega), Option.bind_some, hr, readLines_done, hfl,
      List.drop_eq_nil_of_le (by omega), List.append_nil]
  | cons es rest lines h hr' hl ih =>
    intro more read data hr hd
    have hpos : 0 < rest.length := List.length_pos_iff.mpr hr'
    rw [List.length_append] at hr
    have he1 : ∀ e ∈ es, e.length = numC := fun e hh => he e (by simp [hh])
    have he2 : ∀ e ∈ rest, e.length = numC := fun e hh => he e (by simp [hh])
    have hfl := flatten_length_uniform numC es he1
    have hmin : min per (total - read) = es.length := by omega
    have hmul : total * numC = read * numC + es.length * numC + rest.length * numC := by
      rw [← hr]; ring
    have hmul2 : (read + es.length) * numC = read * numC + es.length * numC := by ring
    rw [List.cons_append, readLines, if_pos (by omega)]
    simp only [hmin]
    rw [if_pos (by rw [hfl, Nat.mod_eq_of_lt (by omega)]), Nat.mod_eq_of_lt (by omega),
      splice_ok _ _ _ (by omega), Option.bind_some, ih he2 more (read + es.length) _ (by omega) (by
        simp only [List.length_append, List.length_take, List.length_drop, hfl]; omega)]
    congr 2
    rw [List.take_append_of_le_length (by
      simp only [List.length_append, List.length_take, hfl]; omega)]
    rw [List.take_of_length_le (by
      simp only [List.length_append, List.length_take, hfl]; omega)]
    simp

theorem IsLines.ne_nil {T : Type} {per : Nat} {es lines : List (List T)} (h : IsLines per es lines) :
    es ≠ [] := by
  cases h with
  | last _ h0 _ => exact h0
  | cons es rest _ _ hr _ => simp [hr]

theorem readGroup_spec {T : Type} (dflt : T) (fileType : Int) (numC per : Nat) (es lines more : List (List T))
    (hC : 0 < numC) (hW : es.length * numC < W) (hl : IsLines per es lines)
    (he : ∀ e ∈ es, e.length = numC) :
    readGroup dflt fileType numC false es.length per (lines ++ more) =
      some (es.flatten, es.length, more) := by
  have hpos : 0 < es.length := List.length_pos_iff.mpr hl.ne_nil
  have : es.length * numC ≠ 0 := Nat.mul_ne_zero (by omega) (by omega)
  unfold readGroup
  simp only [Bool.false_eq_true, if_false, Bool.false_and]
  rw [if_neg this, readLines_spec per numC es.length hW es lines hl he more 0 _ (by simp) (by simp)]
  simp

theorem mapM_some {α β : Type} (f : α → Option β) (g : α → β) : ∀ (l : List α),
    (∀ x ∈ l, f x = some (g x)) → l.mapM f = some (l.map g) := by
  intro l
  induction l with
  | nil => intro _; rfl
  | cons a l ih =>
    intro h
    rw [List.mapM_cons, h a (by simp), ih (fun x hx => h x (by simp [hx]))]
    rfl

theorem flatten_getElem {T : Type} (n : Nat) : ∀ (es : List (List T)), (∀ e ∈ es, e.length = n) →
    ∀ (i c : Nat) (hi : i < es.length), c < n → es.flatten[i * n + c]? = (es[i])[c]? := by
  intro es
  induction es with
  | nil => intro _ i c hi; simp at hi
  | cons e es ih =>
    intro h i c hi hc
    have he := h e (by simp)
    rw [List.flatten_cons]
    cases i with
    | zero =>
      rw [Nat.zero_mul, Nat.zero_add, List.getElem?_append_left (by omega)]
      rfl
    | succ i =>
      have : (i + 1) * n + c = n + (i * n + c) := by ring
      rw [List.getElem?_append_right (by omega), show (i + 1) * n + c - e.length = i * n + c by omega,
        ih (fun x hx => h x (by simp [hx])) i c (by simpa using hi) hc]
      rfl

theorem toElements_spec (is2D : Bool) (ty n : Nat) (es outs : List (List Nat))
    (hn : ∀ e ∈ es, e.length = n) (hlen : es.length = outs.length)
    (hr : ∀ (i : Nat) (h : i < es.length), reorder is2D ty (es[i].map dec) = some (outs[i]'(by omega))) :
    toElements is2D ty n es.length es.flatten = some outs := by
  rw [toElements, mapM_some _ (fun i => outs.getD i [])]
  · congr 1
    apply List.ext_getElem
    · simp [hlen]
    · intro i h1 h2
      simp [h2]
  · intro i hi
    have hi' : i < es.length := by simpa using hi
    have : (List.range n).mapM (fun c => (es.flatten[i * n + c]?).map dec) = some (es[i].map dec) := by
      rw [mapM_some _ (fun c => dec (es[i].getD c 0))]
      · refine congrArg some ?_
        have hl := hn _ (List.getElem_mem hi')
        apply List.ext_getElem
        · simp [hl]
        · intro c h1 h2
          simp only [List.length_map, List.length_range] at h1
          simp only [List.getElem_map, List.getElem_range]
          rw [List.getD_eq_getElem _ _ (by omega)]
      · intro c hc
        have hc' : c < n := by simpa using hc
        have hl := hn _ (List.getElem_mem hi')
        rw [flatten_getElem n es hn i c hi' hc', List.getElem?_eq_getElem (by omega),
          List.getD_eq_getElem _ _ (by omega)]
        rfl
    rw [this, Option.bind_some, hr i hi']
    simp [show i < outs.length by omega]

theorem skipLines_spec {T : Type} (per total : Nat) : ∀ (ls more : List (List T)) (read : Nat),
    total ≤ read + ls.length * per → (ls ≠ [] → read + (ls.length - 1) * per < total) →
      skipLines per total (ls ++ more) read = some more := by
  intro ls
  induction ls with
  | nil =>
    intro more read h _
    simp at h
    cases more <;> simp [skipLines] <;> omega
  | cons l ls ih =>
    intro more read h h2
    have h2' := h2 (by simp)
    simp only [List.length_cons, Nat.add_sub_cancel] at h h2'
    have hm : (ls.length + 1) * per = ls.length * per + per := by ring
    rw [List.cons_append, skipLines, if_pos (by omega)]
    apply ih
    · omega
    · intro hne
      have : 0 < ls.length := List.length_pos_iff.mpr hne
      obtain ⟨k, hk⟩ : ∃ k, ls.length = k + 1 := ⟨ls.length - 1, by omega⟩
      rw [hk] at h2' ⊢
      have : (k + 1) * per = k * per + per := by ring
      simp only [Nat.add_sub_cancel]
      omega

/-- Entries that lie more than one line beyond `2 ^ 32` are never written. -/
theorem readLines_lost {T : Type} (per total numC : Nat) (dflt : T) :
    ∀ (recs : List (List T)) (read : Nat) (data : List T) (out : List T) (rest : List (List T)),
      readLines per total numC recs read data = some (out, rest) →
        (∀ r ∈ recs, r.length < W) →
        out.length = data.length ∧ ∀ i, 2 * W ≤ i → out[i]? = data[i]? := by
  intro recs
  induction recs with
  | nil =>
    intro read data out rest h _
    simp only [readLines] at h
    split at h
    · simp at h
    · simp at h; obtain ⟨rfl, _⟩ := h; exact ⟨rfl, fun _ _ => rfl⟩
  | cons r recs ih =>
    intro read data out rest h hr
    simp only [readLines] at h
    split at h
    · split at h
      · rw [Option.bind_eq_some_iff] at h
        obtain ⟨d', hd, h⟩ := h
        obtain ⟨k1, k2⟩ := ih _ _ _ _ h (fun x hx => hr x (by simp [hx]))
        rw [splice] at hd
        split at hd
        · rename_i hle
          simp at hd
          have hl : d'.length = data.length := by rw [← hd]; simp; omega
          refine ⟨k1.trans hl, ?_⟩
          intro i hi
          rw [k2 i hi, ← hd]
          have := hr r (by simp)
          have hm : (read * numC) % W < W := Nat.mod_lt _ (by rw [W_eq]; omega)
          rw [List.getElem?_append_right (by simp; omega), List.getElem?_append_right (by simp; omega),
            List.getElem?_drop]
          congr 1
          simp
          omega
        · simp at hd
      · simp at h
    · simp at h; obtain ⟨rfl, _⟩ := h; exact ⟨rfl, fun _ _ => rfl⟩

section
attribute [local irreducible] W dec

theorem merges_snoc (l : List (Nat × Nat)) (x y : Nat) : merges (l ++ [(x, y)]) =
        if dec y = W - 1 then merges l else Function.update (merges l) (dec x) (some (dec y)) := by
  by_cases h : dec y = W - 1
  · rw [if_pos h]
    unfold merges
    rw [List.foldl_append, List.foldl_cons, List.foldl_nil, if_pos h]
  · rw [if_neg h]
    unfold merges
    rw [List.foldl_append, List.foldl_cons, List.foldl_nil, if_neg h]

theorem dec_succ (x : Nat) (h : x + 1 < W) : dec (x + 1) = x := by
  rw [dec_of_pos _ (Nat.le_add_left 1 x) h.le, Nat.add_sub_cancel]
theorem map_dec {d : Nat} (cgns : List (Verif.RefGeometry.Pt d)) (f : Verif.RefGeometry.Pt d → Nat) (hf : ∀ p, f p + 1 < W) :
    (cgns.map fun p => f p + 1).map dec = cgns.map f := by
  induction cgns with
  | nil => rfl
  | cons p l ih =>
    rw [List.map_cons, List.map_cons, List.map_cons, ih, dec_succ _ (hf p)]

end

end Verif.Centaur
