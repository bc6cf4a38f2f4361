import Verif.KPath.Model
import Mathlib.Tactic.FieldSimp
import Mathlib.Tactic.Ring
import Mathlib.Tactic.Module
import Mathlib.Tactic.Abel
import Mathlib.Tactic.IntervalCases
import Mathlib.Tactic.NormNum
import Mathlib.Data.Rat.Defs
import Mathlib.Algebra.BigOperators.Group.List.Basic

set_option linter.unusedSectionVars false
set_option linter.unusedSimpArgs false

/-! # Properties of point lists (C51) and of paths of wave vectors (C52) -/
namespace Verif.KPath
open Verif.CommandLine (Str isSpace digit)

variable {R : Type}

/-- How numbers are written: `print x` is not empty, has no '@', and is read back as long as a character follows
that ends a number: a comma, a colon, a semicolon or white space. -/
structure Reads (stod : Stod R) (print : R → Str) : Prop where
  nonempty : ∀ x, print x ≠ []
  noAt : ∀ x, '@' ∉ print x
  read : ∀ x t, (t = [] ∨ ∃ c u, t = c :: u ∧ (c = ',' ∨ c = ';' ∨ isSeparator c = true)) →
    stod (print x ++ t) = some (x, (print x).length)

/-- A point: its coordinates separated by commas. -/
def printPoint (print : R → Str) : List R → Str
  | [] => []
  | [x] => print x
  | x :: xs => print x ++ ',' :: printPoint print xs

private theorem coordinates_eq {stod : Stod R} {print : R → Str} (h : Reads stod print) (p : List R) :
    ∀ (pre post : Str), (post = [] ∨ ∃ c u, post = c :: u ∧ (c = ';' ∨ isSeparator c = true)) →
      coordinates stod (pre ++ (printPoint print p ++ post)) p.length pre.length =
        some (p, pre.length + (printPoint print p).length) := by
  induction p with
  | nil => intro pre post _; simp [coordinates, printPoint]
  | cons x xs ih =>
    intro pre post hp
    have hne : (print x).length ≠ 0 := by simpa using h.nonempty x
    cases xs with
    | nil =>
      have hr := h.read x post (hp.imp id fun ⟨c, u, e, hc⟩ => ⟨c, u, e, Or.inr hc⟩)
      simp only [List.length_cons, List.length_nil, coordinates, printPoint]
      rw [if_neg (by simp only [List.length_append, List.length_cons]; omega)]
      simp [hr]
    | cons y ys =>
      have hr := h.read x (',' :: (printPoint print (y :: ys) ++ post)) (Or.inr ⟨_, _, rfl, Or.inl rfl⟩)
      have := ih (pre ++ print x ++ [',']) post hp
      have e1 : printPoint print (x :: y :: ys) = print x ++ ',' :: printPoint print (y :: ys) := rfl
      have hstr : pre ++ (print x ++ ',' :: printPoint print (y :: ys) ++ post) =
          pre ++ print x ++ [','] ++ (printPoint print (y :: ys) ++ post) := by simp
      have hd : (pre ++ (print x ++ ',' :: printPoint print (y :: ys) ++ post)).drop pre.length =
          print x ++ ',' :: (printPoint print (y :: ys) ++ post) := by simp
      rw [e1, List.length_cons, coordinates, if_neg (by simp only [List.length_append, List.length_cons]; omega), hd, hr]
      simp only [Option.bind_eq_bind, Option.bind_some, List.length_cons]
      rw [if_neg (by omega), if_neg (by simp)]
      have hc : (pre ++ (print x ++ ',' :: printPoint print (y :: ys) ++ post))[pre.length + (print x).length]? = some ',' := by
        rw [hstr, List.getElem?_append_left (by simp), List.getElem?_append_right (by simp)]
        simp
      rw [if_neg (by simp [hc])]
      have hl : (pre ++ print x ++ [',']).length = pre.length + (print x).length + 1 := by simp; omega
      rw [hl] at this
      rw [hstr]
      simp only [List.length_cons] at this
      rw [this]
      simp
      omega

/-- C51: a written point is read back, and reading ends right behind it. -/
theorem parsePoint_roundtrip (stod : Stod R) (print : R → Str) (h : Reads stod print) (p : List R) (pre post : Str)
    (hp : post = [] ∨ ∃ c u, post = c :: u ∧ (c = ';' ∨ isSeparator c = true)) :
    parsePoint stod p.length (pre ++ (printPoint print p ++ post)) pre.length =
      some (p, pre.length + (printPoint print p).length) := coordinates_eq h p pre post hp

/-- Points, each with the separators behind it. -/
def printPoints (print : R → Str) : List (List R × Str) → Str
  | [] => []
  | (p, sep) :: ps => printPoint print p ++ (sep ++ printPoints print ps)

/-- Separators may be missing behind the last point only. -/
def Separated : List (List R × Str) → Prop
  | [] => True
  | [(_, sep)] => ∀ c ∈ sep, isSeparator c = true
  | (_, sep) :: ps => sep ≠ [] ∧ (∀ c ∈ sep, isSeparator c = true) ∧ Separated ps

private theorem printPoint_ne {print : R → Str} (hne : ∀ x, print x ≠ []) {p : List R} (hp : p ≠ []) : printPoint print p ≠ [] := by
  match p, hp with
  | [x], _ => exact hne x
  | x :: y :: ys, _ => simp [printPoint]

private theorem takeWhile_sep {sep rest : Str} (h : ∀ c ∈ sep, isSeparator c = true)
    (hr : rest = [] ∨ ∃ c u, rest = c :: u ∧ isSeparator c = false) : (sep ++ rest).takeWhile isSeparator = sep := by
  induction sep with
  | nil =>
    rcases hr with rfl | ⟨c, u, rfl, hc⟩
    · rfl
    · simp [hc]
  | cons c sep ih => simp [h c (by simp), ih fun c hc => h c (by simp [hc])]

private theorem pathLoop_eq {stod : Stod R} {print : R → Str} (h : Reads stod print)
    (hsep : ∀ x c u, print x = c :: u → isSeparator c = false) (dim : Nat) (hdim : 0 < dim)
    (ps : List (List R × Str)) (hd : ∀ p ∈ ps, p.1.length = dim) :
    Separated ps → ∀ pre : Str, pathLoop stod dim (pre ++ printPoints print ps) pre.length = some (ps.map Prod.fst) := by
  have hhead : ∀ (p : List R), p ≠ [] → ∃ c u, printPoint print p = c :: u ∧ isSeparator c = false := by
    intro p hp
    obtain ⟨x, xs, rfl⟩ : ∃ x xs, p = x :: xs := by
      cases p with
      | nil => exact absurd rfl hp
      | cons x xs => exact ⟨x, xs, rfl⟩
    obtain ⟨c, u, hx⟩ : ∃ c u, print x = c :: u := by
      cases hx : print x with
      | nil => exact absurd hx (h.nonempty x)
      | cons c u => exact ⟨c, u, rfl⟩
    cases xs with
    | nil => exact ⟨c, u, hx, hsep _ _ _ hx⟩
    | cons y ys => exact ⟨c, u ++ ',' :: printPoint print (y :: ys), by simp [printPoint, hx], hsep _ _ _ hx⟩
  induction ps with
  | nil =>
    intro _ pre
    rw [pathLoop]
    simp [printPoints]
  | cons q ps ih =>
    obtain ⟨p, sep⟩ := q
    intro hs pre
    have hp : p ≠ [] := by
      rintro rfl
      have := hd _ (List.mem_cons_self)
      simp at this; omega
    obtain ⟨c, u, hc, hcs⟩ := hhead p hp
    have hsp : ∀ c ∈ sep, isSeparator c = true := by
      cases ps with
      | nil => exact hs
      | cons _ _ => exact hs.2.1
    have hrest : printPoints print ps = [] ∨ ∃ c u, printPoints print ps = c :: u ∧ isSeparator c = false := by
      cases ps with
      | nil => exact Or.inl rfl
      | cons q' ps' =>
        right
        obtain ⟨c, u, h1, h2⟩ := hhead q'.1 (by
          intro h0
          have := hd q' (by simp)
          simp [h0] at this; omega)
        exact ⟨c, u ++ (q'.2 ++ printPoints print ps'), by simp [printPoints, h1], h2⟩
    have hpost : sep ++ printPoints print ps = [] ∨ ∃ c u, sep ++ printPoints print ps = c :: u ∧ (c = ';' ∨ isSeparator c = true) := by
      cases hsep' : sep with
      | cons a l => exact Or.inr ⟨a, _, rfl, Or.inr (hsp a (by simp [hsep']))⟩
      | nil =>
        left
        cases ps with
        | nil => rfl
        | cons q' ps' => exact absurd hsep' hs.1
    have hpt := parsePoint_roundtrip stod print h p pre _ hpost
    rw [hd _ List.mem_cons_self] at hpt
    have hs' : Separated ps := by
      cases ps with
      | nil => trivial
      | cons _ _ => exact hs.2.2
    have hrec := ih (fun q hq => hd q (by simp [hq])) hs' (pre ++ printPoint print p ++ sep)
    have hskip : skipSeparators (pre ++ (printPoint print p ++ (sep ++ printPoints print ps)))
        (pre.length + (printPoint print p).length) = (pre ++ printPoint print p ++ sep).length := by
      have : (pre ++ (printPoint print p ++ (sep ++ printPoints print ps))).drop (pre.length + (printPoint print p).length) =
          sep ++ printPoints print ps := by
        rw [← List.append_assoc, ← List.length_append, List.drop_left]
      rw [skipSeparators, this, takeWhile_sep hsp hrest]
      simp only [List.length_append]
    have hlt : pre.length < (pre ++ (printPoint print p ++ (sep ++ printPoints print ps))).length := by
      have : (printPoint print p).length ≠ 0 := by simp [hc]
      simp only [List.length_append]; omega
    rw [printPoints, pathLoop, if_pos hlt, hpt]
    simp only [Option.bind_eq_bind, Option.bind_some, hskip]
    have hstr : pre ++ (printPoint print p ++ (sep ++ printPoints print ps)) = pre ++ printPoint print p ++ sep ++ printPoints print ps := by
      simp
    rw [hstr, hrec]
    rfl

private theorem noAt_points {print : R → Str} (h : ∀ x, '@' ∉ print x) (ps : List (List R × Str)) (hs : Separated ps) :
    '@' ∉ printPoints print ps := by
  have hpt : ∀ p : List R, '@' ∉ printPoint print p := by
    intro p
    match p with
    | [] => simp [printPoint]
    | [x] => exact h x
    | x :: y :: ys =>
      have : ∀ l : List R, '@' ∉ printPoint print l := by
        intro l
        induction l with
        | nil => simp [printPoint]
        | cons a l ih =>
          cases l with
          | nil => exact h a
          | cons b l => simp only [printPoint, List.mem_append, List.mem_cons, not_or]; exact ⟨h a, by decide, ih⟩
      exact this _
  induction ps with
  | nil => simp [printPoints]
  | cons q ps ih =>
    obtain ⟨p, sep⟩ := q
    have hsp : ∀ c ∈ sep, isSeparator c = true := by
      cases ps with
      | nil => exact hs
      | cons _ _ => exact hs.2.1
    have hs' : Separated ps := by
      cases ps with
      | nil => trivial
      | cons _ _ => exact hs.2.2
    simp only [printPoints, List.mem_append, not_or]
    refine ⟨hpt p, fun hc => ?_, ih hs'⟩
    have := hsp _ hc
    simp [isSeparator, isSpace] at this

private theorem digit_digitChar {d : Nat} (h : d < 10) : digit (Nat.digitChar d) = d := by
  interval_cases d <;> decide

private theorem foldl_toDigits (n : Nat) : (Nat.toDigits 10 n).foldl (fun a c => 10 * a + digit c) 0 = n := by
  induction n using Nat.strongRecOn with
  | ind n ih =>
    rw [Nat.toDigits_eq_if (by decide)]
    split
    · rename_i h
      simp [digit_digitChar h]
    · rename_i h
      rw [List.foldl_append, ih (n / 10) (by omega)]
      simp only [List.foldl_cons, List.foldl_nil, digit_digitChar (Nat.mod_lt n (by decide : 10 > 0))]
      omega

private theorem stoul_eq (n : Nat) (hn : n < 2 ^ 64) (t : Str) :
    stoul (Nat.toDigits 10 n ++ '@' :: t) = some (n, (Nat.toDigits 10 n).length) := by
  have hd : ∀ c ∈ Nat.toDigits 10 n, c.isDigit = true := fun c hc => Nat.isDigit_of_mem_toDigits (by decide) (by decide) hc
  have hne : Nat.toDigits 10 n ≠ [] := by
    rw [Nat.toDigits_eq_if (by decide)]; split <;> simp
  have htake : (Nat.toDigits 10 n ++ '@' :: t).takeWhile Char.isDigit = Nat.toDigits 10 n := by
    generalize Nat.toDigits 10 n = l at hd
    induction l with
    | nil => simp [Char.isDigit]
    | cons a l ih => simp [hd a (by simp), ih fun c hc => hd c (by simp [hc])]
  obtain ⟨a, l, hal⟩ : ∃ a l, Nat.toDigits 10 n = a :: l := by
    cases h : Nat.toDigits 10 n with
    | nil => exact absurd h hne
    | cons a l => exact ⟨a, l, rfl⟩
  have ha : isSpace a = false ∧ a ≠ '-' ∧ a ≠ '+' := by
    have := hd a (by simp [hal])
    refine ⟨?_, ?_, ?_⟩
    · rw [Bool.eq_false_iff]
      intro hs
      simp only [isSpace, Bool.or_eq_true, decide_eq_true_eq] at hs
      rcases hs with ((((hs | hs) | hs) | hs) | hs) | hs <;> subst hs <;> simp [Char.isDigit] at this
    · rintro rfl; simp [Char.isDigit] at this
    · rintro rfl; simp [Char.isDigit] at this
  have hws : (Nat.toDigits 10 n ++ '@' :: t).takeWhile isSpace = [] := by simp [hal, ha.1]
  have hdw : (Nat.toDigits 10 n ++ '@' :: t).dropWhile isSpace = Nat.toDigits 10 n ++ '@' :: t := by simp [hal, ha.1]
  have hhd : (Nat.toDigits 10 n ++ '@' :: t).head? = some a := by simp [hal]
  have hsg : (some a == some '-' || some a == some '+') = false := by simp [ha.2.1, ha.2.2]
  simp only [stoul, hws, hdw, hhd, hsg, Bool.false_eq_true, if_false, htake, foldl_toDigits]
  rw [if_neg (by rintro (h | h); exacts [hne h, by omega])]
  simp [ha.2.1]

/-- C51: a written path is read back: the points, and the number of steps if one is given. -/
theorem parsePath_roundtrip (stod : Stod R) (print : R → Str) (h : Reads stod print)
    (hsep : ∀ x c u, print x = c :: u → isSeparator c = false) (dim : Nat) (hdim : 0 < dim)
    (ps : List (List R × Str)) (hd : ∀ p ∈ ps, p.1.length = dim) (hs : Separated ps) :
    parsePath stod dim (printPoints print ps) = some (ps.map Prod.fst, -1) ∧
    ∀ n < 2 ^ 31, parsePath stod dim (Nat.toDigits 10 n ++ '@' :: printPoints print ps) = some (ps.map Prod.fst, (n : Int)) := by
  have hna := noAt_points h.noAt ps hs
  constructor
  · have h1 : (printPoints print ps).findIdx? (· == '@') = none := by
      rw [List.findIdx?_eq_none_iff]
      intro c hc
      simp only [beq_eq_false_iff_ne, ne_eq]
      rintro rfl; exact hna hc
    have h2 := pathLoop_eq h hsep dim hdim ps hd hs []
    simp only [List.nil_append, List.length_nil] at h2
    simp [parsePath, h1, h2]
  · intro n hn
    have h1 : (Nat.toDigits 10 n ++ '@' :: printPoints print ps).findIdx? (· == '@') = some (Nat.toDigits 10 n).length := by
      have hx : (Nat.toDigits 10 n).findIdx? (· == '@') = none := by
        rw [List.findIdx?_eq_none_iff]
        intro c hc
        have := Nat.isDigit_of_mem_toDigits (by decide) (by decide) hc
        simp only [beq_eq_false_iff_ne, ne_eq]
        rintro rfl; simp [Char.isDigit] at this
      rw [List.findIdx?_append, hx]
      simp [List.findIdx?_cons]
    have h2 := pathLoop_eq h hsep dim hdim ps hd hs (Nat.toDigits 10 n ++ ['@'])
    simp only [List.append_assoc, List.cons_append, List.nil_append, List.length_append, List.length_cons, List.length_nil,
      Nat.zero_add] at h2
    have h3 : toInt n = n := by
      have h4 : n < 2147483648 := hn
      have : toInt n = Int.bmod n 4294967296 := rfl
      rw [this, Int.bmod_def]
      omega
    simp [parsePath, h1, stoul_eq n (lt_trans hn (by norm_num)), h2, h3]

/-- C51: in a path that is accepted only a number may stand before the first '@': white space, a sign, digits. -/
theorem parsePath_steps (stod : Stod R) (dim : Nat) (pre post : Str) (hpre : '@' ∉ pre) (r : List (List R) × Int)
    (h : parsePath stod dim (pre ++ '@' :: post) = some r) :
    ∃ ws sign digits : Str, pre = ws ++ (sign ++ digits) ∧ (∀ c ∈ ws, isSpace c = true) ∧ (sign = [] ∨ sign = ['-'] ∨ sign = ['+']) ∧
      digits ≠ [] ∧ (∀ c ∈ digits, c.isDigit = true) := by
  have hall : ∀ (p : Char → Bool) (l : Str), ∀ c ∈ l.takeWhile p, p c = true := by
    intro p l
    induction l with
    | nil => simp
    | cons a l ih =>
      intro c hc
      rw [List.takeWhile_cons] at hc
      split at hc
      · rename_i ha
        rcases List.mem_cons.1 hc with rfl | hc
        · exact ha
        · exact ih c hc
      · simp at hc
  have h1 : (pre ++ '@' :: post).findIdx? (· == '@') = some pre.length := by
    have hx : pre.findIdx? (· == '@') = none := by
      rw [List.findIdx?_eq_none_iff]
      intro c hc
      simp only [beq_eq_false_iff_ne, ne_eq]
      rintro rfl; exact hpre hc
    rw [List.findIdx?_append, hx]
    simp [List.findIdx?_cons]
  simp only [parsePath, h1] at h
  cases hst : stoul (pre ++ '@' :: post) with
  | none => rw [hst] at h; simp at h
  | some q =>
    obtain ⟨n, len⟩ := q
    rw [hst] at h
    simp only [Option.bind_eq_bind, Option.bind_some] at h
    by_cases hl : len = pre.length
    · subst hl
      generalize hS : pre ++ '@' :: post = S at hst
      have e1 := (List.takeWhile_append_dropWhile (p := isSpace) (l := S)).symm
      generalize hws : S.takeWhile isSpace = ws at *
      generalize hT : S.dropWhile isSpace = T at *
      obtain ⟨sign, u, eT, hsg, hu⟩ : ∃ sign u : Str, T = sign ++ u ∧ (sign = [] ∨ sign = ['-'] ∨ sign = ['+']) ∧
          (if (T.head? == some '-' || T.head? == some '+') = true then T.tail else T) = u ∧
          (if (T.head? == some '-' || T.head? == some '+') = true then 1 else 0) = sign.length := by
        cases T with
        | nil => exact ⟨[], [], rfl, Or.inl rfl, by simp, by simp⟩
        | cons a T =>
          by_cases ha : a = '-'
          · subst ha; exact ⟨['-'], T, rfl, Or.inr (Or.inl rfl), by simp, by simp⟩
          · by_cases hb : a = '+'
            · subst hb; exact ⟨['+'], T, rfl, Or.inr (Or.inr rfl), by simp, by simp⟩
            · exact ⟨[], a :: T, rfl, Or.inl rfl, by simp [ha, hb], by simp [ha, hb]⟩
      simp only [stoul, hws, hT, hu.1, hu.2] at hst
      split at hst
      · simp at hst
      · rename_i hne
        simp only [Option.some.injEq, Prod.mk.injEq] at hst
        rw [not_or] at hne
        refine ⟨ws, sign, u.takeWhile Char.isDigit, ?_, ?_, hsg, hne.1, hall _ _⟩
        · have e3 := (List.takeWhile_append_dropWhile (p := Char.isDigit) (l := u)).symm
          have e4 : S = (ws ++ (sign ++ u.takeWhile Char.isDigit)) ++ u.dropWhile Char.isDigit := by
            rw [e1, eT]
            conv => lhs; rw [e3]
            simp
          rw [e4] at hS
          refine List.append_inj_left hS ?_
          rw [← hst.2]
          simp only [List.length_append]; omega
        · rw [← hws]; exact hall _ _
    · rw [if_pos hl] at h; simp at h

/-- C51: written translations are read back. -/
theorem parseTranslations_roundtrip (stod : Stod R) (print : R → Str) (h : Reads stod print) (dim : Nat) (hdim : 0 < dim)
    (ps : List (List R)) (hd : ∀ p ∈ ps, p.length = dim) :
    parseTranslations stod dim (List.intercalate [';'] (ps.map (printPoint print))) = some ps := by
  have main : ∀ pre : Str, translationLoop stod dim (pre ++ List.intercalate [';'] (ps.map (printPoint print))) pre.length = some ps := by
    induction ps with
    | nil =>
      intro pre
      rw [translationLoop]
      simp [List.intercalate]
    | cons p ps ih =>
      intro pre
      have hp : p ≠ [] := by
        rintro rfl
        have := hd _ (List.mem_cons_self)
        simp at this; omega
      have hne := printPoint_ne h.nonempty hp
      have hlen : (printPoint print p).length ≠ 0 := by simpa using hne
      cases ps with
      | nil =>
        have hpt := parsePoint_roundtrip stod print h p pre [] (Or.inl rfl)
        rw [hd p (by simp), List.append_nil] at hpt
        have e : List.intercalate [';'] ([p].map (printPoint print)) = printPoint print p := by simp [List.intercalate]
        rw [e, translationLoop, if_pos (by simp only [List.length_append, List.length_cons]; omega), hpt]
        simp only [Option.bind_eq_bind, Option.bind_some, skipSemicolon, List.length_append, Nat.lt_irrefl, if_false]
        rw [translationLoop, if_neg (by simp)]
        rfl
      | cons q qs =>
        have e : List.intercalate [';'] ((p :: q :: qs).map (printPoint print)) =
            printPoint print p ++ ';' :: List.intercalate [';'] ((q :: qs).map (printPoint print)) := by
          simp [List.intercalate]
        have hpt := parsePoint_roundtrip stod print h p pre (';' :: List.intercalate [';'] ((q :: qs).map (printPoint print)))
          (Or.inr ⟨_, _, rfl, Or.inl rfl⟩)
        rw [hd p (by simp)] at hpt
        have hrec := ih (fun p hp => hd p (by simp [hp])) (pre ++ printPoint print p ++ [';'])
        rw [e, translationLoop, if_pos (by simp only [List.length_append, List.length_cons]; omega), hpt]
        have hg : (pre ++ (printPoint print p ++ ';' :: List.intercalate [';'] ((q :: qs).map (printPoint print))))[
            pre.length + (printPoint print p).length]? = some ';' := by
          rw [← List.append_assoc, List.getElem?_append_right (by simp)]
          simp
        simp only [Option.bind_eq_bind, Option.bind_some, skipSemicolon, hg, if_true]
        rw [if_pos (by simp)]
        simp only [Option.bind_some]
        have hl : (pre ++ printPoint print p ++ [';']).length = pre.length + (printPoint print p).length + 1 := by simp; omega
        rw [hl] at hrec
        have hstr : pre ++ printPoint print p ++ [';'] ++ List.intercalate [';'] ((q :: qs).map (printPoint print)) =
            pre ++ (printPoint print p ++ ';' :: List.intercalate [';'] ((q :: qs).map (printPoint print))) := by simp
        rw [hstr] at hrec
        rw [hrec]
        rfl
  exact main []

/-- C51: a point with too few coordinates is rejected. -/
theorem parsePoint_short_rejected (stod : Stod R) (print : R → Str) (h : Reads stod print) (p : List R) (dim : Nat) (hp : p.length < dim)
    (pre post : Str) (hpost : post = [] ∨ ∃ c u, post = c :: u ∧ c ≠ ',' ∧ (c = ';' ∨ isSeparator c = true)) (hne : p ≠ []) :
    parsePoint stod dim (pre ++ (printPoint print p ++ post)) pre.length = none := by
  rw [parsePoint]
  induction p generalizing pre dim with
  | nil => exact absurd rfl hne
  | cons x xs ih =>
    have hlen : (print x).length ≠ 0 := by simpa using h.nonempty x
    obtain ⟨k, rfl⟩ : ∃ k, dim = k + 1 := ⟨dim - 1, by omega⟩
    cases xs with
    | nil =>
      have hr := h.read x post (hpost.imp id fun ⟨c, u, e, _, hc⟩ => ⟨c, u, e, Or.inr hc⟩)
      simp only [List.length_cons, List.length_nil] at hp
      rw [printPoint, coordinates]
      rw [if_neg (by simp only [List.length_append, List.length_cons]; omega)]
      have hd : (pre ++ (print x ++ post)).drop pre.length = print x ++ post := by simp
      rw [hd, hr]
      simp only [Option.bind_eq_bind, Option.bind_some]
      rw [if_neg (by omega)]
      rcases hpost with rfl | ⟨c, u, rfl, hc, -⟩
      · rw [if_pos (by simp)]
      · rw [if_neg (by simp), if_pos]
        rw [← List.append_assoc, List.getElem?_append_right (by simp)]
        simp [hc]
    | cons y ys =>
      have hr := h.read x (',' :: (printPoint print (y :: ys) ++ post)) (Or.inr ⟨_, _, rfl, Or.inl rfl⟩)
      have hrec := ih k (by simpa using hp) (pre ++ print x ++ [',']) (by simp)
      have e1 : printPoint print (x :: y :: ys) = print x ++ ',' :: printPoint print (y :: ys) := rfl
      have hstr : pre ++ (print x ++ ',' :: printPoint print (y :: ys) ++ post) =
          pre ++ print x ++ [','] ++ (printPoint print (y :: ys) ++ post) := by simp
      have hd : (pre ++ (print x ++ ',' :: printPoint print (y :: ys) ++ post)).drop pre.length =
          print x ++ ',' :: (printPoint print (y :: ys) ++ post) := by simp
      rw [e1, coordinates, if_neg (by simp only [List.length_append, List.length_cons]; omega), hd, hr]
      simp only [Option.bind_eq_bind, Option.bind_some]
      simp only [List.length_cons] at hp
      rw [if_neg (by omega), if_neg (by simp)]
      have hc : (pre ++ (print x ++ ',' :: printPoint print (y :: ys) ++ post))[pre.length + (print x).length]? = some ',' := by
        rw [hstr, List.getElem?_append_left (by simp), List.getElem?_append_right (by simp)]
        simp
      rw [if_neg (by simp [hc])]
      have hl : (pre ++ print x ++ [',']).length = pre.length + (print x).length + 1 := by simp; omega
      rw [hl] at hrec
      rw [hstr, hrec]
      rfl

/-- Numbers as digits, read by `std::stoul` with its length, meet the conditions. -/
example : Reads (fun s => let d := s.takeWhile Char.isDigit; if d = [] then none else
    some (d.foldl (fun a c => 10 * a + digit c) 0, d.length)) (Nat.toDigits 10) where
  nonempty n := by rw [Nat.toDigits_eq_if (by decide)]; split <;> simp
  noAt n := by
    intro hc
    have := Nat.isDigit_of_mem_toDigits (by decide) (by decide) hc
    simp [Char.isDigit] at this
  read n t ht := by
    have hd : ∀ c ∈ Nat.toDigits 10 n, c.isDigit = true := fun c hc => Nat.isDigit_of_mem_toDigits (by decide) (by decide) hc
    have hne : Nat.toDigits 10 n ≠ [] := by
      rw [Nat.toDigits_eq_if (by decide)]; split <;> simp
    have hstop : t.takeWhile Char.isDigit = [] := by
      rcases ht with rfl | ⟨c, u, rfl, hc⟩
      · rfl
      · have : c.isDigit = false := by
          rcases hc with rfl | rfl | hc
          · rfl
          · rfl
          · simp only [isSeparator, isSpace, Bool.or_eq_true, decide_eq_true_eq] at hc
            rcases hc with (((((hc | hc) | hc) | hc) | hc) | hc) | hc <;> subst hc <;> rfl
        simp [this]
    have htake : (Nat.toDigits 10 n ++ t).takeWhile Char.isDigit = Nat.toDigits 10 n := by
      have hf := foldl_toDigits n
      clear hf hne
      generalize Nat.toDigits 10 n = l at hd
      induction l with
      | nil => simpa using hstop
      | cons a l ih => simp [hd a (by simp), ih fun c hc => hd c (by simp [hc])]
    simp [htake, hne, foldl_toDigits]

/-! ## Paths of wave vectors -/

variable {K E : Type} [Field K] [CharZero K] [AddCommGroup E] [Module K E]

/-- C52: the number of points of a path. -/
theorem totalNumberOfSteps_eq (p : Path E) (h0 : p.points ≠ []) (hfit : (p.points.length - 1) * p.steps + 1 < 2 ^ 64) :
    p.totalNumberOfSteps = (p.points.length - 1) * p.steps + 1 := by
  have : p.points.length ≠ 0 := by simpa using h0
  rw [Path.totalNumberOfSteps, if_neg this, Nat.mod_eq_of_lt (by omega)]
  omega

/-- C52: the corners of a path are met every `steps` steps. -/
theorem k_corner (p : Path E) (hs : 0 < p.steps) (n : Nat) : p.k (K := K) (n * p.steps) = p.points[n]? := by
  rw [Path.k, if_neg (by omega), if_pos (Nat.mul_mod_left _ _), Nat.mul_div_cancel _ hs]

/-- C52: between two corners the path is a straight line. -/
theorem k_line (p : Path E) (hs : 0 < p.steps) (n j : Nat) (hj : j ≤ p.steps) (a b : E) (ha : p.points[n]? = some a)
    (hb : p.points[n + 1]? = some b) :
    p.k (K := K) (n * p.steps + j) = some (a + ((j : K) / p.steps) • (b - a)) := by
  have hs0 : p.steps ≠ 0 := by omega
  have hK : (p.steps : K) ≠ 0 := Nat.cast_ne_zero.2 hs0
  rcases Nat.lt_or_ge j p.steps with hlt | hge
  · have h1 : (n * p.steps + j) / p.steps = n := by
      rw [Nat.mul_comm, Nat.mul_add_div hs, Nat.div_eq_of_lt hlt]; rfl
    have h2 : (n * p.steps + j) % p.steps = j := by
      rw [Nat.mul_comm, Nat.mul_add_mod, Nat.mod_eq_of_lt hlt]
    rw [Path.k, if_neg hs0, h1, h2]
    by_cases hj0 : j = 0
    · subst hj0; simp [ha]
    · rw [if_neg hj0]
      simp only [ha, hb, Option.bind_eq_bind, Option.bind_some, Option.some.injEq]
      rw [one_mul]
      module
  · have hj' : j = p.steps := by omega
    subst hj'
    have := k_corner (K := K) p hs (n + 1)
    rw [Nat.succ_mul] at this
    rw [this, hb, div_self hK, one_smul]
    congr 1
    abel

/-- C52: `dk` is the difference of two points of the path, for every point but the first, where it is the point. -/
theorem dk_step (p : Path E) (hs : 0 < p.steps) (i : Nat) (hi : i < (p.points.length - 1) * p.steps) :
    ∃ x y d, p.k (K := K) i = some x ∧ p.k (K := K) (i + 1) = some y ∧ p.dk (K := K) (i + 1) = some d ∧ y = x + d := by
  have hs0 : p.steps ≠ 0 := by omega
  have hK : (p.steps : K) ≠ 0 := Nat.cast_ne_zero.2 hs0
  have hn : i / p.steps < p.points.length - 1 := by
    rw [Nat.div_lt_iff_lt_mul hs]; exact hi
  have hmod : i % p.steps < p.steps := Nat.mod_lt _ hs
  have hi' : i = (i / p.steps) * p.steps + i % p.steps := by
    rw [Nat.mul_comm]; exact (Nat.div_add_mod _ _).symm
  obtain ⟨a, ha⟩ : ∃ a, p.points[i / p.steps]? = some a := ⟨_, List.getElem?_eq_getElem (Nat.lt_of_lt_of_le hn (Nat.sub_le _ _))⟩
  obtain ⟨b, hb⟩ : ∃ b, p.points[i / p.steps + 1]? = some b := ⟨_, List.getElem?_eq_getElem (Nat.add_lt_of_lt_sub hn)⟩
  refine ⟨a + ((i % p.steps : Nat) / p.steps : K) • (b - a), a + ((i % p.steps + 1 : Nat) / p.steps : K) • (b - a),
    (p.steps : K)⁻¹ • (b - a), ?_, ?_, ?_, ?_⟩
  · have := k_line (K := K) p hs _ (i % p.steps) hmod.le a b ha hb
    rw [← hi'] at this; exact this
  · have := k_line (K := K) p hs _ (i % p.steps + 1) hmod a b ha hb
    rw [← Nat.add_assoc, ← hi'] at this; exact this
  · simp [Path.dk, hs0, ha, hb]
  · have : ((i % p.steps + 1 : Nat) / p.steps : K) = (i % p.steps : Nat) / p.steps + (p.steps : K)⁻¹ := by
      push_cast; field_simp
    rw [this, add_smul]; abel

/-- C52: every point of the path is the sum of the steps to it. -/
theorem k_sum (p : Path E) (hs : 0 < p.steps) (h0 : p.points ≠ []) (i : Nat) (hi : i ≤ (p.points.length - 1) * p.steps) :
    ∃ ds : List E, ds.length = i + 1 ∧ (∀ j ≤ i, p.dk (K := K) j = ds[j]?) ∧ p.k (K := K) i = some ds.sum := by
  induction i with
  | zero =>
    obtain ⟨a, l, hal⟩ : ∃ a l, p.points = a :: l := by
      cases h : p.points with
      | nil => exact absurd h h0
      | cons a l => exact ⟨a, l, rfl⟩
    refine ⟨[a], rfl, ?_, ?_⟩
    · intro j hj
      have : j = 0 := by omega
      subst this
      simp [Path.dk, hal]
    · have := k_corner (K := K) p hs 0
      rw [Nat.zero_mul] at this
      simp [this, hal]
  | succ i ih =>
    obtain ⟨ds, h1, h2, h3⟩ := ih (by omega)
    obtain ⟨x, y, d, hx, hy, hd, e⟩ := dk_step (K := K) p hs i (by omega)
    rw [h3] at hx
    have hxs : ds.sum = x := Option.some.inj hx
    refine ⟨ds ++ [d], by simp [h1], ?_, ?_⟩
    · intro j hj
      rcases Nat.lt_or_ge j (i + 1) with hlt | hge
      · rw [h2 j (by omega), List.getElem?_append_left (by omega)]
      · have : j = i + 1 := by omega
        subst this
        rw [hd, List.getElem?_append_right (by omega)]
        simp [h1]
    · rw [hy, e, ← hxs]; simp

/-- C52: where `dkDidChange` says no the step is the same as the one before. -/
theorem dkDidChange_sound (p : Path E) (i : Nat) (h : p.dkDidChange i = some false) :
    2 ≤ i ∧ p.dk (K := K) i = p.dk (K := K) (i - 1) := by
  rw [Path.dkDidChange] at h
  split at h
  · split at h
    · simp at h
    · rename_i hi0
      split at h
      · simp at h
      · rename_i hs0
        simp only [Option.some.injEq, beq_eq_false_iff_ne, ne_eq] at h
        have h2 : 2 ≤ i := by
          by_contra hc
          have : i - 1 = 0 := by omega
          rw [this] at h; simp at h
        refine ⟨h2, ?_⟩
        have hdiv : (i - 1) / p.steps = (i - 1 - 1) / p.steps := by
          have hs : 0 < p.steps := by omega
          have e : i - 1 = (i - 1 - 1) + 1 := by omega
          rw [e, Nat.succ_div, if_neg]
          · simp
          · intro hdvd
            rw [← e] at hdvd
            exact h (Nat.mod_eq_zero_of_dvd hdvd)
        rw [Path.dk, Path.dk, if_neg hi0, if_neg hs0, if_neg (by omega), if_neg hs0, hdiv]
  · simp at h

/-- Finding: the largest index that the assertion of `k` admits, `totalNumberOfSteps()`, reads behind the points. -/
theorem k_total_undefined (p : Path E) (hs : 0 < p.steps) (h0 : p.points ≠ [])
    (hfit : (p.points.length - 1) * p.steps + 1 < 2 ^ 64) : p.k (K := K) p.totalNumberOfSteps = none := by
  have hlen : p.points.length ≠ 0 := by simpa using h0
  rw [totalNumberOfSteps_eq p h0 hfit, Path.k, if_neg (by omega)]
  by_cases h1 : p.steps = 1
  · have : ((p.points.length - 1) * p.steps + 1) % p.steps = 0 := by rw [h1]; omega
    rw [if_pos this, h1]
    rw [List.getElem?_eq_none]
    omega
  · have hm : ((p.points.length - 1) * p.steps + 1) % p.steps = 1 := by
      rw [Nat.mul_comm, Nat.mul_add_mod, Nat.mod_eq_of_lt (by omega)]
    have hd : ((p.points.length - 1) * p.steps + 1) / p.steps = p.points.length - 1 := by
      rw [Nat.mul_comm, Nat.mul_add_div hs, Nat.div_eq_of_lt (by omega)]; rfl
    rw [hm, if_neg (by omega), hd]
    have : p.points[p.points.length - 1 + 1]? = none := List.getElem?_eq_none (by omega)
    simp [this]

/-- Finding: `singleStepPath` is documented to go from the origin to the point in one step, but is the point only. -/
theorem singleStepPath_one_point (x : E) : (Path.singleStepPath x).totalNumberOfSteps = 1 ∧
    (Path.singleStepPath x).k (K := K) 0 = some x ∧ (Path.singleStepPath x).k (K := K) 1 = none := by
  refine ⟨by simp [Path.totalNumberOfSteps, Path.singleStepPath], ?_, ?_⟩ <;> simp [Path.k, Path.singleStepPath]

/-- Finding: a path text without points gives a path that claims `2^64 - steps + 1` points. -/
theorem empty_path_wraps (stod : Stod R) (dim steps : Nat) (h : 0 < steps) (h2 : steps < 2 ^ 64) :
    parsePath stod dim [] = some ([], -1) ∧ (⟨[], steps⟩ : Path E).totalNumberOfSteps = (2 ^ 64 + 1 - steps) % 2 ^ 64 := by
  constructor
  · simp [parsePath]
    rw [pathLoop]
    simp
  · simp only [Path.totalNumberOfSteps, List.length_nil, if_true]
    obtain ⟨s, rfl⟩ : ∃ s, steps = s + 1 := ⟨steps - 1, by omega⟩
    have : 1 + (2 ^ 64 - 1) * (s + 1) = (2 ^ 64 + 1 - (s + 1)) + 2 ^ 64 * s := by omega
    rw [this, Nat.add_mul_mod_self_left]

/-- Finding: a path with 0 steps, which `parsePath` accepts, divides by zero at its first point. -/
theorem zero_steps_undefined (ps : List E) (i : Nat) : (⟨ps, 0⟩ : Path E).k (K := K) i = none := by simp [Path.k]

/-- C52: the path of the cube goes from the origin along the axes, one after the other. -/
theorem cubePath_corners (dim steps : Nat) (pi : K) (back : Bool) (hs : 0 < steps) (n : Nat) (hn : n ≤ dim) :
    (Path.cubePath dim steps pi back).k (K := K) (n * steps) = some fun i => if i.1 < n then pi else 0 := by
  have := k_corner (K := K) (Path.cubePath dim steps pi back) hs n
  rw [show (Path.cubePath dim steps pi back).steps = steps from rfl] at this
  rw [this, Path.cubePath]
  simp only
  rw [List.getElem?_append_left (by simp; omega)]
  simp [List.getElem?_range, Nat.lt_succ_of_le hn]

example : (⟨[0, 4, 6], 2⟩ : Path ℚ).totalNumberOfSteps = 5 ∧ (⟨[0, 4, 6], 2⟩ : Path ℚ).k (K := ℚ) 3 = some 5 := by
  constructor
  · rfl
  · simp [Path.k]; norm_num

end Verif.KPath
