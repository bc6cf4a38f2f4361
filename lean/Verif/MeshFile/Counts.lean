import Mathlib.Data.Nat.Log
import Mathlib.Data.List.Basic

/-! # The space for the node counts

The writer leaves room for the number of nodes of each partition and fills it in when the nodes have been written
(`applications/Preprocessor/lib/output_impl.h:113-122, 205-208`). This is the text of the file as characters. -/
namespace Verif.MeshFile.Counts

/-- `output << n`. -/
def decimal (n : Nat) : List Char :=
  if n < 10 then [Char.ofNat (48 + n)] else decimal (n / 10) ++ [Char.ofNat (48 + n % 10)]

/-- `reservedSpace` (output_impl.h:113-114). `std::log10` is taken to round to at least the logarithm of the largest power
of ten below; the logarithm of 0 is replaced by 0. -/
def reserved (nodes : Nat) : Nat := Nat.log 10 nodes + 2

/-- The text of the line of the partitions before it is filled in (output_impl.h:116-122), after the number of
partitions. -/
def blank (nodes count : Nat) : List Char := (List.replicate count (List.replicate (reserved nodes) ' ')).flatten

/-- `output.seekp(pos)` followed by output of a text that does not go beyond the end. -/
def overwrite (file : List Char) (pos : Nat) (text : List Char) : List Char := file.take pos ++ text ++ file.drop (pos + text.length)

/-- The counts as they are written (output_impl.h:206-208). -/
def countsText (counts : List Nat) : List Char := counts.flatMap fun c => decimal c ++ [' ']

/-- Decimal digits. -/
def isDigit (c : Char) : Bool := '0' ≤ c && c ≤ '9'

/-- `input >> n` for `std::size_t`: white space, then all digits that follow. -/
def readNumber (t : List Char) : Option (Nat × List Char) :=
  let t := t.dropWhile fun c => c = ' ' || c = '\n'
  let ds := t.takeWhile isDigit
  if ds = [] then none else some (ds.foldl (fun a c => 10 * a + (c.toNat - 48)) 0, t.dropWhile isDigit)

/-- The loop over the partitions (MeshFileInformation.cpp:80-86). -/
def readNumbers : Nat → List Char → Option (List Nat × List Char)
  | 0, t => some ([], t)
  | n + 1, t => do
    let (x, t) ← readNumber t
    let (xs, t) ← readNumbers n t
    some (x :: xs, t)

/-- `input.ignore(max, '\n')`. -/
def ignoreLine (t : List Char) : List Char := (t.dropWhile fun c => c ≠ '\n').drop 1

theorem decimal_length (n : Nat) : (decimal n).length = Nat.log 10 n + 1 := by
  induction n using Nat.strongRecOn with
  | _ n ih =>
    unfold decimal
    split
    · rename_i h
      simp [Nat.log_of_lt h]
    · rename_i h
      rw [List.length_append, ih (n / 10) (by omega), Nat.log_of_one_lt_of_le (by omega) (show 10 ≤ n by omega)]
      rfl

theorem digit_facts (d : Nat) (h : d < 10) : isDigit (Char.ofNat (48 + d)) = true ∧ (Char.ofNat (48 + d)).toNat - 48 = d ∧
    (Char.ofNat (48 + d)) ≠ ' ' ∧ (Char.ofNat (48 + d)) ≠ '\n' := by
  have : ∀ d : Fin 10, isDigit (Char.ofNat (48 + d)) = true ∧ (Char.ofNat (48 + d)).toNat - 48 = (d : Nat) ∧
    (Char.ofNat (48 + d)) ≠ ' ' ∧ (Char.ofNat (48 + d)) ≠ '\n' := by decide
  exact this ⟨d, h⟩

theorem decimal_facts (n : Nat) : (∀ c ∈ decimal n, isDigit c = true ∧ c ≠ ' ' ∧ c ≠ '\n') ∧ decimal n ≠ [] ∧
    (decimal n).foldl (fun a c => 10 * a + (c.toNat - 48)) 0 = n := by
  induction n using Nat.strongRecOn with
  | _ n ih =>
    unfold decimal
    split
    · rename_i h
      have := digit_facts n h
      simp [this]
    · rename_i h
      obtain ⟨h1, h2, h3⟩ := ih (n / 10) (by omega)
      obtain ⟨g1, g2, g3, g4⟩ := digit_facts (n % 10) (by omega)
      refine ⟨?_, by simp, ?_⟩
      · intro c hc
        rcases List.mem_append.1 hc with hc | hc
        · exact h1 c hc
        · simp at hc
          subst hc
          exact ⟨g1, g3, g4⟩
      · rw [List.foldl_append, h3]
        simp only [List.foldl_cons, List.foldl_nil, g2]
        omega

theorem readNumber_decimal (n : Nat) (t : List Char) : readNumber (decimal n ++ ' ' :: t) = some (n, ' ' :: t) := by
  obtain ⟨h1, h2, h3⟩ := decimal_facts n
  have hd : ∀ l : List Char, (∀ c ∈ l, isDigit c = true ∧ c ≠ ' ' ∧ c ≠ '\n') →
      (l ++ ' ' :: t).takeWhile isDigit = l ∧ (l ++ ' ' :: t).dropWhile isDigit = ' ' :: t := by
    intro l hl
    induction l with
    | nil => exact ⟨by simp [isDigit], by simp [isDigit]⟩
    | cons a l ih =>
      have ha := (hl a (by simp)).1
      obtain ⟨i1, i2⟩ := ih fun c hc => hl c (by simp [hc])
      simp [ha, i1, i2]
  have hw : (decimal n ++ ' ' :: t).dropWhile (fun c => c = ' ' || c = '\n') = decimal n ++ ' ' :: t := by
    cases hdec : decimal n with
    | nil => exact absurd hdec h2
    | cons a l =>
      have := h1 a (by simp [hdec])
      simp [this.2.1, this.2.2]
  unfold readNumber
  simp only [hw, (hd _ h1).1, (hd _ h1).2, if_neg h2, h3]

theorem readNumber_space (t : List Char) : readNumber (' ' :: t) = readNumber t := by
  simp [readNumber]

theorem readNumbers_space (n : Nat) (t : List Char) : readNumbers (n + 1) (' ' :: t) = readNumbers (n + 1) t := by
  simp [readNumbers, readNumber_space]

theorem readNumbers_text (counts : List Nat) (t : List Char) (hc : counts ≠ []) :
    readNumbers counts.length (countsText counts ++ t) = some (counts, ' ' :: t) := by
  induction counts with
  | nil => exact absurd rfl hc
  | cons a l ih =>
    have e : countsText (a :: l) ++ t = decimal a ++ ' ' :: (countsText l ++ t) := by simp [countsText]
    rw [e]
    simp only [List.length_cons, readNumbers, readNumber_decimal, Option.bind_eq_bind, Option.bind_some]
    cases l with
    | nil => simp [readNumbers, countsText]
    | cons b l =>
      rw [List.length_cons, readNumbers_space, ← List.length_cons (a := b), ih (by simp)]
      rfl

theorem countsText_length (nodes : Nat) (counts : List Nat) (h : ∀ c ∈ counts, c ≤ nodes) :
    (countsText counts).length ≤ counts.length * reserved nodes := by
  induction counts with
  | nil => simp [countsText]
  | cons a l ih =>
    have ih' := ih fun c hc => h c (by simp [hc])
    have e : countsText (a :: l) = decimal a ++ ' ' :: countsText l := by simp [countsText]
    have hlog : Nat.log 10 a ≤ Nat.log 10 nodes := Nat.log_mono_right (h a (by simp))
    rw [e, List.length_append, List.length_cons, List.length_cons, decimal_length, Nat.succ_mul]
    have : reserved nodes = Nat.log 10 nodes + 2 := rfl
    omega

/-- **C40.** Filling in the counts, none of which is more than the number of nodes, changes nothing before and after the
space that was left for them. The numbers that are then read from this line are the counts, and what follows the line is
what was written there. -/
theorem counts_fit (before after : List Char) (nodes : Nat) (counts : List Nat) (h : ∀ c ∈ counts, c ≤ nodes) :
    ∃ line, overwrite (before ++ (blank nodes counts.length ++ '\n' :: after)) before.length (countsText counts) = before ++ (line ++ '\n' :: after) ∧
      line.length = (blank nodes counts.length).length ∧
      ∃ rest, readNumbers counts.length (line ++ '\n' :: after) = some (counts, rest) ∧ ignoreLine rest = after := by
  have hb : blank nodes counts.length = List.replicate (counts.length * reserved nodes) ' ' := by
    unfold blank
    rw [List.flatten_replicate_replicate]
  obtain ⟨k, hk⟩ := Nat.exists_eq_add_of_le (countsText_length nodes counts h)
  have hign : ∀ j, ignoreLine (List.replicate j ' ' ++ '\n' :: after) = after := by
    intro j
    unfold ignoreLine
    induction j with
    | zero => simp
    | succ j ih => rw [List.replicate_succ, List.cons_append, List.dropWhile_cons_of_pos (by decide)]; exact ih
  refine ⟨countsText counts ++ List.replicate k ' ', ?_, ?_, ?_⟩
  · unfold overwrite
    rw [List.take_left', List.drop_append]
    · have : (blank nodes counts.length ++ '\n' :: after).drop (countsText counts).length = List.replicate k ' ' ++ '\n' :: after := by
        rw [hb, hk, List.drop_append]
        simp
      simp only [Nat.add_sub_cancel_left, this]
      simp
    · rfl
  · rw [hb, List.length_append, List.length_replicate, List.length_replicate, hk]
  · by_cases hc : counts = []
    · subst hc
      exact ⟨_, rfl, by simpa [countsText] using hign k⟩
    · refine ⟨' ' :: (List.replicate k ' ' ++ '\n' :: after), ?_, ?_⟩
      · rw [List.append_assoc]
        exact readNumbers_text counts _ hc
      · rw [← List.cons_append, ← List.replicate_succ]
        exact hign _

/-- Two partitions with 3 and 12 nodes of a mesh with 12 nodes. -/
example : countsText [3, 12] = ['3', ' ', '1', '2', ' '] ∧ ∀ c ∈ [3, 12], c ≤ 12 := by
  constructor
  · have h1 : decimal 1 = ['1'] := by rw [decimal]; rfl
    have h3 : decimal 3 = ['3'] := by rw [decimal]; rfl
    have h12 : decimal 12 = ['1', '2'] := by
      rw [decimal]
      show decimal 1 ++ ['2'] = _
      rw [h1]; rfl
    rw [countsText, List.flatMap_cons, List.flatMap_cons, List.flatMap_nil, h3, h12]
    rfl
  · decide

end Verif.MeshFile.Counts
