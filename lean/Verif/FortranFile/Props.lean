import Verif.FortranFile.Spec
import Mathlib.Tactic.Linarith

/-!
# Reading Fortran record files

Records are shorter than `2^32` bytes.
-/

namespace Verif.FortranFile

theorem sgetn_spec (pre b post : List ℕ) (n : ℕ) (h : b.length = n) :
    sgetn ⟨pre ++ (b ++ post), pre.length⟩ n
      = (b, ⟨pre ++ (b ++ post), (pre ++ b).length⟩) := by
  subst h
  simp [sgetn]

theorem uint32_marker (n : ℕ) (h : n < 2 ^ 32) : uint32 (marker n) = n := by
  simp only [marker, uint32]
  omega

theorem size_spec (pre post : List ℕ) (n : ℕ) (h : n < 2 ^ 32) :
    readRecordSize ⟨pre ++ (marker n ++ post), pre.length⟩
      = (some n, ⟨pre ++ (marker n ++ post), (pre ++ marker n).length⟩) := by
  unfold readRecordSize
  rw [sgetn_spec pre (marker n) post 4 rfl]
  simp only [uint32_marker n h]
  rfl

/-! ## C170: well-formed files -/

/-- Reading a record gives its bytes and moves behind it. -/
theorem read_record (debug : Bool) (pre post r : List ℕ) (h : r.length < 2 ^ 32) :
    readRawRecord debug ⟨pre ++ (record r ++ post), pre.length⟩ r.length
      = .ok r ⟨pre ++ (record r ++ post), (pre ++ record r).length⟩ := by
  have e1 := size_spec pre (r ++ (marker r.length ++ post)) r.length h
  have e2 := sgetn_spec (pre ++ marker r.length) r (marker r.length ++ post) r.length rfl
  have e3 := size_spec (pre ++ marker r.length ++ r) post r.length h
  simp only [List.append_assoc] at e1 e2 e3
  unfold readRawRecord record
  simp only [List.append_assoc, e1, e2, e3, bne_self_eq_false, Bool.and_false, Bool.false_eq_true,
    if_false, gt_iff_lt, lt_irrefl]

/-- Looking at the size of a record gives its size and does not move. -/
theorem peek_record (debug : Bool) (pre post r : List ℕ) (h : r.length < 2 ^ 32) :
    peekRecordSize debug ⟨pre ++ (record r ++ post), pre.length⟩
      = .ok r.length ⟨pre ++ (record r ++ post), pre.length⟩ := by
  have e := sgetn_spec pre (marker r.length) (r ++ (marker r.length ++ post)) 4 rfl
  unfold peekRecordSize record
  simp only [List.append_assoc, e]
  rw [if_pos (show (marker r.length).length = 4 from rfl), uint32_marker _ h, List.length_append,
    Nat.add_sub_cancel]

/-- Skipping a record moves behind it. -/
theorem skip_record (debug : Bool) (pre post r : List ℕ) (h : r.length < 2 ^ 32) :
    skipRecord debug ⟨pre ++ (record r ++ post), pre.length⟩ r.length
      = .ok () ⟨pre ++ (record r ++ post), (pre ++ record r).length⟩ := by
  have e1 := size_spec pre (r ++ (marker r.length ++ post)) r.length h
  have e3 := size_spec (pre ++ marker r.length ++ r) post r.length h
  simp only [List.append_assoc] at e1 e3
  unfold skipRecord record
  simp only [List.append_assoc, e1, bne_self_eq_false, Bool.and_false, Bool.false_eq_true,
    if_false]
  have : (pre ++ marker r.length).length + r.length = (pre ++ (marker r.length ++ r)).length := by
    simp [Nat.add_assoc]
  rw [this, e3]
  simp only [bne_self_eq_false, Bool.and_false, Bool.false_eq_true, if_false]

/-- Reading to the end gives all records in order. -/
theorem read_all (debug : Bool) (rs : List (List ℕ)) (h : ∀ r ∈ rs, r.length < 2 ^ 32) (n : ℕ)
    (hn : rs.length ≤ n) :
    readAll debug n ⟨layout rs, 0⟩ = .ok rs ⟨layout rs, (layout rs).length⟩ := by
  have key : ∀ (rs : List (List ℕ)) (pre : List ℕ) (n : ℕ), (∀ r ∈ rs, r.length < 2 ^ 32) →
      rs.length ≤ n → readAll debug n ⟨pre ++ layout rs, pre.length⟩
        = .ok rs ⟨pre ++ layout rs, (pre ++ layout rs).length⟩ := by
    intro rs
    induction rs with
    | nil =>
      intro pre n _ _
      cases n <;> simp [readAll, eof, layout]
    | cons r rs ih =>
      intro pre n hr hn
      cases n with
      | zero => simp at hn
      | succ n =>
        have hr0 := hr r List.mem_cons_self
        have ih' := ih (pre ++ record r) n (fun x hx => hr x (List.mem_cons_of_mem _ hx))
          (by simpa using hn)
        have hl : layout (r :: rs) = record r ++ layout rs := by simp [layout]
        have he : eof ⟨pre ++ (record r ++ layout rs), pre.length⟩ = false := by
          simp [eof, record, marker]
        simp only [List.append_assoc] at ih'
        rw [hl]
        simp only [readAll, he, Bool.false_eq_true, if_false, peek_record debug pre _ r hr0,
          read_record debug pre _ r hr0, ih']
  simpa using key rs [] n h hn

/-! ## C171: malformed files -/

/-- With active assertions a read that returns has found a record of the expected size
with equal markers, and has filled the whole buffer. -/
theorem debug_sound (f g : File) (size : ℕ) (data : List ℕ)
    (h : readRawRecord true f size = .ok data g) :
    data.length = size ∧ ∃ a b : List ℕ, a.length = 4 ∧ b.length = 4 ∧
      uint32 a = size ∧ uint32 b = size ∧
      (f.bytes.drop f.pos).take (size + 8) = a ++ data ++ b ∧ g = ⟨f.bytes, f.pos + size + 8⟩ := by
  unfold readRawRecord at h
  unfold readRecordSize sgetn at h
  simp only at h
  split at h
  · simp at h
  · rename_i n f' heq
    split at heq
    · rename_i h4
      simp only [Prod.mk.injEq, Option.some.injEq] at heq
      obtain ⟨hn, hf⟩ := heq
      subst hf
      simp only [Bool.true_and, bne_iff_ne, ne_eq, ite_not] at h
      split at h
      · rename_i hs
        split at h
        · cases h
        · rename_i hle
          split at h
          · rename_i hd
            split at h
            · simp at h
            · rename_i m f'' heq2
              split at heq2
              · rename_i h4'
                simp only [Prod.mk.injEq, Option.some.injEq] at heq2
                obtain ⟨hm, hf2⟩ := heq2
                subst hf2
                split at h
                · rename_i hmm
                  simp only [Result.ok.injEq] at h
                  obtain ⟨hdata, hg⟩ := h
                  rw [hdata] at hd
                  rw [h4] at hdata h4' hm hg
                  have hlen : ((List.drop (f.pos + 4) f.bytes).take n).length = n := by
                    rw [hdata]; exact hd
                  rw [hlen] at h4' hm hg
                  refine ⟨by rw [hd, hs], _, _, h4, h4', by rw [hn, hs], by rw [hm, ← hmm, hs], ?_, ?_⟩
                  · rw [← hdata, ← hs, show n + 8 = 4 + (n + 4) by omega, List.take_add, List.take_add,
                      List.drop_drop, List.drop_drop, List.append_assoc]
                  · rw [← hg, ← hs, h4']
                    congr 1
                    omega
                · cases h
              · simp at heq2
          · cases h
      · cases h
    · simp at heq

/-- Without them a record that is longer than expected is written behind the end of the
buffer. -/
theorem release_overflow (pre post r : List ℕ) (h : r.length < 2 ^ 32) (size : ℕ)
    (hs : size < r.length) :
    readRawRecord false ⟨pre ++ (record r ++ post), pre.length⟩ size = .undefined := by
  have e1 := size_spec pre (r ++ (marker r.length ++ post)) r.length h
  have e2 := sgetn_spec (pre ++ marker r.length) r (marker r.length ++ post) r.length rfl
  simp only [List.append_assoc] at e1 e2
  unfold readRawRecord record
  simp only [List.append_assoc, e1, e2, Bool.false_and, Bool.false_eq_true, if_false]
  rw [if_pos hs]

/-- A record that is shorter than expected is accepted and leaves the rest of the buffer
as it was. -/
theorem release_short (pre post r : List ℕ) (h : r.length < 2 ^ 32) (size : ℕ)
    (hs : r.length < size) :
    readRawRecord false ⟨pre ++ (record r ++ post), pre.length⟩ size
      = .ok r ⟨pre ++ (record r ++ post), (pre ++ record r).length⟩ := by
  have e1 := size_spec pre (r ++ (marker r.length ++ post)) r.length h
  have e2 := sgetn_spec (pre ++ marker r.length) r (marker r.length ++ post) r.length rfl
  have e3 := size_spec (pre ++ marker r.length ++ r) post r.length h
  simp only [List.append_assoc] at e1 e2 e3
  unfold readRawRecord record
  simp only [List.append_assoc, e1, e2, e3, Bool.false_and, Bool.false_eq_true, if_false]
  rw [if_neg (by omega)]

/-- With active assertions both end the program. -/
theorem debug_wrong_size (pre post r : List ℕ) (h : r.length < 2 ^ 32) (size : ℕ)
    (hs : r.length ≠ size) :
    readRawRecord true ⟨pre ++ (record r ++ post), pre.length⟩ size = .abort := by
  have e1 := size_spec pre (r ++ (marker r.length ++ post)) r.length h
  unfold readRawRecord record
  simp only [List.append_assoc, e1]
  rw [if_pos (by simpa using hs)]

/-- Examples. -/
example : layout [[7, 8], []] = [2, 0, 0, 0, 7, 8, 2, 0, 0, 0, 0, 0, 0, 0, 0, 0, 0, 0] := by decide
example : readAll true 5 ⟨layout [[7, 8], []], 0⟩ = .ok [[7, 8], []] ⟨layout [[7, 8], []], 18⟩ := by
  decide
example : readRawRecord true ⟨[2, 0, 0, 0, 7], 0⟩ 2 = .abort := by decide
example : readRawRecord false ⟨[2, 0, 0, 0, 7], 0⟩ 2 = .ok [7] ⟨[2, 0, 0, 0, 7], 5⟩ := by decide

end Verif.FortranFile
