import Verif.Base64.Lemmas

/-! # C01: base64 output is decodable -/
namespace Verif.Base64

/-- C01. A standard decoder recovers exactly the bytes that were encoded. -/
theorem decode_toBase64 (l : List UInt8) : Spec.decode (toBase64 l) = some l :=
  byte_induction (P := fun l => Spec.decode (toBase64 l) = some l)
    rfl decode_one decode_two decode_three l

example : toBase64 [77, 97, 110, 255] = "TWFu/w==".toList := by decide

/-- C01. Different data give different strings. -/
theorem toBase64_injective (l m : List UInt8) (h : toBase64 l = toBase64 m) : l = m := by
  have := decode_toBase64 l
  rw [h, decode_toBase64 m] at this
  exact (Option.some.inj this).symm

/-- C01. The output length is the one the code reserves: `(len + 2) / 3 * 4` (base64.cpp:62). -/
theorem toBase64_length (l : List UInt8) :
    (toBase64 l).length = (l.length + 2) / 3 * 4 := by
  refine byte_induction (P := fun l => (toBase64 l).length = (l.length + 2) / 3 * 4)
    rfl (fun _ => by simp [toBase64]) (fun _ _ => by simp [toBase64]) ?_ l
  intro a b c rest ih
  rw [toBase64_three]
  simp only [List.length_cons, ih]
  omega

/-- C01. Every output character is one of the 64 digits or `=`, so the table is never read out of
bounds; and the output consists of digits followed by exactly as many `=` as bytes are missing from
the last group of three. -/
theorem toBase64_shape (l : List UInt8) :
    ∃ digits : List Char,
      toBase64 l = digits ++ List.replicate ((3 - l.length % 3) % 3) '=' ∧
      ∀ c ∈ digits, (Spec.digit c).isSome := by
  refine byte_induction (P := fun l => ∃ digits : List Char,
      toBase64 l = digits ++ List.replicate ((3 - l.length % 3) % 3) '=' ∧
      ∀ c ∈ digits, (Spec.digit c).isSome) ⟨[], rfl, by simp⟩ ?_ ?_ ?_ l
  · intro a
    have ha := byte_lt a
    refine ⟨[enc (a.toNat / 4), enc (a.toNat % 4 * 16)], by rw [toBase64_one]; rfl, ?_⟩
    simp [digit_enc (i := a.toNat / 4) (by omega), digit_enc (i := a.toNat % 4 * 16) (by omega)]
  · intro a b
    have ha := byte_lt a
    have hb := byte_lt b
    refine ⟨[enc (a.toNat / 4), enc (a.toNat % 4 * 16 + b.toNat / 16), enc (b.toNat % 16 * 4)],
      by rw [toBase64_two]; rfl, ?_⟩
    simp [digit_enc (i := a.toNat / 4) (by omega), digit_enc (i := b.toNat % 16 * 4) (by omega),
      digit_enc (i := a.toNat % 4 * 16 + b.toNat / 16) (by omega)]
  · intro a b c rest ⟨ds, hds, hd⟩
    have ha := byte_lt a
    have hb := byte_lt b
    have hc := byte_lt c
    refine ⟨enc (a.toNat / 4) :: enc (a.toNat % 4 * 16 + b.toNat / 16) ::
      enc (b.toNat % 16 * 4 + c.toNat / 64) :: enc (c.toNat % 64) :: ds, ?_, ?_⟩
    · rw [toBase64_three, hds]
      have : (a :: b :: c :: rest).length % 3 = rest.length % 3 := by
        simp only [List.length_cons]; omega
      rw [this]; rfl
    · intro x hx
      simp only [List.mem_cons] at hx
      rcases hx with h | h | h | h | h
      · rw [h, digit_enc (by omega)]; rfl
      · rw [h, digit_enc (by omega)]; rfl
      · rw [h, digit_enc (by omega)]; rfl
      · rw [h, digit_enc (by omega)]; rfl
      · exact hd x h

end Verif.Base64
