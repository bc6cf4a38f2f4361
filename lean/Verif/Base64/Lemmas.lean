import Verif.Base64.Model
import Verif.Base64.Spec

namespace Verif.Base64

theorem digit_enc_fin : ∀ i : Fin 64, Spec.digit (enc i.val) = some i.val := by decide +kernel

theorem digit_enc {i : Nat} (h : i < 64) : Spec.digit (enc i) = some i := digit_enc_fin ⟨i, h⟩

theorem enc_ne_pad_fin : ∀ i : Fin 64, enc i.val ≠ '=' := by decide +kernel

theorem enc_ne_pad {i : Nat} (h : i < 64) : enc i ≠ '=' := enc_ne_pad_fin ⟨i, h⟩

theorem hi6_fin : ∀ a : Fin 256, (a.val >>> 2) &&& 0x3F = a.val / 4 := by decide +kernel
theorem lo2_fin : ∀ a : Fin 256, (a.val <<< 4) &&& 0x30 = a.val % 4 * 16 := by decide +kernel
theorem hi4_fin : ∀ a : Fin 256, (a.val >>> 4) &&& 0x0F = a.val / 16 := by decide +kernel
theorem lo4_fin : ∀ a : Fin 256, (a.val <<< 2) &&& 0x3C = a.val % 16 * 4 := by decide +kernel
theorem hi2_fin : ∀ a : Fin 256, (a.val >>> 6) &&& 0x03 = a.val / 64 := by decide +kernel
theorem lo6_fin : ∀ a : Fin 256, a.val &&& 0x3F = a.val % 64 := by decide +kernel
theorem or4_fin : ∀ (x : Fin 4) (y : Fin 16), x.val * 16 ||| y.val = x.val * 16 + y.val := by
  decide +kernel
theorem or2_fin : ∀ (x : Fin 16) (y : Fin 4), x.val * 4 ||| y.val = x.val * 4 + y.val := by
  decide +kernel

theorem byte_lt (a : UInt8) : a.toNat < 256 := a.toNat_lt

theorem hi6 (a : UInt8) : (a.toNat >>> 2) &&& 0x3F = a.toNat / 4 := hi6_fin ⟨_, byte_lt a⟩
theorem lo2 (a : UInt8) : (a.toNat <<< 4) &&& 0x30 = a.toNat % 4 * 16 := lo2_fin ⟨_, byte_lt a⟩
theorem hi4 (a : UInt8) : (a.toNat >>> 4) &&& 0x0F = a.toNat / 16 := hi4_fin ⟨_, byte_lt a⟩
theorem lo4 (a : UInt8) : (a.toNat <<< 2) &&& 0x3C = a.toNat % 16 * 4 := lo4_fin ⟨_, byte_lt a⟩
theorem hi2 (a : UInt8) : (a.toNat >>> 6) &&& 0x03 = a.toNat / 64 := hi2_fin ⟨_, byte_lt a⟩
theorem lo6 (a : UInt8) : a.toNat &&& 0x3F = a.toNat % 64 := lo6_fin ⟨_, byte_lt a⟩

theorem or4 (x y : Nat) (hx : x < 4) (hy : y < 16) : x * 16 ||| y = x * 16 + y :=
  or4_fin ⟨x, hx⟩ ⟨y, hy⟩
theorem or2 (x y : Nat) (hx : x < 16) (hy : y < 4) : x * 4 ||| y = x * 4 + y :=
  or2_fin ⟨x, hx⟩ ⟨y, hy⟩

theorem mid (a b : UInt8) :
    ((a.toNat <<< 4) &&& 0x30) ||| ((b.toNat >>> 4) &&& 0x0F) = a.toNat % 4 * 16 + b.toNat / 16 := by
  rw [lo2, hi4, or4 _ _ (by omega) (by have := byte_lt b; omega)]

theorem mid' (a b : UInt8) :
    ((a.toNat <<< 2) &&& 0x3C) ||| ((b.toNat >>> 6) &&& 0x03) = a.toNat % 16 * 4 + b.toNat / 64 := by
  rw [lo4, hi2, or2 _ _ (by omega) (by have := byte_lt b; omega)]

/-- The encoder in plain arithmetic. -/
theorem toBase64_three (a b c : UInt8) (rest : List UInt8) :
    toBase64 (a :: b :: c :: rest) =
      enc (a.toNat / 4) :: enc (a.toNat % 4 * 16 + b.toNat / 16) ::
      enc (b.toNat % 16 * 4 + c.toNat / 64) :: enc (c.toNat % 64) :: toBase64 rest := by
  rw [toBase64, hi6, mid, mid', lo6]

theorem toBase64_two (a b : UInt8) :
    toBase64 [a, b] =
      [enc (a.toNat / 4), enc (a.toNat % 4 * 16 + b.toNat / 16), enc (b.toNat % 16 * 4), '='] := by
  rw [toBase64, hi6, mid, lo4]

theorem toBase64_one (a : UInt8) :
    toBase64 [a] = [enc (a.toNat / 4), enc (a.toNat % 4 * 16), '=', '='] := by
  rw [toBase64, hi6, lo2]

theorem ofNat_eq {n : Nat} {a : UInt8} (h : n = a.toNat) : UInt8.ofNat n = a := by
  subst h; simp

/-- Induction over byte lists three at a time, as in the encoding loop. -/
theorem byte_induction {P : List UInt8 → Prop} (h0 : P []) (h1 : ∀ a, P [a])
    (h2 : ∀ a b, P [a, b]) (h3 : ∀ a b c rest, P rest → P (a :: b :: c :: rest)) :
    ∀ l, P l
  | [] => h0
  | [a] => h1 a
  | [a, b] => h2 a b
  | a :: b :: c :: rest => h3 a b c rest (byte_induction h0 h1 h2 h3 rest)

theorem decode_one (a : UInt8) : Spec.decode (toBase64 [a]) = some [a] := by
  have ha := byte_lt a
  have d0 := digit_enc (i := a.toNat / 4) (by omega)
  have d1 := digit_enc (i := a.toNat % 4 * 16) (by omega)
  rw [toBase64_one]
  simp only [Spec.decode, d0, d1]
  rw [if_pos trivial, if_pos ⟨trivial, trivial, by omega⟩, ofNat_eq (a := a) (by omega)]

theorem decode_two (a b : UInt8) : Spec.decode (toBase64 [a, b]) = some [a, b] := by
  have ha := byte_lt a
  have hb := byte_lt b
  have d0 := digit_enc (i := a.toNat / 4) (by omega)
  have d1 := digit_enc (i := a.toNat % 4 * 16 + b.toNat / 16) (by omega)
  have d2 := digit_enc (i := b.toNat % 16 * 4) (by omega)
  have n2 := enc_ne_pad (i := b.toNat % 16 * 4) (by omega)
  rw [toBase64_two]
  simp only [Spec.decode, d0, d1, d2]
  rw [if_neg n2, if_pos trivial, if_pos ⟨trivial, by omega⟩, ofNat_eq (a := a) (by omega),
    ofNat_eq (a := b) (by omega)]

theorem decode_three (a b c : UInt8) (rest : List UInt8)
    (ih : Spec.decode (toBase64 rest) = some rest) :
    Spec.decode (toBase64 (a :: b :: c :: rest)) = some (a :: b :: c :: rest) := by
  have ha := byte_lt a
  have hb := byte_lt b
  have hc := byte_lt c
  have d0 := digit_enc (i := a.toNat / 4) (by omega)
  have d1 := digit_enc (i := a.toNat % 4 * 16 + b.toNat / 16) (by omega)
  have d2 := digit_enc (i := b.toNat % 16 * 4 + c.toNat / 64) (by omega)
  have d3 := digit_enc (i := c.toNat % 64) (by omega)
  have n2 := enc_ne_pad (i := b.toNat % 16 * 4 + c.toNat / 64) (by omega)
  have n3 := enc_ne_pad (i := c.toNat % 64) (by omega)
  rw [toBase64_three]
  simp only [Spec.decode, d0, d1, d2, d3, ih]
  rw [if_neg n2, if_neg n3, Option.map_some, ofNat_eq (a := a) (by omega),
    ofNat_eq (a := b) (by omega), ofNat_eq (a := c) (by omega)]

end Verif.Base64
