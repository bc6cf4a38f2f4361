/-!
# RFC 4648 base64 decoder (independent specification)

Written from the RFC with plain arithmetic: a character stands for a 6-bit digit, four digits form a
24-bit number which is cut in three bytes.
-/
namespace Verif.Base64.Spec

/-- RFC 4648 table 1: the value of a character. -/
def digit (c : Char) : Option Nat :=
  if 'A'.toNat ≤ c.toNat ∧ c.toNat ≤ 'Z'.toNat then some (c.toNat - 'A'.toNat)
  else if 'a'.toNat ≤ c.toNat ∧ c.toNat ≤ 'z'.toNat then some (26 + (c.toNat - 'a'.toNat))
  else if '0'.toNat ≤ c.toNat ∧ c.toNat ≤ '9'.toNat then some (52 + (c.toNat - '0'.toNat))
  else if c = '+' then some 62
  else if c = '/' then some 63
  else none

/-- The strict RFC 4648 decoder: groups of four, padding only in the last group, and the unused
bits before padding must be zero. -/
def decode : List Char → Option (List UInt8)
  | [] => some []
  | w :: x :: y :: z :: rest =>
    match digit w, digit x with
    | some dw, some dx =>
      if y = '=' then
        -- one byte: 12 bits, the last four zero
        if z = '=' ∧ rest = [] ∧ (dw * 64 + dx) % 16 = 0 then
          some [UInt8.ofNat ((dw * 64 + dx) / 16)]
        else none
      else match digit y with
        | none => none
        | some dy =>
          if z = '=' then
            -- two bytes: 18 bits, the last two zero
            if rest = [] ∧ (dw * 4096 + dx * 64 + dy) % 4 = 0 then
              let n := (dw * 4096 + dx * 64 + dy) / 4
              some [UInt8.ofNat (n / 256), UInt8.ofNat (n % 256)]
            else none
          else match digit z with
            | none => none
            | some dz =>
              let n := dw * 262144 + dx * 4096 + dy * 64 + dz
              (decode rest).map fun t =>
                UInt8.ofNat (n / 65536) :: UInt8.ofNat (n / 256 % 256) ::
                  UInt8.ofNat (n % 256) :: t
    | _, _ => none
  | _ => none

end Verif.Base64.Spec
