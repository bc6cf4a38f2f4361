/-!
# Model of kernel/Output/base64.{h,cpp}

`unsigned char*` + length becomes a `List UInt8`. In C++ the operands of the shifts are promoted to
`int` (at least 16 bits), and no intermediate value exceeds `255 << 4`, so `Nat` bit operations are
exact.
-/
namespace Verif.Base64

/-- base64.h:55-56, the table `base64Encode` (without the closing `\0`). -/
def table : Array Char :=
  "ABCDEFGHIJKLMNOPQRSTUVWXYZabcdefghijklmnopqrstuvwxyz0123456789+/".toList.toArray

/-- Indexing `base64Encode[i]`. An index above 63 would read the closing `\0` or beyond: modelled by
`'\x00'`, which the theorems show never to occur. -/
def enc (i : Nat) : Char := table.getD i '\x00'

/-- base64.cpp:54-89 `toBase64`. The `while (len > 2)` loop is the recursive case, the two trailing
`if`s are the one and two byte cases, the early exit on `len == 0` is the empty case. -/
def toBase64 : List UInt8 → List Char
  | [] => []
  | [a] =>
    [enc ((a.toNat >>> 2) &&& 0x3F), enc ((a.toNat <<< 4) &&& 0x30), '=', '=']
  | [a, b] =>
    [enc ((a.toNat >>> 2) &&& 0x3F),
     enc (((a.toNat <<< 4) &&& 0x30) ||| ((b.toNat >>> 4) &&& 0x0F)),
     enc ((b.toNat <<< 2) &&& 0x3C), '=']
  | a :: b :: c :: rest =>
    enc ((a.toNat >>> 2) &&& 0x3F) ::
    enc (((a.toNat <<< 4) &&& 0x30) ||| ((b.toNat >>> 4) &&& 0x0F)) ::
    enc (((b.toNat <<< 2) &&& 0x3C) ||| ((c.toNat >>> 6) &&& 0x03)) ::
    enc (c.toNat &&& 0x3F) :: toBase64 rest

end Verif.Base64
