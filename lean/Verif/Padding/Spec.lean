import Verif.Base

/-! # Specification of the padding strings -/

namespace Cex.Padding
open Cex

/-- PKCS#7 (RFC 5652 §6.3): `n` bytes of value `n`. -/
def pkcs7Pad (n : Nat) : List Byte := List.replicate n (BitVec.ofNat 8 n)

/-- ANSI X9.23: zeros, then the count. -/
def x923Pad (n : Nat) : List Byte := List.replicate (n - 1) 0 ++ [BitVec.ofNat 8 n]

/-- ESP (RFC 4303 §2.4): 1, 2, 3, …, n. -/
def espPad (n : Nat) : List Byte := (List.range n).map (fun i => BitVec.ofNat 8 (i + 1))

/-- ISO/IEC 7816-4: 0x80, then zeros. -/
def zeroOnePad (n : Nat) : List Byte := 0x80 :: List.replicate (n - 1) 0

end Cex.Padding
