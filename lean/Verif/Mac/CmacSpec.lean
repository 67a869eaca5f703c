import Verif.Buf
import Verif.IntTools.Spec

/-! # RFC 4493 / NIST SP 800-38B -/

namespace Cex.Mac.Spec
open Cex

/-- Doubling in GF(2^128) with the big-endian bit order: shift left, reduce by 0x87. -/
def dbl (L : List Byte) : List Byte :=
  beEnc 16 (if beVal L < 2 ^ 127 then 2 * beVal L else (2 * beVal L % 2 ^ 128) ^^^ 0x87)

/-- Last step: a complete last block is masked with K1, an incomplete one is padded 10* and masked with K2. -/
def cmacLast (E : List Byte → List Byte) (c m : List Byte) : List Byte :=
  let k1 := dbl (E (List.replicate 16 0))
  if m.length = 16 then E (xorBytes c (xorBytes m k1))
  else E (xorBytes c (xorBytes (m ++ 0x80 :: List.replicate (15 - m.length) 0) (dbl k1)))

/-- CBC-MAC over all blocks but the last (which holds 1 to 16 bytes, none for the empty message). -/
def cmacFrom (E : List Byte → List Byte) (c m : List Byte) : List Byte :=
  if 16 < m.length then cmacFrom E (E (xorBytes c (m.take 16))) (m.drop 16) else cmacLast E c m
termination_by m.length
decreasing_by rw [List.length_drop]; omega

/-- The CMAC tag of `m`. -/
def cmac (E : List Byte → List Byte) (m : List Byte) : List Byte := cmacFrom E (List.replicate 16 0) m

end Cex.Mac.Spec
