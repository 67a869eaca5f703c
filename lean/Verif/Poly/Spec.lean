import Verif.IntTools.Spec

/-! # Poly1305 (RFC 8439, section 2.5) -/

namespace Cex.Rfc8439
open Cex

/-- The prime. -/
def p : Nat := 2 ^ 130 - 5

/-- `r` from the first half of the key. -/
def clampR (key : List Byte) : Nat := leVal (key.take 16) &&& 0x0ffffffc0ffffffc0ffffffc0fffffff

/-- The second half of the key. -/
def padS (key : List Byte) : Nat := leVal ((key.drop 16).take 16)

/-- One block: add it with a one byte appended, multiply by `r`. -/
def accStep (r acc : Nat) (b : List Byte) : Nat := ((acc + leVal (b ++ [1])) * r) % p

/-- The message in blocks of 16 bytes, the last one possibly shorter. -/
def acc (r a : Nat) (m : List Byte) : Nat := if _h : m = [] then a else acc r (accStep r a (m.take 16)) (m.drop 16)
termination_by m.length
decreasing_by have := List.length_pos_iff.mpr _h; rw [List.length_drop]; omega

def poly1305 (key m : List Byte) : List Byte := leEnc 16 ((acc (clampR key) 0 m + padS key) % 2 ^ 128)

end Cex.Rfc8439
