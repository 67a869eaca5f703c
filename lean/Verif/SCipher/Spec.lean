import Verif.Buf
import Verif.IntTools.Spec

/-!
# What a counter-driven stream cipher computes

Nothing here refers to the model.
-/

namespace Cex.SCipher.Spec
open Cex

/-- The number of blocks of `B` bytes that hold `len` bytes. -/
def blocksFor (B len : Nat) : Nat := (len + (B - 1)) / B

/-- The first `len` bytes of `blk 0 ‖ blk 1 ‖ …`. -/
def keystream (blk : Nat → List Byte) (B len : Nat) : List Byte :=
  ((List.range (blocksFor B len)).flatMap blk).take len

/-- A counter of two words, low word first. -/
def pairVal {w : Nat} (c : BitVec w × BitVec w) : Nat := c.1.toNat + 2 ^ w * c.2.toNat

/-- The counter holding `n` modulo `2^(2w)`. -/
def pairOf (w n : Nat) : BitVec w × BitVec w := (BitVec.ofNat w n, BitVec.ofNat w (n / 2 ^ w))

/-- `n` blocks further. -/
def pairCnt {w : Nat} (c : BitVec w × BitVec w) (n : Nat) : BitVec w × BitVec w := pairOf w (pairVal c + n)

/-- A counter held little-endian in the first 16 bytes of an array, `n` blocks further; the other bytes
stay. -/
def byteCnt (c : List Byte) (n : Nat) : List Byte := leEnc 16 (leVal (c.take 16) + n) ++ c.drop 16

end Cex.SCipher.Spec
