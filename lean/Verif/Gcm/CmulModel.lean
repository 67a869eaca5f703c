import Verif.IntTools.Model
import Verif.IntTools.Spec

/-!
# Model of the field multiplication (CEX/CMUL.cpp)

`PermuteR128P128U` and `PermuteR128P128C` perform the same rounds, written out or in a loop. `PermuteR128P128V` uses SSE
intrinsics, modelled on `BitVec 128` (byte 0 of the register is the lowest).
-/

namespace Cex.Gcm
open Cex Cex.IntTools

/-- The locals of the rounds (CMUL.cpp:15-30, 1062-1078). -/
structure CmulSt where
  T0 : BitVec 64
  T1 : BitVec 64
  Z0 : BitVec 64
  Z1 : BitVec 64
  mpos : BitVec 64

/-- One round (CMUL.cpp:33-39 for `X0`, 547-553 for `X1`; loop bodies 1082-1088, 1095-1101). -/
def cmulRound (X : BitVec 64) (s : CmulSt) : CmulSt :=
  let mask := expandMask 6 (X &&& s.mpos)
  let mpos := s.mpos >>> 1
  let Z0 := s.Z0 ^^^ (s.T0 &&& mask)
  let Z1 := s.Z1 ^^^ (s.T1 &&& mask)
  let carry := 0xE100000000000000 &&& expandMask 6 (s.T1 &&& 1)
  let T1 := (s.T1 >>> 1) ||| (s.T0 <<< 63)
  let T0 := (s.T0 >>> 1) ^^^ carry
  ⟨T0, T1, Z0, Z1, mpos⟩

/-- `n` rounds. -/
def cmulRounds (X : BitVec 64) : Nat → CmulSt → CmulSt
  | 0, s => s
  | n + 1, s => cmulRounds X n (cmulRound X s)

/-- All rounds (CMUL.cpp:24-1053, 1072-1106): 64 with `X0`, 63 with `X1`, and the last one without the shift. -/
def cmulCore (h0 h1 x0 x1 : BitVec 64) : BitVec 64 × BitVec 64 :=
  let s := cmulRounds x0 64 ⟨h0, h1, 0, 0, 0x8000000000000000⟩
  let s := cmulRounds x1 63 { s with mpos := 0x8000000000000000 }
  let mask := expandMask 6 (x1 &&& s.mpos)
  (s.Z0 ^^^ (s.T0 &&& mask), s.Z1 ^^^ (s.T1 &&& mask))

/-- `CMUL::PermuteR128P128U` and `CMUL::PermuteR128P128C` (CMUL.cpp:11-1056, 1058-1109). -/
def permuteC (h0 h1 : BitVec 64) (out : List Byte) : M (List Byte) := do
  let x0 ← beBytesTo64 out 0
  let x1 ← beBytesTo64 out 8
  let z := cmulCore h0 h1 x0 x1
  let out ← be64ToBytes z.1 out 0
  be64ToBytes z.2 out 8

/-! ## SSE intrinsics -/

/-- Byte `i` of a register. -/
def lane8 (x : BitVec 128) (i : Nat) : BitVec 8 := x.extractLsb' (8 * i) 8

/-- `_mm_shuffle_epi8` with indices below 16, given from byte 15 down to byte 0 as in `_mm_set_epi8`. -/
def shuffle (x : BitVec 128) (i15 i14 i13 i12 i11 i10 i9 i8 i7 i6 i5 i4 i3 i2 i1 i0 : Nat) : BitVec 128 :=
  lane8 x i15 ++ lane8 x i14 ++ lane8 x i13 ++ lane8 x i12 ++ lane8 x i11 ++ lane8 x i10 ++ lane8 x i9 ++ lane8 x i8 ++
  lane8 x i7 ++ lane8 x i6 ++ lane8 x i5 ++ lane8 x i4 ++ lane8 x i3 ++ lane8 x i2 ++ lane8 x i1 ++ lane8 x i0

/-- An operation on each of the four 32-bit lanes. -/
def map32 (f : BitVec 32 → BitVec 32) (x : BitVec 128) : BitVec 128 :=
  f (x.extractLsb' 96 32) ++ f (x.extractLsb' 64 32) ++ f (x.extractLsb' 32 32) ++ f (x.extractLsb' 0 32)

/-- `_mm_slli_epi32`, `_mm_srli_epi32`. -/
def slli32 (x : BitVec 128) (n : Nat) : BitVec 128 := map32 (· <<< n) x
def srli32 (x : BitVec 128) (n : Nat) : BitVec 128 := map32 (· >>> n) x

/-- `_mm_slli_si128`, `_mm_srli_si128`: shifts by bytes. -/
def slli128 (x : BitVec 128) (n : Nat) : BitVec 128 := x <<< (8 * n)
def srli128 (x : BitVec 128) (n : Nat) : BitVec 128 := x >>> (8 * n)

/-- Carry-less multiplication of two 64-bit halves: partial products of the low `n` bits of `b`. -/
def clmulBits (a b : BitVec 64) : Nat → BitVec 128
  | 0 => 0
  | n + 1 => clmulBits a b n ^^^ (if b.getLsbD n then a.setWidth 128 <<< n else 0)

/-- Half of a register. -/
def half (x : BitVec 128) (hi : Bool) : BitVec 64 := if hi then x.extractLsb' 64 64 else x.extractLsb' 0 64

/-- `_mm_clmulepi64_si128(A, B, imm)`: bit 0 of `imm` selects the half of `A`, bit 4 that of `B`. -/
def clmul (A B : BitVec 128) (imm : Nat) : BitVec 128 := clmulBits (half A (imm.testBit 0)) (half B (imm.testBit 4)) 64

/-- The arithmetic of `CMUL::PermuteR128P128V` between the shuffles (CMUL.cpp:1130-1164). -/
def cmulVec (A B : BitVec 128) : BitVec 128 :=
  let T0 := clmul A B 0x00
  let T1 := clmul A B 0x01
  let T2 := clmul A B 0x10
  let T3 := clmul A B 0x11
  let T1 := T1 ^^^ T2
  let T2 := slli128 T1 8
  let T1 := srli128 T1 8
  let T0 := T0 ^^^ T2
  let T3 := T3 ^^^ T1
  let T4 := srli32 T0 31
  let T0 := slli32 T0 1
  let T5 := srli32 T3 31
  let T3 := slli32 T3 1
  let T2 := srli128 T4 12
  let T5 := slli128 T5 4
  let T4 := slli128 T4 4
  let T0 := T0 ||| T4
  let T3 := T3 ||| T5
  let T3 := T3 ||| T2
  let T4 := slli32 T0 31
  let T5 := slli32 T0 30
  let T2 := slli32 T0 25
  let T4 := T4 ^^^ T5
  let T4 := T4 ^^^ T2
  let T5 := srli128 T4 4
  let T3 := T3 ^^^ T5
  let T4 := slli128 T4 12
  let T0 := T0 ^^^ T4
  let T3 := T3 ^^^ T0
  let T4 := srli32 T0 1
  let T1 := srli32 T0 2
  let T2 := srli32 T0 7
  let T3 := T3 ^^^ T1
  let T3 := T3 ^^^ T2
  T3 ^^^ T4

/-- The byte reversal `MASK` (CMUL.cpp:1115). -/
def reverse128 (x : BitVec 128) : BitVec 128 := shuffle x 0 1 2 3 4 5 6 7 8 9 10 11 12 13 14 15

/-- `_mm_loadu_si128` from 16 bytes, `_mm_storeu_si128` into 16 bytes. -/
def load128 (b : List Byte) : M (BitVec 128) := do
  let s ← slice b 0 16
  return BitVec.ofNat 128 (leVal s)
def store128 (b : List Byte) (x : BitVec 128) : M (List Byte) := blit b 0 (leEnc 16 x.toNat)

/-- `CMUL::PermuteR128P128V` (CMUL.cpp:1111-1172), compiled with AVX2. The state is two 64-bit words in memory. -/
def permuteV (h0 h1 : BitVec 64) (out : List Byte) : M (List Byte) := do
  let A ← load128 out
  let B := h1 ++ h0
  let A := reverse128 A
  let B := shuffle B 8 9 10 11 12 13 14 15 0 1 2 3 4 5 6 7
  let B := reverse128 B
  store128 out (reverse128 (cmulVec A B))

/-- The implementation chosen by `Permute` (GHASH.cpp:154-174, GMAC.cpp:361-375): the compact or the unrolled one are the same
function in the model. -/
def permute (simd : Bool) (h0 h1 : BitVec 64) (out : List Byte) : M (List Byte) :=
  if simd then permuteV h0 h1 out else permuteC h0 h1 out

end Cex.Gcm
