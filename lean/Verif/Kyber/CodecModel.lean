import Verif.Lattice.Codec
import Verif.Kyber.ArithModel

/-!
# Model of the encodings of Kyber (CEX/KyberBase.cpp), scalar build

Unsigned values are natural numbers; a mask `& (2 ^ d - 1)` is written `% 2 ^ d`. The statements that write the consecutive bytes of a group
are one write of the list of these bytes, those that read the bytes of a group one read.
-/

namespace Cex.Kyber
open Cex Cex.Lattice

/-- `t = coeff; t += (static_cast<int16_t>(t) >> 15) & KYBER_Q` for a `uint16_t t`
(KyberBase.cpp:153-154, 182-183, 269-270, 301-302); `int16_t u` converted to `uint16_t` (1421-1423). -/
def toPos (v : Int) : Nat := ((v + if v < 0 then Q else 0) % 65536).toNat

/-- `((t << d) + KYBER_Q / 2) / KYBER_Q & (2 ^ d - 1)` in 32 bits (KyberBase.cpp:184, 271, 303, 1423). -/
def compressCoeff (d : Nat) (v : Int) : Nat := (toPos v * 2 ^ d + 1664) % 4294967296 / 3329 % 2 ^ d

/-- The same for 5 bits, where the `int16_t` is converted to `uint32_t` (KyberBase.cpp:1443-1445). -/
def compressCoeff5 (v : Int) : Nat := ((i16 (v + if v < 0 then Q else 0) % 4294967296).toNat * 32 + 1664) % 4294967296 / 3329 % 32

/-- `(t * KYBER_Q + 2 ^ (d - 1)) >> d` (KyberBase.cpp:1519-1520, 1542, 1574, 1595). -/
def decompressCoeff (d : Nat) (t : Nat) : Int := i16 (((t * 3329 + 2 ^ (d - 1)) / 2 ^ d : Nat) : Int)

/-- `static_cast<uint8_t>`. -/
def u8 (x : Nat) : Byte := BitVec.ofNat 8 x

/-- `PolyToBytes`, one group (KyberBase.cpp:157-159). -/
def pk12 : List Nat → List Byte
  | [t0, t1] => [u8 t0, u8 ((t0 >>> 8) ||| (t1 <<< 4)), u8 (t1 >>> 4)]
  | _ => []

/-- `PolyToBytes` (KyberBase.cpp:145-161). -/
def polyToBytes (r : List Byte) (off : Nat) (a : List Int) : M (List Byte) := packLoop 128 2 3 toPos pk12 a r off

/-- `PolyFromBytes`, one group (KyberBase.cpp:167-168). -/
def un12 : List Byte → List Nat
  | [b0, b1, b2] => [(b0.toNat ||| (b1.toNat <<< 8)) % 2 ^ 12, ((b1.toNat >>> 4) ||| (b2.toNat <<< 4)) % 2 ^ 12]
  | _ => []

/-- `PolyFromBytes` (KyberBase.cpp:163-170). -/
def polyFromBytes (r : List Int) (a : List Byte) (off : Nat) : M (List Int) := unpackLoop 128 2 3 un12 (fun t => (t : Int)) a off r

/-- `PolyToMsg`, one byte (KyberBase.cpp:178-186). -/
def pk1 : List Nat → List Byte
  | [t0, t1, t2, t3, t4, t5, t6, t7] =>
    [u8 (((((((t0 ||| (t1 <<< 1)) ||| (t2 <<< 2)) ||| (t3 <<< 3)) ||| (t4 <<< 4)) ||| (t5 <<< 5)) ||| (t6 <<< 6)) ||| (t7 <<< 7))]
  | _ => []

/-- `PolyToMsg` (KyberBase.cpp:172-188). -/
def polyToMsg (msg : List Byte) (a : List Int) : M (List Byte) := packLoop 32 8 1 (compressCoeff 1) pk1 a msg 0

/-- `PolyFromMsg`, one byte (KyberBase.cpp:1608-1610). -/
def un1 : List Byte → List Nat
  | [b] => (List.range 8).map fun j => (b.toNat >>> j) % 2
  | _ => []

/-- `PolyFromMsg` (KyberBase.cpp:1602-1614): `-bit & ((KYBER_Q + 1) / 2)`. -/
def polyFromMsg (r : List Int) (msg : List Byte) : M (List Int) := unpackLoop 32 8 1 un1 (fun t => if t = 0 then 0 else 1665) msg 0 r

/-- `PolyVecCompress`, 10 bits, one group (KyberBase.cpp:306-310). -/
def pk10 : List Nat → List Byte
  | [t0, t1, t2, t3] =>
    [u8 t0, u8 ((t0 >>> 8) ||| (t1 <<< 2)), u8 ((t1 >>> 6) ||| (t2 <<< 4)), u8 ((t2 >>> 4) ||| (t3 <<< 6)), u8 (t3 >>> 2)]
  | _ => []

/-- `PolyVecCompress`, 11 bits, one group (KyberBase.cpp:274-284). -/
def pk11 : List Nat → List Byte
  | [t0, t1, t2, t3, t4, t5, t6, t7] =>
    [u8 t0, u8 ((t0 >>> 8) ||| (t1 <<< 3)), u8 ((t1 >>> 5) ||| (t2 <<< 6)), u8 (t2 >>> 2), u8 ((t2 >>> 10) ||| (t3 <<< 1)),
      u8 ((t3 >>> 7) ||| (t4 <<< 4)), u8 ((t4 >>> 4) ||| (t5 <<< 7)), u8 (t5 >>> 1), u8 ((t5 >>> 9) ||| (t6 <<< 2)), u8 ((t6 >>> 6) ||| (t7 <<< 5)),
      u8 (t7 >>> 3)]
  | _ => []

/-- `PolyVecDecompress`, 10 bits, one group (KyberBase.cpp:1587-1590, 1595). -/
def un10 : List Byte → List Nat
  | [b0, b1, b2, b3, b4] =>
    [(b0.toNat ||| (b1.toNat <<< 8)) % 2 ^ 10, ((b1.toNat >>> 2) ||| (b2.toNat <<< 6)) % 2 ^ 10, ((b2.toNat >>> 4) ||| (b3.toNat <<< 4)) % 2 ^ 10,
      ((b3.toNat >>> 6) ||| (b4.toNat <<< 2)) % 2 ^ 10]
  | _ => []

/-- `PolyVecDecompress`, 11 bits, one group (KyberBase.cpp:1562-1569, 1574). -/
def un11 : List Byte → List Nat
  | [b0, b1, b2, b3, b4, b5, b6, b7, b8, b9, b10] =>
    [(b0.toNat ||| (b1.toNat <<< 8)) % 2 ^ 11, ((b1.toNat >>> 3) ||| (b2.toNat <<< 5)) % 2 ^ 11,
      (((b2.toNat >>> 6) ||| (b3.toNat <<< 2)) ||| (b4.toNat <<< 10) % 65536) % 2 ^ 11, ((b4.toNat >>> 1) ||| (b5.toNat <<< 7)) % 2 ^ 11,
      ((b5.toNat >>> 4) ||| (b6.toNat <<< 4)) % 2 ^ 11, (((b6.toNat >>> 7) ||| (b7.toNat <<< 1)) ||| (b8.toNat <<< 9) % 65536) % 2 ^ 11,
      ((b8.toNat >>> 2) ||| (b9.toNat <<< 6)) % 2 ^ 11, ((b9.toNat >>> 5) ||| (b10.toNat <<< 3)) % 2 ^ 11]
  | _ => []

/-- `PolyCompress`, 4 bits, one group (KyberBase.cpp:1426-1433). -/
def pk4 : List Nat → List Byte
  | [t0, t1, t2, t3, t4, t5, t6, t7] => [u8 (t0 ||| (t1 <<< 4)), u8 (t2 ||| (t3 <<< 4)), u8 (t4 ||| (t5 <<< 4)), u8 (t6 ||| (t7 <<< 4))]
  | _ => []

/-- `PolyCompress`, 5 bits, one group (KyberBase.cpp:1448-1457). -/
def pk5 : List Nat → List Byte
  | [t0, t1, t2, t3, t4, t5, t6, t7] =>
    [u8 (t0 ||| (t1 <<< 5)), u8 (((t1 >>> 3) ||| (t2 <<< 2)) ||| (t3 <<< 7)), u8 ((t3 >>> 1) ||| (t4 <<< 4)),
      u8 (((t4 >>> 4) ||| (t5 <<< 1)) ||| (t6 <<< 6)), u8 ((t6 >>> 2) ||| (t7 <<< 3))]
  | _ => []

/-- `PolyDecompress`, 4 bits, one byte (KyberBase.cpp:1519-1520). -/
def un4 : List Byte → List Nat
  | [b] => [b.toNat % 2 ^ 4, b.toNat >>> 4]
  | _ => []

/-- `PolyDecompress`, 5 bits, one group (KyberBase.cpp:1530-1537, 1542). -/
def un5 : List Byte → List Nat
  | [b0, b1, b2, b3, b4] =>
    [b0.toNat % 2 ^ 5, ((b0.toNat >>> 5) ||| (b1.toNat <<< 3)) % 256 % 2 ^ 5, (b1.toNat >>> 2) % 2 ^ 5, ((b1.toNat >>> 7) ||| (b2.toNat <<< 1)) % 256 % 2 ^ 5,
      ((b2.toNat >>> 4) ||| (b3.toNat <<< 4)) % 256 % 2 ^ 5, (b3.toNat >>> 1) % 2 ^ 5, ((b3.toNat >>> 6) ||| (b4.toNat <<< 2)) % 256 % 2 ^ 5, (b4.toNat >>> 3) % 2 ^ 5]
  | _ => []

/-- `PolyCompress` (KyberBase.cpp:1406-1460). -/
def polyCompress (r : List Byte) (off : Nat) (a : List Int) (K : Nat) : M (List Byte) :=
  if K = 2 ∨ K = 3 then packLoop 32 8 4 (compressCoeff 4) pk4 a r off
  else packLoop 32 8 5 compressCoeff5 pk5 a r off

/-- `PolyDecompress` (KyberBase.cpp:1513-1546). -/
def polyDecompress (r : List Int) (a : List Byte) (off K : Nat) : M (List Int) :=
  if K = 2 ∨ K = 3 then unpackLoop 128 2 1 un4 (decompressCoeff 4) a off r
  else unpackLoop 32 8 5 un5 (decompressCoeff 5) a off r

/-- `PolyVecCompress` (KyberBase.cpp:253-315); `idx` has advanced by 352 or 320 after each polynomial. -/
def polyVecCompress (r : List Byte) (a : List (List Int)) : M (List Byte) :=
  if a.length = 4 ∨ a.length = 5 then loopN a.length 0 (fun i r => do packLoop 32 8 11 (compressCoeff 11) pk11 (← rd a i) r (352 * i)) r
  else if a.length = 2 ∨ a.length = 3 then loopN a.length 0 (fun i r => do packLoop 64 4 5 (compressCoeff 10) pk10 (← rd a i) r (320 * i)) r
  else return r

/-- `PolyVecDecompress` (KyberBase.cpp:1548-1600). -/
def polyVecDecompress (r : List (List Int)) (a : List Byte) : M (List (List Int)) :=
  if r.length = 4 ∨ r.length = 5 then loopN r.length 0 (fun i r => do wr r i (← unpackLoop 32 8 11 un11 (decompressCoeff 11) a (352 * i) (← rd r i))) r
  else if r.length = 2 ∨ r.length = 3 then loopN r.length 0 (fun i r => do wr r i (← unpackLoop 64 4 5 un10 (decompressCoeff 10) a (320 * i) (← rd r i))) r
  else return r

/-- `PolyVecToBytes` (KyberBase.cpp:317-323). -/
def polyVecToBytes (r : List Byte) (a : List (List Int)) : M (List Byte) :=
  loopN a.length 0 (fun i r => do polyToBytes r (i * 384) (← rd a i)) r

/-- `PolyVecFromBytes` (KyberBase.cpp:325-331). -/
def polyVecFromBytes (r : List (List Int)) (a : List Byte) : M (List (List Int)) :=
  loopN r.length 0 (fun i r => do wr r i (← polyFromBytes (← rd r i) a (i * 384))) r

end Cex.Kyber
