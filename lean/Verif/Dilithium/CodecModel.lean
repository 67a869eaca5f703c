import Verif.Lattice.Vec
import Verif.Dilithium.ArithModel

/-!
# Model of the encodings of Dilithium (CEX/DLTMPolyMath.cpp), scalar build

Unsigned values are natural numbers; a mask `& (2 ^ d - 1)` is written `% 2 ^ d`. The statements that write the consecutive bytes of a group
are one write of the list of these bytes, those that read the bytes of a group one read.
-/

namespace Cex.Dilithium
open Cex Cex.Lattice

/-- `(uint8_t)`. -/
def u8 (x : Nat) : Byte := BitVec.ofNat 8 x

/-- `(uint8_t)(c - A[i])` (DLTMPolyMath.cpp:1319-1326, 1337-1338). -/
def minus8 (c v : Int) : Nat := ((c - v) % 256).toNat

/-- `c - A[i]` as `uint32_t` (DLTMPolyMath.cpp:1415-1422, 1591-1594, 1614-1615). -/
def minus32 (c v : Int) : Nat := ((c - v) % 4294967296).toNat

/-- The bits of `A[i]`. -/
def bits32 (v : Int) : Nat := (v % 4294967296).toNat

/-- `PolyEtaPack` for `Eta = 2`, one group (DLTMPolyMath.cpp:1328-1330). -/
def pk3 : List Nat → List Byte
  | [t0, t1, t2, t3, t4, t5, t6, t7] => [u8 (t0 ||| (t1 <<< 3) ||| (t2 <<< 6)), u8 ((t2 >>> 2) ||| (t3 <<< 1) ||| (t4 <<< 4) ||| (t5 <<< 7)), u8 ((t5 >>> 1) ||| (t6 <<< 2) ||| (t7 <<< 5))]
  | _ => []

/-- `PolyEtaUnpack` for `Eta = 2`, one group (DLTMPolyMath.cpp:1350-1357). -/
def un3 : List Byte → List Nat
  | [b0, b1, b2] => [b0.toNat % 2 ^ 3, (b0.toNat >>> 3) % 2 ^ 3, ((b0.toNat >>> 6) ||| (b1.toNat <<< 2)) % 2 ^ 3, (b1.toNat >>> 1) % 2 ^ 3, (b1.toNat >>> 4) % 2 ^ 3, ((b1.toNat >>> 7) ||| (b2.toNat <<< 1)) % 2 ^ 3, (b2.toNat >>> 2) % 2 ^ 3, (b2.toNat >>> 5) % 2 ^ 3]
  | _ => []

/-- `PolyEtaPack` for `Eta = 4`, one group (DLTMPolyMath.cpp:1339); `PolyW1Pack` for the second `Gamma2` (968). -/
def pk4 : List Nat → List Byte
  | [t0, t1] => [u8 (t0 ||| (t1 <<< 4))]
  | _ => []

/-- `PolyEtaUnpack` for `Eta = 4`, one group (DLTMPolyMath.cpp:1373-1374). -/
def un4 : List Byte → List Nat
  | [b0] => [b0.toNat % 2 ^ 4, (b0.toNat >>> 4)]
  | _ => []

/-- `PolyT0Pack`, one group (DLTMPolyMath.cpp:1424-1443). -/
def pk13 : List Nat → List Byte
  | [t0, t1, t2, t3, t4, t5, t6, t7] => [u8 t0, u8 (t0 >>> 8) ||| u8 (t1 <<< 5), u8 (t1 >>> 3), u8 (t1 >>> 11) ||| u8 (t2 <<< 2), u8 (t2 >>> 6) ||| u8 (t3 <<< 7), u8 (t3 >>> 1), u8 (t3 >>> 9) ||| u8 (t4 <<< 4), u8 (t4 >>> 4), u8 (t4 >>> 12) ||| u8 (t5 <<< 1), u8 (t5 >>> 7) ||| u8 (t6 <<< 6), u8 (t6 >>> 2), u8 (t6 >>> 10) ||| u8 (t7 <<< 3), u8 (t7 >>> 5)]
  | _ => []

/-- `PolyT0Unpack`, one group (DLTMPolyMath.cpp:1451-1485). -/
def un13 : List Byte → List Nat
  | [b0, b1, b2, b3, b4, b5, b6, b7, b8, b9, b10, b11, b12] => [(b0.toNat ||| (b1.toNat <<< 8)) % 2 ^ 13, ((b1.toNat >>> 5) ||| (b2.toNat <<< 3) ||| (b3.toNat <<< 11)) % 2 ^ 13, ((b3.toNat >>> 2) ||| (b4.toNat <<< 6)) % 2 ^ 13, ((b4.toNat >>> 7) ||| (b5.toNat <<< 1) ||| (b6.toNat <<< 9)) % 2 ^ 13, ((b6.toNat >>> 4) ||| (b7.toNat <<< 4) ||| (b8.toNat <<< 12)) % 2 ^ 13, ((b8.toNat >>> 1) ||| (b9.toNat <<< 7)) % 2 ^ 13, ((b9.toNat >>> 6) ||| (b10.toNat <<< 2) ||| (b11.toNat <<< 10)) % 2 ^ 13, ((b11.toNat >>> 3) ||| (b12.toNat <<< 5)) % 2 ^ 13]
  | _ => []

/-- `PolyT1Pack`, one group (DLTMPolyMath.cpp:1502-1506). -/
def pk10 : List Nat → List Byte
  | [t0, t1, t2, t3] => [u8 t0, u8 ((t0 >>> 8) ||| (t1 <<< 2)), u8 ((t1 >>> 6) ||| (t2 <<< 4)), u8 ((t2 >>> 4) ||| (t3 <<< 6)), u8 (t3 >>> 2)]
  | _ => []

/-- `PolyT1Unpack`, one group (DLTMPolyMath.cpp:1514-1517). -/
def un10 : List Byte → List Nat
  | [b0, b1, b2, b3, b4] => [(b0.toNat ||| (b1.toNat <<< 8)) % 2 ^ 10, ((b1.toNat >>> 2) ||| (b2.toNat <<< 6)) % 2 ^ 10, ((b2.toNat >>> 4) ||| (b3.toNat <<< 4)) % 2 ^ 10, ((b3.toNat >>> 6) ||| (b4.toNat <<< 2)) % 2 ^ 10]
  | _ => []

/-- `PolyZPack` for `Gamma1 = 2 ^ 17`, one group (DLTMPolyMath.cpp:1596-1607). -/
def pk18 : List Nat → List Byte
  | [t0, t1, t2, t3] => [u8 t0, u8 (t0 >>> 8), u8 (t0 >>> 16) ||| u8 (t1 <<< 2), u8 (t1 >>> 6), u8 (t1 >>> 14) ||| u8 (t2 <<< 4), u8 (t2 >>> 4), u8 (t2 >>> 12) ||| u8 (t3 <<< 6), u8 (t3 >>> 2), u8 (t3 >>> 10)]
  | _ => []

/-- `PolyZUnpack` for `Gamma1 = 2 ^ 17`, one group (DLTMPolyMath.cpp:1633-1651). -/
def un18 : List Byte → List Nat
  | [b0, b1, b2, b3, b4, b5, b6, b7, b8] => [(b0.toNat ||| (b1.toNat <<< 8) ||| (b2.toNat <<< 16)) % 2 ^ 18, ((b2.toNat >>> 2) ||| (b3.toNat <<< 6) ||| (b4.toNat <<< 14)) % 2 ^ 18, ((b4.toNat >>> 4) ||| (b5.toNat <<< 4) ||| (b6.toNat <<< 12)) % 2 ^ 18, ((b6.toNat >>> 6) ||| (b7.toNat <<< 2) ||| (b8.toNat <<< 10)) % 2 ^ 18]
  | _ => []

/-- `PolyZPack` for `Gamma1 = 2 ^ 19`, one group (DLTMPolyMath.cpp:1617-1622). -/
def pk20 : List Nat → List Byte
  | [t0, t1] => [u8 t0, u8 (t0 >>> 8), u8 (t0 >>> 16) ||| u8 (t1 <<< 4), u8 (t1 >>> 4), u8 (t1 >>> 12)]
  | _ => []

/-- `PolyZUnpack` for `Gamma1 = 2 ^ 19`, one group (DLTMPolyMath.cpp:1663-1671; the second value is not masked). -/
def un20 : List Byte → List Nat
  | [b0, b1, b2, b3, b4] => [(b0.toNat ||| (b1.toNat <<< 8) ||| (b2.toNat <<< 16)) % 2 ^ 20, (b2.toNat >>> 4) ||| (b3.toNat <<< 4) ||| (b4.toNat <<< 12)]
  | _ => []

/-- `PolyW1Pack` for the first `Gamma2`, one group (DLTMPolyMath.cpp:956-961). -/
def pk6 : List Nat → List Byte
  | [t0, t1, t2, t3] => [u8 t0 ||| u8 (t1 <<< 6), u8 (t1 >>> 2) ||| u8 (t2 <<< 4), u8 (t2 >>> 4) ||| u8 (t3 <<< 2)]
  | _ => []

/-- `PolyEtaPack` (DLTMPolyMath.cpp:1311-1342). -/
def polyEtaPack (r : List Byte) (off : Nat) (a : List Int) (eta : Nat) : M (List Byte) :=
  if eta = 2 then packLoop 32 8 3 (minus8 2) pk3 a r off else if eta = 4 then packLoop 128 2 1 (minus8 4) pk4 a r off else return r

/-- `PolyEtaUnpack` (DLTMPolyMath.cpp:1344-1379). -/
def polyEtaUnpack (r : List Int) (a : List Byte) (off eta : Nat) : M (List Int) :=
  if eta = 2 then unpackLoop 32 8 3 un3 (fun t => 2 - (t : Int)) a off r else if eta = 4 then unpackLoop 128 2 1 un4 (fun t => 4 - (t : Int)) a off r else return r

/-- `PolyT0Pack` (DLTMPolyMath.cpp:1409-1445). -/
def polyT0Pack (r : List Byte) (off : Nat) (a : List Int) : M (List Byte) := packLoop 32 8 13 (minus32 4096) pk13 a r off

/-- `PolyT0Unpack` (DLTMPolyMath.cpp:1447-1496). -/
def polyT0Unpack (r : List Int) (a : List Byte) (off : Nat) : M (List Int) := unpackLoop 32 8 13 un13 (fun t => 4096 - (t : Int)) a off r

/-- `PolyT1Pack` (DLTMPolyMath.cpp:1498-1508). -/
def polyT1Pack (r : List Byte) (off : Nat) (a : List Int) : M (List Byte) := packLoop 64 4 5 bits32 pk10 a r off

/-- `PolyT1Unpack` (DLTMPolyMath.cpp:1510-1519). -/
def polyT1Unpack (r : List Int) (a : List Byte) (off : Nat) : M (List Int) := unpackLoop 64 4 5 un10 (fun t => (t : Int)) a off r

/-- `PolyZPack` (DLTMPolyMath.cpp:1583-1625). -/
def polyZPack (r : List Byte) (off : Nat) (a : List Int) (gamma1 : Nat) : M (List Byte) :=
  if gamma1 = 2 ^ 17 then packLoop 64 4 9 (minus32 131072) pk18 a r off else if gamma1 = 2 ^ 19 then packLoop 128 2 5 (minus32 524288) pk20 a r off else return r

/-- `PolyZUnpack` (DLTMPolyMath.cpp:1627-1677). -/
def polyZUnpack (r : List Int) (a : List Byte) (off gamma1 : Nat) : M (List Int) :=
  if gamma1 = 2 ^ 17 then unpackLoop 64 4 9 un18 (fun t => 131072 - (t : Int)) a off r
  else if gamma1 = 2 ^ 19 then unpackLoop 128 2 5 un20 (fun t => 524288 - (t : Int)) a off r else return r

/-- `PolyW1Pack` (DLTMPolyMath.cpp:948-971). -/
def polyW1Pack (r : List Byte) (off : Nat) (a : List Int) (g2 : Int) : M (List Byte) :=
  if g2 = gamma88 then packLoop 64 4 3 bits32 pk6 a r off else if g2 = gamma32 then packLoop 128 2 1 bits32 pk4 a r off else return r

/-- `PolyVecPackW1` (DLTMPolyMath.cpp:973-979). -/
def polyVecPackW1 (r : List Byte) (w1 : List (List Int)) (size : Nat) (g2 : Int) : M (List Byte) :=
  loopN w1.length 0 (fun i r => do polyW1Pack r (i * size) (← rd w1 i) g2) r

/-! ## Keys and signatures -/

/-- `PackPk` (DLTMPolyMath.cpp:1048-1061); the loop that copies `Rho` byte by byte is one copy. -/
def packPk (pk rho : List Byte) (t1 : List (List Int)) (size : Nat) : M (List Byte) := do
  let pk ← copy rho 0 pk 0 rho.length
  loopN t1.length 0 (fun i r => do polyT1Pack r (rho.length + i * size) (← rd t1 i)) pk

/-- `UnpackPk` (DLTMPolyMath.cpp:1063-1076). -/
def unpackPk (rho : List Byte) (t1 : List (List Int)) (pk : List Byte) (size : Nat) : M (List Byte × List (List Int)) := do
  let rho ← copy pk 0 rho 0 rho.length
  let t1 ← vecLoop t1.length (fun i p => polyT1Unpack p pk (rho.length + i * size)) t1
  return (rho, t1)

/-- `PackSk` (DLTMPolyMath.cpp:1078-1109); after `S2` the offset grows by `T0.size()` entries. -/
def packSk (sk rho key tr : List Byte) (s1 s2 t0 : List (List Int)) (eta etaSize t0Size : Nat) : M (List Byte) := do
  let sk ← copy rho 0 sk 0 rho.length
  let soff := rho.length
  let sk ← copy key 0 sk soff key.length
  let soff := soff + key.length
  let sk ← copy tr 0 sk soff tr.length
  let soff := soff + tr.length
  let sk ← loopN s1.length 0 (fun i r => do polyEtaPack r (soff + i * etaSize) (← rd s1 i) eta) sk
  let soff := soff + s1.length * etaSize
  let sk ← loopN s2.length 0 (fun i r => do polyEtaPack r (soff + i * etaSize) (← rd s2 i) eta) sk
  let soff := soff + t0.length * etaSize
  loopN t0.length 0 (fun i r => do polyT0Pack r (soff + i * t0Size) (← rd t0 i)) sk

/-- `UnpackSk` (DLTMPolyMath.cpp:1111-1142): `Rho`, `Tr`, `Key`, `T0`, `S1`, `S2`. -/
def unpackSk (rho tr key : List Byte) (t0 s1 s2 : List (List Int)) (sk : List Byte) (eta etaSize t0Size : Nat) :
    M (List Byte × List Byte × List Byte × List (List Int) × List (List Int) × List (List Int)) := do
  let rho ← copy sk 0 rho 0 32
  let key ← copy sk 32 key 0 32
  let tr ← copy sk 64 tr 0 48
  let soff := 112
  let s1 ← vecLoop s1.length (fun i p => polyEtaUnpack p sk (soff + i * etaSize) eta) s1
  let soff := soff + s1.length * etaSize
  let s2 ← vecLoop s2.length (fun i p => polyEtaUnpack p sk (soff + i * etaSize) eta) s2
  let soff := soff + s2.length * etaSize
  let t0 ← vecLoop t0.length (fun i p => polyT0Unpack p sk (soff + i * t0Size)) t0
  return (rho, tr, key, t0, s1, s2)

/-- The loop over the coefficients of one hint polynomial in `PackSig` (DLTMPolyMath.cpp:1173-1184): the signature and `k`. -/
def hintLoop (h : List Int) (pos : Nat) : (n j : Nat) → List Byte → Nat → M (List Byte × Nat)
  | 0, _, sig, k => return (sig, k)
  | n + 1, j, sig, k => do
    if (← rd h j) ≠ 0 then
      if pos + k = 2420 then return (sig, k)
      else do
        let sig ← wr sig (pos + k) (u8 j)
        hintLoop h pos n (j + 1) sig (k + 1)
    else hintLoop h pos n (j + 1) sig k

/-- `PackSig` (DLTMPolyMath.cpp:1144-1188); the loop that copies `C` byte by byte is one copy. -/
def packSig (sig c : List Byte) (z h : List (List Int)) (K omega zSize gamma1 : Nat) : M (List Byte) := do
  let sig ← copy c 0 sig 0 32
  let sig ← loopN z.length 0 (fun i r => do polyZPack r (32 + i * zSize) (← rd z i) gamma1) sig
  let pos := 32 + z.length * zSize
  let sig ← clear sig pos (omega + K)
  let (sig, _) ← loopN K 0 (fun i (s : List Byte × Nat) => do
    let (sig, k) ← hintLoop (← rd h i) pos 256 0 s.1 s.2
    let sig ← wr sig (pos + omega + i) (u8 k)
    return (sig, k)) (sig, 0)
  return sig

/-- The loop over the indices of one hint polynomial in `UnpackSig` (DLTMPolyMath.cpp:1227-1237): `H[i]`, and whether `res` was set. -/
def unhintLoop (sig : List Byte) (pos k : Nat) : (n j : Nat) → List Int → M (List Int × Bool)
  | 0, _, h => return (h, false)
  | n + 1, j, h => do
    let bad ← (if j > k then do return decide ((← rd sig (pos + j)).toNat ≤ (← rd sig (pos + j - 1)).toNat) else pure false : M Bool)
    if bad then return (h, true)
    else do
      let h ← wr h (← rd sig (pos + j)).toNat 1
      unhintLoop sig pos k n (j + 1) h

/-- The loop over the hint polynomials in `UnpackSig` (DLTMPolyMath.cpp:1214-1245): `H`, `k`, and whether `res` was set. The loop that clears `H[i]`
is one write of a cleared polynomial. -/
def unhints (sig : List Byte) (pos omega : Nat) : (n i : Nat) → List (List Int) → Nat → M (List (List Int) × Nat × Bool)
  | 0, _, hs, k => return (hs, k, false)
  | n + 1, i, hs, k => do
    let hs ← wr hs i (List.replicate 256 0)
    let c := (← rd sig (pos + omega + i)).toNat
    if c < k ∨ c > omega then return (hs, k, true)
    else do
      let (h, bad) ← unhintLoop sig pos k (c - k) k (← rd hs i)
      let hs ← wr hs i h
      if bad then return (hs, k, true) else unhints sig pos omega n (i + 1) hs c

/-- The loop over the unused indices in `UnpackSig` (DLTMPolyMath.cpp:1250-1257): was `res` set? -/
def padLoop (sig : List Byte) (pos : Nat) : (n j : Nat) → M Bool
  | 0, _ => return false
  | n + 1, j => do if (← rd sig (pos + j)) ≠ 0 then return true else padLoop sig pos n (j + 1)

/-- `UnpackSig` (DLTMPolyMath.cpp:1190-1261): `C`, `Z`, `H`, and whether `res` is set. -/
def unpackSig (c : List Byte) (z h : List (List Int)) (sig : List Byte) (zSize gamma1 omega : Nat) : M (List Byte × List (List Int) × List (List Int) × Bool) := do
  let c ← copy sig 0 c 0 32
  let z ← vecLoop z.length (fun i p => polyZUnpack p sig (32 + i * zSize) gamma1) z
  let pos := 32 + z.length * zSize
  let (h, k, bad) ← unhints sig pos omega h.length 0 h 0
  if bad then return (c, z, h, true)
  else do
    let bad ← padLoop sig pos (omega - k) k
    return (c, z, h, bad)

end Cex.Dilithium
