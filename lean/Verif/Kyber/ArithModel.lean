import Verif.Lattice.Loop

/-!
# Model of the arithmetic of Kyber (CEX/KyberBase.cpp)

`int16_t` and `int32_t` values are integers. Narrowing to `int16_t` wraps, overflow of an `int32_t` operation is undefined behaviour.
A `Poly` is the list of its 256 coefficients.
-/

namespace Cex.Kyber
open Cex Cex.Lattice

/-- Conversion to `int16_t`. -/
def i16 (x : Int) : Int := (x + 32768) % 65536 - 32768

/-- The result of an `int32_t` operation. -/
def i32 (x : Int) : M Int := if -2147483648 ≤ x ∧ x ≤ 2147483647 then .ok x else .error .ub

/-- `KYBER_Q` (KyberBase.h:50). -/
def Q : Int := 3329

/-- `KYBER_QINV` (KyberBase.h:57). -/
def QINV : Int := 62209

/-- `KyberBase::Zetas` (KyberBase.cpp:5-23), as the unsigned values in the source. -/
def zetas : List Int := [
  0xFBEC, 0xFD0A, 0xFE99, 0xFA13, 0x05D5, 0x058E, 0x011F, 0x00CA,
  0xFF55, 0x026E, 0x0629, 0x00B6, 0x03C2, 0xFB4E, 0xFA3E, 0x05BC,
  0x023D, 0xFAD3, 0x0108, 0x017F, 0xFCC3, 0x05B2, 0xF9BE, 0xFF7E,
  0xFD57, 0x03F9, 0x02DC, 0x0260, 0xF9FA, 0x019B, 0xFF33, 0xF9DD,
  0x04C7, 0x028C, 0xFDD8, 0x03F7, 0xFAF3, 0x05D3, 0xFEE6, 0xF9F8,
  0x0204, 0xFFF8, 0xFEC0, 0xFD66, 0xF9AE, 0xFB76, 0x007E, 0x05BD,
  0xFCAB, 0xFFA6, 0xFEF1, 0x033E, 0x006B, 0xFA73, 0xFF09, 0xFC49,
  0xFE72, 0x03C1, 0xFA1C, 0xFD2B, 0x01C0, 0xFBD7, 0x02A5, 0xFB05,
  0xFBB1, 0x01AE, 0x022B, 0x034B, 0xFB1D, 0x0367, 0x060E, 0x0069,
  0x01A6, 0x024B, 0x00B1, 0xFF15, 0xFEDD, 0xFE34, 0x0626, 0x0675,
  0xFF0A, 0x030A, 0x0487, 0xFF6D, 0xFCF7, 0x05CB, 0xFDA6, 0x045F,
  0xF9CA, 0x0284, 0xFC98, 0x015D, 0x01A2, 0x0149, 0xFF64, 0xFFB5,
  0x0331, 0x0449, 0x025B, 0x0262, 0x052A, 0xFAFB, 0xFA47, 0x0180,
  0xFB41, 0xFF78, 0x04C2, 0xFAC9, 0xFC96, 0x00DC, 0xFB5D, 0xF985,
  0xFB5F, 0xFA06, 0xFB02, 0x031A, 0xFA1A, 0xFCAA, 0xFC9A, 0x01DE,
  0xFF94, 0xFECC, 0x03E4, 0x03DF, 0x03BE, 0xFA4C, 0x05F2, 0x065C]

/-- `static_cast<int16_t>(Zetas[k])` (KyberBase.cpp:71, 98, 236). -/
def zetaAt (k : Nat) : M Int := do return i16 (← rd zetas k)

/-- `KyberBase::MontgomeryReduce` (KyberBase.cpp:27-38). -/
def montgomeryReduce (a : Int) : M Int := do
  let u := i16 (a * QINV)
  let t ← i32 (u * Q)
  let t ← i32 (a - t)
  return i16 (t / 65536)

/-- `V` of `BarrettReduce` (KyberBase.cpp:43). -/
def V : Int := (67108864 + Q / 2) / Q

/-- `KyberBase::BarrettReduce` (KyberBase.cpp:40-49). -/
def barrettReduce (a : Int) : M Int := do
  let x ← i32 (V * a)
  let x ← i32 (x + 33554432)
  let t := i16 (x / 67108864)
  let t := i16 (← i32 (t * Q))
  return i16 (a - t)

/-- `KyberBase::FqMul` (KyberBase.cpp:53-56). -/
def fqMul (a b : Int) : M Int := do montgomeryReduce (← i32 (a * b))

/-- The arithmetic of a butterfly of `Ntt` (KyberBase.cpp:76-78): new coefficients `j` and `j + len`. -/
def butterfly (z x y : Int) : M (Int × Int) := do
  let t ← fqMul z y
  return (i16 (x + t), i16 (x - t))

/-- The arithmetic of a butterfly of `InvNtt` (KyberBase.cpp:103-106). -/
def invButterfly (z x y : Int) : M (Int × Int) := do
  let s ← barrettReduce (i16 (x + y))
  let d ← fqMul z (i16 (y - x))
  return (s, d)

/-- `KyberBase::Ntt` (KyberBase.cpp:58-82). -/
def ntt (r : List Int) : M (List Int) := do
  let (_, r) ← [128, 64, 32, 16, 8, 4, 2].foldlM (fun (s : Nat × List Int) len => sweep zetaAt (· + 1) butterfly len s.1 s.2) (1, r)
  return r

/-- `KyberBase::InvNtt` (KyberBase.cpp:84-115). -/
def invNtt (r : List Int) : M (List Int) := do
  let (_, r) ← [2, 4, 8, 16, 32, 64, 128].foldlM (fun (s : Nat × List Int) len => sweep zetaAt (· - 1) invButterfly len s.1 s.2) (127, r)
  mapLoop (fun x => fqMul x 1441) r

/-- `KyberBase::BaseMul` (KyberBase.cpp:117-124). -/
def baseMul (a0 a1 b0 b1 zeta : Int) : M (Int × Int) := do
  let r0 ← fqMul a1 b1
  let r0 ← fqMul r0 zeta
  let r0 := i16 (r0 + (← fqMul a0 b0))
  let r1 ← fqMul a0 b1
  let r1 := i16 (r1 + (← fqMul a1 b0))
  return (r0, r1)

/-- One of the two calls in the loop of `PolyBaseMulMontgomery` (KyberBase.cpp:236-237) at coefficient `p`. -/
def baseMulAt (a b : List Int) (zeta : Int) (p : Nat) (r : List Int) : M (List Int) := do
  let (r0, r1) ← baseMul (← rd a p) (← rd a (p + 1)) (← rd b p) (← rd b (p + 1)) zeta
  let r ← wr r p r0
  wr r (p + 1) r1

/-- `KyberBase::PolyBaseMulMontgomery` (KyberBase.cpp:232-239). -/
def polyBaseMul (r a b : List Int) : M (List Int) :=
  loopN 64 0 (fun i r => do
    let r ← baseMulAt a b (← zetaAt (64 + i)) (4 * i) r
    baseMulAt a b (i16 (- (← zetaAt (64 + i)))) (4 * i + 2) r) r

/-- `KyberBase::PolyReduce` (KyberBase.cpp:213-219). -/
def polyReduce (r : List Int) : M (List Int) := mapLoop barrettReduce r

/-- `KyberBase::PolyNttv2` (KyberBase.cpp:221-225). -/
def polyNtt (r : List Int) : M (List Int) := do polyReduce (← ntt r)

/-- `KyberBase::PolyToMont` (KyberBase.cpp:241-249); `(1 << 32) % KYBER_Q = 1353`. -/
def polyToMont (r : List Int) : M (List Int) := mapLoop (fun x => do montgomeryReduce (← i32 (x * ((4294967296 : Int) % Q)))) r

/-- `KyberBase::PolyAdd` (KyberBase.cpp:1616-1622). -/
def polyAdd (r a b : List Int) : M (List Int) := loopN 256 0 (fun i r => do wr r i (i16 ((← rd a i) + (← rd b i)))) r

/-- `KyberBase::PolySub` (KyberBase.cpp:1624-1630). -/
def polySub (r a b : List Int) : M (List Int) := loopN 256 0 (fun i r => do wr r i (i16 ((← rd a i) - (← rd b i)))) r

/-- A `Poly` on the stack before its first use; the content is never read. -/
def poly0 : List Int := List.replicate 256 0

/-- Loop body of `PolyVecBaseMulAccMontgomery` (KyberBase.cpp:357-358). -/
def accStep (a b : List (List Int)) (i : Nat) (r : List Int) : M (List Int) := do
  let t ← polyBaseMul poly0 (← rd a i) (← rd b i)
  polyAdd r r t

/-- `KyberBase::PolyVecBaseMulAccMontgomery` (KyberBase.cpp:349-362). -/
def polyVecBaseMulAcc (r : List Int) (a b : List (List Int)) : M (List Int) := do
  let r ← polyBaseMul r (← rd a 0) (← rd b 0)
  let r ← loopN (a.length - 1) 1 (accStep a b) r
  polyReduce r

end Cex.Kyber
