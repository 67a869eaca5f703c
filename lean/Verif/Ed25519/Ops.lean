import Verif.Ec25519.Model32

/-!
# Points on the Edwards curve (CEX/EC25519.cpp, path without 128-bit integers)

`Ge25519*` of the `#else` branch. A field element is `F10` of `Verif/Ec25519/Model32.lean`; signed overflow is undefined.
-/

namespace Cex.Ed25519

open Cex.Ec25519

local infixl:65 " +! " => addC
local infixl:70 " *! " => mulC

/-- `Fe25519Neg` (CEX/EC25519.cpp:936-948) -/
def fneg (f : F10) : M F10 := do
  return ⟨← ck32 (-f.a0), ← ck32 (-f.a1), ← ck32 (-f.a2), ← ck32 (-f.a3), ← ck32 (-f.a4),
    ← ck32 (-f.a5), ← ck32 (-f.a6), ← ck32 (-f.a7), ← ck32 (-f.a8), ← ck32 (-f.a9)⟩

/-- one limb of `Fe25519cMov`: `f ^= (f ^ G) & MASK` with `MASK = ~B + 1` (CEX/EC25519.cpp:952, 975-984) -/
def movLimb (B : BitVec 32) (f g : Int) : Int :=
  let mask := ~~~B + 1
  let f := BitVec.ofInt 32 f
  let g := BitVec.ofInt 32 g
  (f ^^^ ((f ^^^ g) &&& mask)).toInt

/-- `Fe25519cMov` (CEX/EC25519.cpp:950-996) -/
def fmov (f g : F10) (B : BitVec 32) : F10 :=
  ⟨movLimb B f.a0 g.a0, movLimb B f.a1 g.a1, movLimb B f.a2 g.a2, movLimb B f.a3 g.a3, movLimb B f.a4 g.a4,
    movLimb B f.a5 g.a5, movLimb B f.a6 g.a6, movLimb B f.a7 g.a7, movLimb B f.a8 g.a8, movLimb B f.a9 g.a9⟩

/-- `Fe25519Sq2` (CEX/EC25519.cpp:1438-1586): the sums of the square, doubled, then the carries -/
def sq2 (f : F10) : M F10 := do
  let f0 := lit f.a0
  let f1 := lit f.a1
  let f2 := lit f.a2
  let f3 := lit f.a3
  let f4 := lit f.a4
  let f5 := lit f.a5
  let f6 := lit f.a6
  let f7 := lit f.a7
  let f8 := lit f.a8
  let f9 := lit f.a9
  let f0x2 := lit 2 *! f0
  let f1x2 := lit 2 *! f1
  let f2x2 := lit 2 *! f2
  let f3x2 := lit 2 *! f3
  let f4x2 := lit 2 *! f4
  let f5x2 := lit 2 *! f5
  let f6x2 := lit 2 *! f6
  let f7x2 := lit 2 *! f7
  let f5x38 := lit 38 *! f5
  let f6x19 := lit 19 *! f6
  let f7x38 := lit 38 *! f7
  let f8x19 := lit 19 *! f8
  let f9x38 := lit 38 *! f9
  let h0 ← (f0 *! f0) +! (f1x2 *! f9x38) +! (f2x2 *! f8x19) +! (f3x2 *! f7x38) +! (f4x2 *! f6x19) +! (f5 *! f5x38)
  let h1 ← (f0x2 *! f1) +! (f2 *! f9x38) +! (f3x2 *! f8x19) +! (f4 *! f7x38) +! (f5x2 *! f6x19)
  let h2 ← (f0x2 *! f2) +! (f1x2 *! f1) +! (f3x2 *! f9x38) +! (f4x2 *! f8x19) +! (f5x2 *! f7x38) +! (f6 *! f6x19)
  let h3 ← (f0x2 *! f3) +! (f1x2 *! f2) +! (f4 *! f9x38) +! (f5x2 *! f8x19) +! (f6 *! f7x38)
  let h4 ← (f0x2 *! f4) +! (f1x2 *! f3x2) +! (f2 *! f2) +! (f5x2 *! f9x38) +! (f6x2 *! f8x19) +! (f7 *! f7x38)
  let h5 ← (f0x2 *! f5) +! (f1x2 *! f4) +! (f2x2 *! f3) +! (f6 *! f9x38) +! (f7x2 *! f8x19)
  let h6 ← (f0x2 *! f6) +! (f1x2 *! f5x2) +! (f2x2 *! f4) +! (f3x2 *! f3) +! (f7x2 *! f9x38) +! (f8 *! f8x19)
  let h7 ← (f0x2 *! f7) +! (f1x2 *! f6) +! (f2x2 *! f5) +! (f3x2 *! f4) +! (f8 *! f9x38)
  let h8 ← (f0x2 *! f8) +! (f1x2 *! f7x2) +! (f2x2 *! f6) +! (f3x2 *! f5x2) +! (f4 *! f4) +! (f9 *! f9x38)
  let h9 ← (f0x2 *! f9) +! (f1x2 *! f8) +! (f2x2 *! f7) +! (f3x2 *! f6) +! (f4x2 *! f5)
  let h0 ← ck64 (h0 + h0)
  let h1 ← ck64 (h1 + h1)
  let h2 ← ck64 (h2 + h2)
  let h3 ← ck64 (h3 + h3)
  let h4 ← ck64 (h4 + h4)
  let h5 ← ck64 (h5 + h5)
  let h6 ← ck64 (h6 + h6)
  let h7 ← ck64 (h7 + h7)
  let h8 ← ck64 (h8 + h8)
  let h9 ← ck64 (h9 + h9)
  carryMul h0 h1 h2 h3 h4 h5 h6 h7 h8 h9

/-- `ge25519p3` (CEX/EC25519.h): extended coordinates -/
structure Ge3 where
  x : F10
  y : F10
  z : F10
  t : F10

/-- `ge25519p2`: projective coordinates -/
structure Ge2 where
  x : F10
  y : F10
  z : F10

/-- `ge25519p1p1`: completed coordinates -/
structure Ge11 where
  x : F10
  y : F10
  z : F10
  t : F10

/-- `ge25519precomp`: an affine point prepared for additions -/
structure Pre where
  yplusx : F10
  yminusx : F10
  xy2d : F10

/-- `Ge25519P3Zero` (CEX/EC25519.cpp:1965-1971) -/
def Ge3.zero : Ge3 := ⟨F10.zero, F10.one, F10.one, F10.zero⟩
/-- `Ge25519PrecompZero` (CEX/EC25519.cpp:1973-1978) -/
def Pre.zero : Pre := ⟨F10.one, F10.one, F10.zero⟩

/-- `Fe25519AddPrecomp` (CEX/EC25519.cpp:1949-1963) -/
def addPre (p : Ge3) (q : Pre) : M Ge11 := do
  let x ← p.y.add p.x
  let y ← p.y.sub p.x
  let z ← x.mul q.yplusx
  let y ← y.mul q.yminusx
  let t ← q.xy2d.mul p.t
  let t0 ← p.z.add p.z
  let x ← z.sub y
  let y ← z.add y
  let z ← t0.add t
  let t ← t0.sub t
  return ⟨x, y, z, t⟩

/-- `Ge25519P2Dbl` (CEX/EC25519.cpp:4728-4741) -/
def p2Dbl (p : Ge2) : M Ge11 := do
  let x ← p.x.sq
  let z ← p.y.sq
  let t ← sq2 p.z
  let y ← p.x.add p.y
  let t0 ← y.sq
  let y ← z.add x
  let z ← z.sub x
  let x ← t0.sub y
  let t ← t.sub z
  return ⟨x, y, z, t⟩

/-- `Ge25519P3Dbl`, `Ge25519P3ToP2` (CEX/EC25519.cpp:4743-4756) -/
def p3Dbl (p : Ge3) : M Ge11 := p2Dbl ⟨p.x, p.y, p.z⟩

/-- `Ge25519P1P1ToP3` (CEX/EC25519.cpp:4765-4771) -/
def Ge11.toP3 (p : Ge11) : M Ge3 := do
  return ⟨← p.x.mul p.t, ← p.y.mul p.z, ← p.z.mul p.t, ← p.x.mul p.y⟩

/-- `Ge25519P1P1ToP2` (CEX/EC25519.cpp:4773-4778) -/
def Ge11.toP2 (p : Ge11) : M Ge2 := do
  return ⟨← p.x.mul p.t, ← p.y.mul p.z, ← p.z.mul p.t⟩

/-- `Ge25519cMov` (CEX/EC25519.cpp:1980-1985) -/
def Pre.mov (t u : Pre) (B : Byte) : Pre :=
  ⟨fmov t.yplusx u.yplusx (B.setWidth 32), fmov t.yminusx u.yminusx (B.setWidth 32), fmov t.xy2d u.xy2d (B.setWidth 32)⟩

/-- `Ge25519Equal` (CEX/EC25519.cpp:1987-2002); the `int8_t` parameters are converted back to bytes -/
def geEqual (b c : Byte) : Byte :=
  let x := b ^^^ c
  let y : BitVec 32 := x.setWidth 32 - 1
  (y >>> 31).setWidth 8

/-- `EcdsaBaseNegative` (CEX/EC25519.cpp:48-56): the sign bit of the value extended to 64 bits -/
def negBit (b : Int) : Byte := (BitVec.ofInt 64 b >>> 63).setWidth 8

/-- `BABS = B - (((~BNEG + 1) & B) * (1 << 1))` in `int`, stored in a byte (CEX/EC25519.cpp:2008) -/
def absByte (b : Int) : Byte :=
  let n : BitVec 32 := ~~~((negBit b).setWidth 32) + 1
  let b := BitVec.ofInt 32 b
  (b - (n &&& b) * 2).setWidth 8

/-- `Ge25519cMov8` (CEX/EC25519.cpp:2004-2025); the eight moves are written as a loop; `b` is an `int8_t` -/
def mov8 (row : List Pre) (b : Int) : M Pre := do
  let t ← loopN 8 0 (fun j t => do return t.mov (← rd row j) (geEqual (absByte b) (BitVec.ofNat 8 (j + 1)))) Pre.zero
  let m : Pre := ⟨t.yminusx, t.yplusx, ← fneg t.xy2d⟩
  return t.mov m (negBit b)

/-- conversion to `int8_t` -/
def i8 (x : Int) : Int := (x + 128) % 256 - 128

/-- the digits `e` of `Ge25519ScalarBase` (CEX/EC25519.cpp:4789-4807): nibbles, then digits from -8 to 8 -/
def recode (a : List Byte) : M (List Int) := do
  let e ← loopN 32 0 (fun i e => do
    let e ← wr e (2 * i) (((← rd a i) &&& 15).toNat : Int)
    wr e (2 * i + 1) ((((← rd a i) >>> 4) &&& 15).toNat : Int)) (List.replicate 64 0)
  let (e, carry) ← loopN 63 0 (fun i (s : List Int × Int) => do
    let x := i8 ((← rd s.1 i) + s.2)
    let carry := i8 (x + 8) / 16
    let e ← wr s.1 i (i8 (x - carry * 16))
    return (e, carry)) (e, 0)
  wr e 63 (i8 ((← rd e 63) + carry))

/-- one addition of a table entry: `Ge25519cMov8Base`, `Fe25519AddPrecomp`, `Ge25519P1P1ToP3` (CEX/EC25519.cpp:4814-4816, 4725) -/
def addDigit (base : List (List Pre)) (e : List Int) (i : Nat) (h : Ge3) : M Ge3 := do
  let t ← mov8 (← rd base (i / 2)) (← rd e i)
  (← addPre h t).toP3

/-- four doublings (CEX/EC25519.cpp:4819-4826) -/
def mul16 (h : Ge3) : M Ge3 := do
  let r ← p3Dbl h
  let s ← r.toP2
  let r ← p2Dbl s
  let s ← r.toP2
  let r ← p2Dbl s
  let s ← r.toP2
  let r ← p2Dbl s
  r.toP3

/-- `Ge25519ScalarBase` (CEX/EC25519.cpp:4780-4834) over the table `base` -/
def scalarBase (base : List (List Pre)) (a : List Byte) : M Ge3 := do
  let e ← recode a
  let h ← loopN 32 0 (fun k h => addDigit base e (2 * k + 1) h) Ge3.zero
  let h ← mul16 h
  loopN 32 0 (fun k h => addDigit base e (2 * k) h) h

/-- `EdwardsToMontgomery` (CEX/EC25519.cpp:5253-5262) -/
def toMont (y z : F10) : M F10 := do
  let tx ← z.add y
  let tz ← z.sub y
  let tz ← tz.invert
  tx.mul tz

/-- `ScalarmultCurve25519Ref10Base` (CEX/EC25519.cpp:5264-5281): the buffer `Q` -/
def ref10Base (base : List (List Pre)) (W : Nat) (q n : List Byte) : M (List Byte) := do
  let q ← loopN 32 0 (fun i q => do wr q i (← rd n i)) q
  let q ← clamp q
  let a ← scalarBase base q
  let pk ← toMont a.y a.z
  pk.toBytes W q

/-- `ECDH::Generate(Seed)` with `Ed25519GenerateKeyPair` (CEX/ECDH.cpp:198-214, CEX/ECDHBase.cpp:17-24): public and private key. `digest` is the
`Compute` of the digest of the object, writing to a buffer of 64 bytes. `Generate()` draws the 32 bytes of the seed itself (183-196). -/
def ecdhGenerate (base : List (List Pre)) (W : Nat) (digest : List Byte → M (List Byte)) (seed : List Byte) : M (List Byte × List Byte) := do
  if seed.length ≠ 32 then throw (.throws .invalidParam)
  let tseed ← digest seed
  let sk ← copy tseed 0 (List.replicate 32 0) 0 32
  let pk ← ref10Base base W (List.replicate 32 0) sk
  return (pk, sk)

end Cex.Ed25519
