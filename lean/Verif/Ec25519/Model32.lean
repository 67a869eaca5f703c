import Verif.Base
import Verif.IntTools.Spec

/-!
# The curve code without 128-bit integers (CEX/EC25519.cpp, `#else` branch)

A field element is ten `int32_t` limbs of 26 and 25 bits in turn. Limbs are integers; every signed
operation checks the range of its C++ type and is undefined outside of it. Unsigned operations and
narrowing casts wrap.

`unsigned long` (the `1UL` of `Fe25519Reduce`) has 32 bits on Windows and 64 elsewhere: the width is
the parameter `W`.
-/

namespace Cex.Ec25519

/-- a signed 64-bit result -/
def ck64 (x : Int) : M Int := if -2 ^ 63 ≤ x ∧ x < 2 ^ 63 then .ok x else .error .ub
/-- a signed 32-bit result -/
def ck32 (x : Int) : M Int := if -2 ^ 31 ≤ x ∧ x < 2 ^ 31 then .ok x else .error .ub
/-- conversion to `int64_t` -/
def i64 (x : Int) : Int := (x + 2 ^ 63) % 2 ^ 64 - 2 ^ 63
/-- conversion to `int32_t` -/
def i32 (x : Int) : Int := (x + 2 ^ 31) % 2 ^ 32 - 2 ^ 31

/-- a value -/
def lit (x : Int) : M Int := .ok x
/-- `int64_t` addition -/
def addC (x y : M Int) : M Int := do ck64 ((← x) + (← y))
/-- `int64_t` multiplication -/
def mulC (x y : M Int) : M Int := do ck64 ((← x) * (← y))
local infixl:65 " +! " => addC
local infixl:70 " *! " => mulC

/-- `fe25519` as `std::array<int32_t, 10>` (CEX/EC25519.h) -/
structure F10 where
  a0 : Int
  a1 : Int
  a2 : Int
  a3 : Int
  a4 : Int
  a5 : Int
  a6 : Int
  a7 : Int
  a8 : Int
  a9 : Int
  deriving DecidableEq, Repr

/-- `Fe25519Zero` (CEX/EC25519.cpp:789-792) -/
def F10.zero : F10 := ⟨0, 0, 0, 0, 0, 0, 0, 0, 0, 0⟩
/-- `Fe25519One` (CEX/EC25519.cpp:794-798) -/
def F10.one : F10 := ⟨1, 0, 0, 0, 0, 0, 0, 0, 0, 0⟩

/-- `Fe25519Add` (CEX/EC25519.cpp:800-812) -/
def F10.add (f g : F10) : M F10 := do
  return ⟨← ck32 (f.a0 + g.a0), ← ck32 (f.a1 + g.a1), ← ck32 (f.a2 + g.a2), ← ck32 (f.a3 + g.a3), ← ck32 (f.a4 + g.a4),
    ← ck32 (f.a5 + g.a5), ← ck32 (f.a6 + g.a6), ← ck32 (f.a7 + g.a7), ← ck32 (f.a8 + g.a8), ← ck32 (f.a9 + g.a9)⟩

/-- `Fe25519Sub` (CEX/EC25519.cpp:915-934) -/
def F10.sub (f g : F10) : M F10 := do
  return ⟨← ck32 (f.a0 - g.a0), ← ck32 (f.a1 - g.a1), ← ck32 (f.a2 - g.a2), ← ck32 (f.a3 - g.a3), ← ck32 (f.a4 - g.a4),
    ← ck32 (f.a5 - g.a5), ← ck32 (f.a6 - g.a6), ← ck32 (f.a7 - g.a7), ← ck32 (f.a8 - g.a8), ← ck32 (f.a9 - g.a9)⟩

/-- one limb of `Fe25519cSwap`: `x = (f ^ g) & MASK` with `MASK = ~B + 1`; the pair `f ^ x`, `g ^ x`
(CEX/EC25519.cpp:816, 870-912) -/
def swapLimb (B : BitVec 32) (f g : Int) : Int × Int :=
  let mask := ~~~B + 1
  let f := BitVec.ofInt 32 f
  let g := BitVec.ofInt 32 g
  let x := (f ^^^ g) &&& mask
  ((f ^^^ x).toInt, (g ^^^ x).toInt)

/-- `Fe25519cSwap` (CEX/EC25519.cpp:814-913) -/
def F10.cSwap (f g : F10) (B : BitVec 32) : F10 × F10 :=
  let s := swapLimb B
  (⟨(s f.a0 g.a0).1, (s f.a1 g.a1).1, (s f.a2 g.a2).1, (s f.a3 g.a3).1, (s f.a4 g.a4).1,
    (s f.a5 g.a5).1, (s f.a6 g.a6).1, (s f.a7 g.a7).1, (s f.a8 g.a8).1, (s f.a9 g.a9).1⟩,
   ⟨(s f.a0 g.a0).2, (s f.a1 g.a1).2, (s f.a2 g.a2).2, (s f.a3 g.a3).2, (s f.a4 g.a4).2,
    (s f.a5 g.a5).2, (s f.a6 g.a6).2, (s f.a7 g.a7).2, (s f.a8 g.a8).2, (s f.a9 g.a9).2⟩)

/-- `carry = (hi + (1LL << (s - 1))) >> s; hj += carry * m; hi -= carry * (1ULL << s);` the last
product is unsigned (CEX/EC25519.cpp:1122-1124 and every later carry of `Mul`, `Sq`, `Sq2`,
`FromBytes`; the `1LL` of `Mul32` 1222-1252 gives the same value) -/
def carry (s : Nat) (m hi hj : Int) : M (Int × Int) := do
  let t ← ck64 (hi + 2 ^ (s - 1))
  let c := t / 2 ^ s
  let d ← ck64 (c * m)
  let hj' ← ck64 (hj + d)
  return (i64 (hi - c * 2 ^ s), hj')

/-- `carry = (h0 + (1ULL << 25)) >> 26` in unsigned arithmetic (CEX/EC25519.cpp:1629-1631) -/
def carryU (hi hj : Int) : M (Int × Int) := do
  let c := i64 ((hi + 2 ^ 25) % 2 ^ 64 / 2 ^ 26)
  let hj' ← ck64 (hj + c)
  return (i64 (hi - c * 2 ^ 26), hj')

/-- the carries after the products and the casts to `int32_t`
(CEX/EC25519.cpp:1122-1192; the same text in 1383-1435 and 1533-1585) -/
def carryMul (h0 h1 h2 h3 h4 h5 h6 h7 h8 h9 : Int) : M F10 := do
  let (h0, h1) ← carry 26 1 h0 h1
  let (h4, h5) ← carry 26 1 h4 h5
  let (h1, h2) ← carry 25 1 h1 h2
  let (h5, h6) ← carry 25 1 h5 h6
  let (h2, h3) ← carry 26 1 h2 h3
  let (h6, h7) ← carry 26 1 h6 h7
  let (h3, h4) ← carry 25 1 h3 h4
  let (h7, h8) ← carry 25 1 h7 h8
  let (h4, h5) ← carry 26 1 h4 h5
  let (h8, h9) ← carry 26 1 h8 h9
  let (h9, h0) ← carry 25 19 h9 h0
  let (h0, h1) ← carry 26 1 h0 h1
  return ⟨i32 h0, i32 h1, i32 h2, i32 h3, i32 h4, i32 h5, i32 h6, i32 h7, i32 h8, i32 h9⟩

/-- `Fe25519Mul` (CEX/EC25519.cpp:1021-1193); the products `19 * g` and `2 * f` that the code keeps in
variables are written out where they are used -/
def F10.mul (f g : F10) : M F10 := do
  let f0 := lit f.a0
  let f1 := lit f.a1
  let f2 := lit f.a2
  let f3 := lit f.a3
  let f4 := lit f.a4
  let f5 := lit f.a5
  let f6 := lit f.a6
  let f7 := lit f.a7
  let f8 := lit f.a8
  let f9 := lit f.a9
  let g0 := lit g.a0
  let g1 := lit g.a1
  let g2 := lit g.a2
  let g3 := lit g.a3
  let g4 := lit g.a4
  let g5 := lit g.a5
  let g6 := lit g.a6
  let g7 := lit g.a7
  let g8 := lit g.a8
  let g9 := lit g.a9
  let g1x19 := lit 19 *! g1
  let g2x19 := lit 19 *! g2
  let g3x19 := lit 19 *! g3
  let g4x19 := lit 19 *! g4
  let g5x19 := lit 19 *! g5
  let g6x19 := lit 19 *! g6
  let g7x19 := lit 19 *! g7
  let g8x19 := lit 19 *! g8
  let g9x19 := lit 19 *! g9
  let f1x2 := lit 2 *! f1
  let f3x2 := lit 2 *! f3
  let f5x2 := lit 2 *! f5
  let f7x2 := lit 2 *! f7
  let f9x2 := lit 2 *! f9
  let h0 ← (f0 *! g0) +! (f1x2 *! g9x19) +! (f2 *! g8x19) +! (f3x2 *! g7x19) +! (f4 *! g6x19) +! (f5x2 *! g5x19) +! (f6 *! g4x19) +! (f7x2 *! g3x19) +! (f8 *! g2x19) +! (f9x2 *! g1x19)
  let h1 ← (f0 *! g1) +! (f1 *! g0) +! (f2 *! g9x19) +! (f3 *! g8x19) +! (f4 *! g7x19) +! (f5 *! g6x19) +! (f6 *! g5x19) +! (f7 *! g4x19) +! (f8 *! g3x19) +! (f9 *! g2x19)
  let h2 ← (f0 *! g2) +! (f1x2 *! g1) +! (f2 *! g0) +! (f3x2 *! g9x19) +! (f4 *! g8x19) +! (f5x2 *! g7x19) +! (f6 *! g6x19) +! (f7x2 *! g5x19) +! (f8 *! g4x19) +! (f9x2 *! g3x19)
  let h3 ← (f0 *! g3) +! (f1 *! g2) +! (f2 *! g1) +! (f3 *! g0) +! (f4 *! g9x19) +! (f5 *! g8x19) +! (f6 *! g7x19) +! (f7 *! g6x19) +! (f8 *! g5x19) +! (f9 *! g4x19)
  let h4 ← (f0 *! g4) +! (f1x2 *! g3) +! (f2 *! g2) +! (f3x2 *! g1) +! (f4 *! g0) +! (f5x2 *! g9x19) +! (f6 *! g8x19) +! (f7x2 *! g7x19) +! (f8 *! g6x19) +! (f9x2 *! g5x19)
  let h5 ← (f0 *! g5) +! (f1 *! g4) +! (f2 *! g3) +! (f3 *! g2) +! (f4 *! g1) +! (f5 *! g0) +! (f6 *! g9x19) +! (f7 *! g8x19) +! (f8 *! g7x19) +! (f9 *! g6x19)
  let h6 ← (f0 *! g6) +! (f1x2 *! g5) +! (f2 *! g4) +! (f3x2 *! g3) +! (f4 *! g2) +! (f5x2 *! g1) +! (f6 *! g0) +! (f7x2 *! g9x19) +! (f8 *! g8x19) +! (f9x2 *! g7x19)
  let h7 ← (f0 *! g7) +! (f1 *! g6) +! (f2 *! g5) +! (f3 *! g4) +! (f4 *! g3) +! (f5 *! g2) +! (f6 *! g1) +! (f7 *! g0) +! (f8 *! g9x19) +! (f9 *! g8x19)
  let h8 ← (f0 *! g8) +! (f1x2 *! g7) +! (f2 *! g6) +! (f3x2 *! g5) +! (f4 *! g4) +! (f5x2 *! g3) +! (f6 *! g2) +! (f7x2 *! g1) +! (f8 *! g0) +! (f9x2 *! g9x19)
  let h9 ← (f0 *! g9) +! (f1 *! g8) +! (f2 *! g7) +! (f3 *! g6) +! (f4 *! g5) +! (f5 *! g4) +! (f6 *! g3) +! (f7 *! g2) +! (f8 *! g1) +! (f9 *! g0)
  carryMul h0 h1 h2 h3 h4 h5 h6 h7 h8 h9

/-- `Fe25519Sq` (CEX/EC25519.cpp:1266-1436) -/
def F10.sq (f : F10) : M F10 := do
  let f0 := lit f.a0
  let f1 := lit f.a1
  let f2 := lit f.a2
  let f3 := lit f.a3
  let f4 := lit f.a4
  let f5 := lit f.a5
  let f6 := lit f.a6
  let f7 := lit f.a7
  let f8 := lit f.a8
  let f9 := lit f.a9
  let f0x2 := lit 2 *! f0
  let f1x2 := lit 2 *! f1
  let f2x2 := lit 2 *! f2
  let f3x2 := lit 2 *! f3
  let f4x2 := lit 2 *! f4
  let f5x2 := lit 2 *! f5
  let f6x2 := lit 2 *! f6
  let f7x2 := lit 2 *! f7
  let f5x38 := lit 38 *! f5
  let f6x19 := lit 19 *! f6
  let f7x38 := lit 38 *! f7
  let f8x19 := lit 19 *! f8
  let f9x38 := lit 38 *! f9
  let f0f0 := f0 *! f0
  let f0f1x2 := f0x2 *! f1
  let f0f2x2 := f0x2 *! f2
  let f0f3x2 := f0x2 *! f3
  let f0f4x2 := f0x2 *! f4
  let f0f5x2 := f0x2 *! f5
  let f0f6x2 := f0x2 *! f6
  let f0f7x2 := f0x2 *! f7
  let f0f8x2 := f0x2 *! f8
  let f0f9x2 := f0x2 *! f9
  let f1f1x2 := f1x2 *! f1
  let f1f2x2 := f1x2 *! f2
  let f1f3x4 := f1x2 *! f3x2
  let f1f4x2 := f1x2 *! f4
  let f1f5x4 := f1x2 *! f5x2
  let f1f6x2 := f1x2 *! f6
  let f1f7x4 := f1x2 *! f7x2
  let f1f8x2 := f1x2 *! f8
  let f1f9x76 := f1x2 *! f9x38
  let h0 ← f0f0 +! f1f9x76 +! (f2x2 *! f8x19) +! (f3x2 *! f7x38) +! (f4x2 *! f6x19) +! (f5 *! f5x38)
  let h1 ← f0f1x2 +! (f2 *! f9x38) +! (f3x2 *! f8x19) +! (f4 *! f7x38) +! (f5x2 *! f6x19)
  let h2 ← f0f2x2 +! f1f1x2 +! (f3x2 *! f9x38) +! (f4x2 *! f8x19) +! (f5x2 *! f7x38) +! (f6 *! f6x19)
  let h3 ← f0f3x2 +! f1f2x2 +! (f4 *! f9x38) +! (f5x2 *! f8x19) +! (f6 *! f7x38)
  let h4 ← f0f4x2 +! f1f3x4 +! (f2 *! f2) +! (f5x2 *! f9x38) +! (f6x2 *! f8x19) +! (f7 *! f7x38)
  let h5 ← f0f5x2 +! f1f4x2 +! (f2x2 *! f3) +! (f6 *! f9x38) +! (f7x2 *! f8x19)
  let h6 ← f0f6x2 +! f1f5x4 +! (f2x2 *! f4) +! (f3x2 *! f3) +! (f7x2 *! f9x38) +! (f8 *! f8x19)
  let h7 ← f0f7x2 +! f1f6x2 +! (f2x2 *! f5) +! (f3x2 *! f4) +! (f8 *! f9x38)
  let h8 ← f0f8x2 +! f1f7x4 +! (f2x2 *! f6) +! (f3x2 *! f5x2) +! (f4 *! f4) +! (f9 *! f9x38)
  let h9 ← f0f9x2 +! f1f8x2 +! (f2x2 *! f7) +! (f3x2 *! f6) +! (f4x2 *! f5)
  carryMul h0 h1 h2 h3 h4 h5 h6 h7 h8 h9

/-- `Fe25519Mul32` (CEX/EC25519.cpp:1195-1264) -/
def F10.mul32 (f : F10) (n : Int) : M F10 := do
  let h0 ← lit f.a0 *! lit n
  let h1 ← lit f.a1 *! lit n
  let h2 ← lit f.a2 *! lit n
  let h3 ← lit f.a3 *! lit n
  let h4 ← lit f.a4 *! lit n
  let h5 ← lit f.a5 *! lit n
  let h6 ← lit f.a6 *! lit n
  let h7 ← lit f.a7 *! lit n
  let h8 ← lit f.a8 *! lit n
  let h9 ← lit f.a9 *! lit n
  let (h9, h0) ← carry 25 19 h9 h0
  let (h1, h2) ← carry 25 1 h1 h2
  let (h3, h4) ← carry 25 1 h3 h4
  let (h5, h6) ← carry 25 1 h5 h6
  let (h7, h8) ← carry 25 1 h7 h8
  let (h0, h1) ← carry 26 1 h0 h1
  let (h2, h3) ← carry 26 1 h2 h3
  let (h4, h5) ← carry 26 1 h4 h5
  let (h6, h7) ← carry 26 1 h6 h7
  let (h8, h9) ← carry 26 1 h8 h9
  return ⟨i32 h0, i32 h1, i32 h2, i32 h3, i32 h4, i32 h5, i32 h6, i32 h7, i32 h8, i32 h9⟩

/-- `EcdsaBaseLoad3` (CEX/EC25519.cpp:25-34) -/
def load3 (s : List Byte) (o : Nat) : M Nat := do
  return (← rd s o).toNat ||| (← rd s (o + 1)).toNat <<< 8 ||| (← rd s (o + 2)).toNat <<< 16

/-- `EcdsaBaseLoad4` (CEX/EC25519.cpp:36-46) -/
def load4 (s : List Byte) (o : Nat) : M Nat := do
  return (← rd s o).toNat ||| (← rd s (o + 1)).toNat <<< 8 ||| (← rd s (o + 2)).toNat <<< 16 |||
    (← rd s (o + 3)).toNat <<< 24

/-- `Fe25519FromBytes` (CEX/EC25519.cpp:1588-1655); the loads are below `2^32`, so the shifts do not
lose bits -/
def F10.fromBytes (s : List Byte) : M F10 := do
  let h0 := ((← load4 s 0) : Int)
  let h1 := (((← load3 s 4) <<< 6 : Nat) : Int)
  let h2 := (((← load3 s 7) <<< 5 : Nat) : Int)
  let h3 := (((← load3 s 10) <<< 3 : Nat) : Int)
  let h4 := (((← load3 s 13) <<< 2 : Nat) : Int)
  let h5 := ((← load4 s 16) : Int)
  let h6 := (((← load3 s 20) <<< 7 : Nat) : Int)
  let h7 := (((← load3 s 23) <<< 5 : Nat) : Int)
  let h8 := (((← load3 s 26) <<< 4 : Nat) : Int)
  let h9 := ((((← load3 s 29) &&& 8388607) <<< 2 : Nat) : Int)
  let (h9, h0) ← carry 25 19 h9 h0
  let (h1, h2) ← carry 25 1 h1 h2
  let (h3, h4) ← carry 25 1 h3 h4
  let (h5, h6) ← carry 25 1 h5 h6
  let (h7, h8) ← carry 25 1 h7 h8
  let (h0, h1) ← carryU h0 h1
  let (h2, h3) ← carry 26 1 h2 h3
  let (h4, h5) ← carry 26 1 h4 h5
  let (h6, h7) ← carry 26 1 h6 h7
  let (h8, h9) ← carry 26 1 h8 h9
  return ⟨i32 h0, i32 h1, i32 h2, i32 h3, i32 h4, i32 h5, i32 h6, i32 h7, i32 h8, i32 h9⟩

/-- `carry = hi >> s; hj += carry; hi -= carry * (1UL << s);` in `int32_t`; the last product is
unsigned (CEX/EC25519.cpp:1714-1740) -/
def carry32 (s : Nat) (hi hj : Int) : M (Int × Int) := do
  let c := hi / 2 ^ s
  let hj' ← ck32 (hj + c)
  return (i32 (hi - c * 2 ^ s), hj')

/-- `q = (h + q) >> s` (CEX/EC25519.cpp:1700-1709) -/
def qStep (s : Nat) (h q : Int) : M Int := do return (← ck32 (h + q)) / 2 ^ s

/-- `Fe25519Reduce` (CEX/EC25519.cpp:1657-1754). `q = (19 * h9 + (1UL << 24)) >> 25` is an unsigned
addition and a logical shift of the `W` bits of `unsigned long`. -/
def F10.reduce (W : Nat) (f : F10) : M F10 := do
  let p ← ck32 (19 * f.a9)
  let q := i32 ((p + 2 ^ 24) % 2 ^ W / 2 ^ 25)
  let q ← qStep 26 f.a0 q
  let q ← qStep 25 f.a1 q
  let q ← qStep 26 f.a2 q
  let q ← qStep 25 f.a3 q
  let q ← qStep 26 f.a4 q
  let q ← qStep 25 f.a5 q
  let q ← qStep 26 f.a6 q
  let q ← qStep 25 f.a7 q
  let q ← qStep 26 f.a8 q
  let q ← qStep 25 f.a9 q
  let t ← ck32 (19 * q)
  let h0 ← ck32 (f.a0 + t)
  let (h0, h1) ← carry32 26 h0 f.a1
  let (h1, h2) ← carry32 25 h1 f.a2
  let (h2, h3) ← carry32 26 h2 f.a3
  let (h3, h4) ← carry32 25 h3 f.a4
  let (h4, h5) ← carry32 26 h4 f.a5
  let (h5, h6) ← carry32 25 h5 f.a6
  let (h6, h7) ← carry32 26 h6 f.a7
  let (h7, h8) ← carry32 25 h7 f.a8
  let (h8, h9) ← carry32 26 h8 f.a9
  let c := h9 / 2 ^ 25
  return ⟨h0, h1, h2, h3, h4, h5, h6, h7, h8, i32 (h9 - c * 2 ^ 25)⟩

/-- the low byte of `t >> n` -/
def lo (t : BitVec 32) (n : Nat) : Byte := (t.sshiftRight n).setWidth 8
/-- the low byte of `(t >> n) | (u * (1UL << m))`; it does not depend on the width of `unsigned long` -/
def mix (t : BitVec 32) (n : Nat) (u : BitVec 32) (m : Nat) : Byte :=
  (t.sshiftRight n ||| u * BitVec.ofNat 32 (2 ^ m)).setWidth 8

/-- the 32 bytes of `Fe25519ToBytes` (CEX/EC25519.cpp:1762-1793) -/
def F10.bytes (t : F10) : List Byte :=
  let t0 := BitVec.ofInt 32 t.a0
  let t1 := BitVec.ofInt 32 t.a1
  let t2 := BitVec.ofInt 32 t.a2
  let t3 := BitVec.ofInt 32 t.a3
  let t4 := BitVec.ofInt 32 t.a4
  let t5 := BitVec.ofInt 32 t.a5
  let t6 := BitVec.ofInt 32 t.a6
  let t7 := BitVec.ofInt 32 t.a7
  let t8 := BitVec.ofInt 32 t.a8
  let t9 := BitVec.ofInt 32 t.a9
  [lo t0 0, lo t0 8, lo t0 16, mix t0 24 t1 2, lo t1 6, lo t1 14, mix t1 22 t2 3, lo t2 5, lo t2 13,
   mix t2 21 t3 5, lo t3 3, lo t3 11, mix t3 19 t4 6, lo t4 2, lo t4 10, lo t4 18,
   lo t5 0, lo t5 8, lo t5 16, mix t5 24 t6 1, lo t6 7, lo t6 15, mix t6 23 t7 3, lo t7 5, lo t7 13,
   mix t7 21 t8 4, lo t8 4, lo t8 12, mix t8 20 t9 6, lo t9 2, lo t9 10, lo t9 18]

/-- `Fe25519ToBytes` (CEX/EC25519.cpp:1756-1794): the bytes are written to `S[0..32)` -/
def F10.toBytes (W : Nat) (s : List Byte) (h : F10) : M (List Byte) := do
  let t ← h.reduce W
  blit s 0 t.bytes

/-- `n` squarings in place -/
def F10.sqn (n : Nat) (f : F10) : M F10 := loopN n 1 (fun _ t => t.sq) f

/-- `Fe25519Invert` (CEX/EC25519.cpp:1871-1947) -/
def F10.invert (z : F10) : M F10 := do
  let t0 ← z.sq
  let t1 ← t0.sq
  let t1 ← t1.sq
  let t1 ← z.mul t1
  let t0 ← t0.mul t1
  let t2 ← t0.sq
  let t1 ← t1.mul t2
  let t2 ← t1.sq
  let t2 ← t2.sqn 4
  let t1 ← t2.mul t1
  let t2 ← t1.sq
  let t2 ← t2.sqn 9
  let t2 ← t2.mul t1
  let t3 ← t2.sq
  let t3 ← t3.sqn 19
  let t2 ← t3.mul t2
  let t2 ← t2.sqn 10
  let t1 ← t2.mul t1
  let t2 ← t1.sq
  let t2 ← t2.sqn 49
  let t2 ← t2.mul t1
  let t3 ← t2.sq
  let t3 ← t3.sqn 99
  let t2 ← t3.mul t2
  let t2 ← t2.sqn 50
  let t1 ← t2.mul t1
  let t1 ← t1.sqn 5
  t1.mul t0

/-- the seven encodings of `blocklist` (CEX/EC25519.cpp:5383-5427) -/
def blocklist : List (List Byte) :=
  [List.replicate 32 0,
   1 :: List.replicate 31 0,
   [0xe0, 0xeb, 0x7a, 0x7c, 0x3b, 0x41, 0xb8, 0xae, 0x16, 0x56, 0xe3,
    0xfa, 0xf1, 0x9f, 0xc4, 0x6a, 0xda, 0x09, 0x8d, 0xeb, 0x9c, 0x32,
    0xb1, 0xfd, 0x86, 0x62, 0x05, 0x16, 0x5f, 0x49, 0xb8, 0x00],
   [0x5f, 0x9c, 0x95, 0xbc, 0xa3, 0x50, 0x8c, 0x24, 0xb1, 0xd0, 0xb1,
    0x55, 0x9c, 0x83, 0xef, 0x5b, 0x04, 0x44, 0x5c, 0xc4, 0x58, 0x1c,
    0x8e, 0x86, 0xd8, 0x22, 0x4e, 0xdd, 0xd0, 0x9f, 0x11, 0x57],
   0xec :: List.replicate 30 0xff ++ [0x7f],
   0xed :: List.replicate 30 0xff ++ [0x7f],
   0xee :: List.replicate 30 0xff ++ [0x7f]]

/-- `sizeof(blocklist) / sizeof(blocklist[0])`: both operands are `std::vector` objects, so the quotient
is the size of one vector object by the size of one vector object (24 bytes each on the 64-bit targets;
equal on every implementation), not the number of entries (CEX/EC25519.cpp:5436) -/
def blockCount : Nat := 24 / 24

/-- one entry of the comparison: `c |= S[j] ^ blocklist[i][j]` for the 31 first bytes, then the last
byte without its top bit (CEX/EC25519.cpp:5434-5445) -/
def blockDiff (s e : List Byte) : M Byte := do
  let c ← loopN 31 0 (fun j c => do return c ||| ((← rd s j) ^^^ (← rd e j))) (0 : Byte)
  return c ||| (((← rd s 31) &&& 0x7f) ^^^ (← rd e 31))

/-- `Ed25519SmallOrder` (CEX/EC25519.cpp:5378-5455): `k |= c[i] - 1` has bit 8 set exactly when
some `c[i]` is zero. The two loop nests run entry by entry here; the entries do not interact. -/
def smallOrder (s : List Byte) : M Bool := do
  let k ← loopN blockCount 0 (fun i k => do
    let e ← rd blocklist i
    let c ← blockDiff s e
    return k ||| ((c.setWidth 32 : BitVec 32) - 1)) (0 : BitVec 32)
  return k.getLsbD 8

/-- `Sc25519Clamp` (CEX/EC25519.cpp:5457-5462) -/
def clamp (k : List Byte) : M (List Byte) := do
  let k ← wr k 0 ((← rd k 0) &&& 248)
  let k ← wr k 31 ((← rd k 31) &&& 127)
  wr k 31 ((← rd k 31) ||| 64)

/-- the variables of the ladder: `x2`, `z2`, `x3`, `z3`, `swap` -/
structure Vars (F : Type) where
  x2 : F
  z2 : F
  x3 : F
  z3 : F
  swap : BitVec 32

/-- one turn of the ladder (CEX/EC25519.cpp:5323-5346) -/
def turn32 (q : List Byte) (x1 : F10) (pos : Nat) (v : Vars F10) : M (Vars F10) := do
  let bit := (((← rd q (pos / 8)).setWidth 32 : BitVec 32) >>> (pos % 8)) &&& 1
  let swap := v.swap ^^^ bit
  let (x2, x3) := v.x2.cSwap v.x3 swap
  let (z2, z3) := v.z2.cSwap v.z3 swap
  let swap := bit
  let a ← x2.add z2
  let b ← x2.sub z2
  let aa ← a.sq
  let bb ← b.sq
  let x2 ← aa.mul bb
  let e ← aa.sub bb
  let da ← x3.sub z3
  let da ← da.mul a
  let cb ← x3.add z3
  let cb ← cb.mul b
  let x3 ← da.add cb
  let x3 ← x3.sq
  let z3 ← da.sub cb
  let z3 ← z3.sq
  let z3 ← z3.mul x1
  let z2 ← e.mul32 121666
  let z2 ← z2.add bb
  let z2 ← z2.mul e
  return ⟨x2, z2, x3, z3, swap⟩

/-- `ScalarMultCurve25519Ref10` (CEX/EC25519.cpp:5283-5356): the result and the buffer `Q`;
`Fe25519Copy` copies all ten limbs here (998-1001) -/
def ref10x32 (W : Nat) (q n p : List Byte) : M (Int × List Byte) := do
  if ← smallOrder p then return (-1, q)
  let q ← loopN 32 0 (fun i q => do wr q i (← rd n i)) q
  let q ← clamp q
  let x1 ← F10.fromBytes p
  let v ← loopN 255 0 (fun j v => turn32 q x1 (254 - j) v) ⟨F10.one, F10.zero, x1, F10.one, 0⟩
  let (x2, _) := v.x2.cSwap v.x3 v.swap
  let (z2, _) := v.z2.cSwap v.z3 v.swap
  let z2 ← z2.invert
  let x2 ← x2.mul z2
  let q ← x2.toBytes W q
  return (0, q)

/-- the test of the result (CEX/EC25519.cpp:5363-5375): `-(1 & ((d - 1) >> 8))` is `-1` exactly when
all 32 bytes are zero -/
def isZero (q : List Byte) : M Bool := do
  let d ← loopN 32 0 (fun i d => do return d ||| (← rd q i)) (0 : Byte)
  return ((d.setWidth 32 : BitVec 32) - 1).getLsbD 8

/-- `ScalarMultCurve25519` (CEX/EC25519.cpp:5358-5376) -/
def scalarMult (ref10 : List Byte → List Byte → List Byte → M (Int × List Byte)) (q n p : List Byte) : M (Int × List Byte) := do
  let (r, q) ← ref10 q n p
  if r ≠ 0 then return (-1, q)
  return (if ← isZero q then -1 else 0, q)

/-- `ECDH::KeyExchange` (CEX/ECDH.cpp:160-181, CEX/ECDHBase.cpp:8-15): success and the shared secret.
`secret` is the caller's vector. With a domain key the name of the customisation is built from the
iterators of two temporary strings (CEX/ECDH.cpp:218), which is undefined. -/
def keyExchange (ref10 : List Byte → List Byte → List Byte → M (Int × List Byte)) (domain pub priv secret : List Byte) :
    M (Bool × List Byte) := do
  let (r, sec) ← scalarMult ref10 (List.replicate 32 0) priv pub
  if r = 0 then
    if domain.length ≠ 0 then throw .ub
    let s ← copy sec 0 (secret.take sec.length ++ List.replicate (sec.length - secret.length) 0) 0 sec.length
    return (true, s)
  return (false, secret)

end Cex.Ec25519
