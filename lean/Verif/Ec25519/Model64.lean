import Verif.Ec25519.Model32
import Verif.IntTools.Model

/-!
# The curve code with 128-bit integers (CEX/EC25519.cpp:119-767, `CEX_SYSTEM_NATIVE_UINT128`)

A field element is five `uint64_t` limbs of 51 bits. Limbs are natural numbers; every unsigned operation is reduced modulo `2^64` or `2^128`.
-/

namespace Cex.Ec25519

/-- a `uint64_t` result -/
def w64 (x : Nat) : Nat := x % 2 ^ 64
/-- a `uint128_t` result -/
def w128 (x : Nat) : Nat := x % 2 ^ 128

/-- `fe25519` as `std::array<uint64_t, 5>` (CEX/EC25519.h:16-17) -/
structure F5 where
  a0 : Nat
  a1 : Nat
  a2 : Nat
  a3 : Nat
  a4 : Nat
  deriving DecidableEq, Repr

/-- `Fe25519Zero` (CEX/EC25519.cpp:175-178) -/
def F5.zero : F5 := ⟨0, 0, 0, 0, 0⟩
/-- `Fe25519One` (CEX/EC25519.cpp:180-184) -/
def F5.one : F5 := ⟨1, 0, 0, 0, 0⟩

/-- `Fe25519Add` (CEX/EC25519.cpp:186-205) -/
def F5.add (f g : F5) : F5 := ⟨w64 (f.a0 + g.a0), w64 (f.a1 + g.a1), w64 (f.a2 + g.a2), w64 (f.a3 + g.a3), w64 (f.a4 + g.a4)⟩

/-- `(f + c) - h` in `uint64_t` (CEX/EC25519.cpp:234-238) -/
def subLimb (f c h : Nat) : Nat := w64 (w64 (f + c) + (2 ^ 64 - h))

/-- `Fe25519Sub` (CEX/EC25519.cpp:207-245) -/
def F5.sub (f g : F5) : F5 :=
  let h1 := w64 (g.a1 + g.a0 / 2 ^ 51)
  let h0 := g.a0 % 2 ^ 51
  let h2 := w64 (g.a2 + h1 / 2 ^ 51)
  let h1 := h1 % 2 ^ 51
  let h3 := w64 (g.a3 + h2 / 2 ^ 51)
  let h2 := h2 % 2 ^ 51
  let h4 := w64 (g.a4 + h3 / 2 ^ 51)
  let h3 := h3 % 2 ^ 51
  let h0 := w64 (h0 + 19 * (h4 / 2 ^ 51))
  let h4 := h4 % 2 ^ 51
  ⟨subLimb f.a0 0xFFFFFFFFFFFDA h0, subLimb f.a1 0xFFFFFFFFFFFFE h1, subLimb f.a2 0xFFFFFFFFFFFFE h2,
    subLimb f.a3 0xFFFFFFFFFFFFE h3, subLimb f.a4 0xFFFFFFFFFFFFE h4⟩

/-- one limb of `Fe25519cSwap`: `x = (f ^ g) & MASK` with `const uint64_t MASK = ~B + 1` for a `uint32_t B`: the negation is one of 32 bits,
so that the upper half of the mask is zero (CEX/EC25519.cpp:304, 333-355) -/
def swapLimb64 (B : BitVec 32) (f g : Nat) : Nat × Nat :=
  let x := (f ^^^ g) &&& (~~~B + 1).toNat
  (f ^^^ x, g ^^^ x)

/-- `Fe25519cSwap` (CEX/EC25519.cpp:299-356) -/
def F5.cSwap (f g : F5) (B : BitVec 32) : F5 × F5 :=
  (⟨(swapLimb64 B f.a0 g.a0).1, (swapLimb64 B f.a1 g.a1).1, (swapLimb64 B f.a2 g.a2).1, (swapLimb64 B f.a3 g.a3).1, (swapLimb64 B f.a4 g.a4).1⟩,
   ⟨(swapLimb64 B f.a0 g.a0).2, (swapLimb64 B f.a1 g.a1).2, (swapLimb64 B f.a2 g.a2).2, (swapLimb64 B f.a3 g.a3).2, (swapLimb64 B f.a4 g.a4).2⟩)

/-- `Fe25519Copy(H, F)`: `F.size() * sizeof(5)` = 20 bytes, that is two limbs and the low half of the third (CEX/EC25519.cpp:358-361) -/
def F5.copy (h f : F5) : F5 := ⟨f.a0, f.a1, f.a2 % 2 ^ 32 + h.a2 / 2 ^ 32 * 2 ^ 32, h.a3, h.a4⟩

/-- the carries after the products (CEX/EC25519.cpp:436-462, 513-539) -/
def carry5 (r0 r1 r2 r3 r4 : Nat) : F5 :=
  let r00 := r0 % 2 ^ 51
  let r1 := w128 (r1 + w64 (r0 / 2 ^ 51))
  let r01 := r1 % 2 ^ 51
  let r2 := w128 (r2 + w64 (r1 / 2 ^ 51))
  let r02 := r2 % 2 ^ 51
  let r3 := w128 (r3 + w64 (r2 / 2 ^ 51))
  let r03 := r3 % 2 ^ 51
  let r4 := w128 (r4 + w64 (r3 / 2 ^ 51))
  let r04 := r4 % 2 ^ 51
  let r00 := w64 (r00 + w64 (19 * w64 (r4 / 2 ^ 51)))
  let r01 := r01 + r00 / 2 ^ 51
  let r00 := r00 % 2 ^ 51
  let r02 := r02 + w64 (r01 / 2 ^ 51)
  let r01 := r01 % 2 ^ 51
  ⟨r00, r01, w64 r02, r03, r04⟩

/-- `Fe25519Mul` (CEX/EC25519.cpp:383-463) -/
def F5.mul (f g : F5) : F5 :=
  carry5
    (w128 (f.a0 * g.a0 + 19 * f.a1 * g.a4 + 19 * f.a2 * g.a3 + 19 * f.a3 * g.a2 + 19 * f.a4 * g.a1))
    (w128 (f.a0 * g.a1 + f.a1 * g.a0 + 19 * f.a2 * g.a4 + 19 * f.a3 * g.a3 + 19 * f.a4 * g.a2))
    (w128 (f.a0 * g.a2 + f.a1 * g.a1 + f.a2 * g.a0 + 19 * f.a3 * g.a4 + 19 * f.a4 * g.a3))
    (w128 (f.a0 * g.a3 + f.a1 * g.a2 + f.a2 * g.a1 + f.a3 * g.a0 + 19 * f.a4 * g.a4))
    (w128 (f.a0 * g.a4 + f.a1 * g.a3 + f.a2 * g.a2 + f.a3 * g.a1 + f.a4 * g.a0))

/-- `Fe25519Sq` (CEX/EC25519.cpp:465-540) -/
def F5.sq (f : F5) : F5 :=
  carry5
    (w128 (f.a0 * f.a0 + 38 * f.a1 * f.a4 + 38 * f.a2 * f.a3))
    (w128 (2 * f.a0 * f.a1 + 38 * f.a2 * f.a4 + 19 * f.a3 * f.a3))
    (w128 (2 * f.a0 * f.a2 + f.a1 * f.a1 + 38 * f.a3 * f.a4))
    (w128 (2 * f.a0 * f.a3 + 2 * f.a1 * f.a2 + 19 * f.a4 * f.a4))
    (w128 (2 * f.a0 * f.a4 + 2 * f.a1 * f.a3 + f.a2 * f.a2))

/-- `Fe25519Mul32` (CEX/EC25519.cpp:625-654) -/
def F5.mul32 (f : F5) (n : Nat) : F5 :=
  let a := w128 (f.a0 * n)
  let h0 := a % 2 ^ 51
  let a := w128 (f.a1 * n + w64 (a / 2 ^ 51))
  let h1 := a % 2 ^ 51
  let a := w128 (f.a2 * n + w64 (a / 2 ^ 51))
  let h2 := a % 2 ^ 51
  let a := w128 (f.a3 * n + w64 (a / 2 ^ 51))
  let h3 := a % 2 ^ 51
  let a := w128 (f.a4 * n + w64 (a / 2 ^ 51))
  let h4 := a % 2 ^ 51
  ⟨w64 (h0 + w64 (w64 (a / 2 ^ 51) * 19)), h1, h2, h3, h4⟩

/-- `Fe25519FromBytes` (CEX/EC25519.cpp:656-676); `LeBytesTo64` reads eight bytes -/
def F5.fromBytes (s : List Byte) : M F5 := do
  let l0 ← slice s 0 8
  let l1 ← slice s 6 8
  let l2 ← slice s 12 8
  let l3 ← slice s 19 8
  let l4 ← slice s 24 8
  return ⟨leVal l0 % 2 ^ 51, leVal l1 / 2 ^ 3 % 2 ^ 51, leVal l2 / 2 ^ 6 % 2 ^ 51, leVal l3 / 2 ^ 1 % 2 ^ 51, leVal l4 / 2 ^ 12 % 2 ^ 51⟩

/-- `t[1] += t[0] >> 51; t[0] &= MASK; ... t[0] += 19 * (t[4] >> 51); t[4] &= MASK` (CEX/EC25519.cpp:689-698, 700-709, 714-723) -/
def wrapPass (t : F5) : F5 :=
  let t1 := w128 (t.a1 + t.a0 / 2 ^ 51)
  let t0 := t.a0 % 2 ^ 51
  let t2 := w128 (t.a2 + t1 / 2 ^ 51)
  let t1 := t1 % 2 ^ 51
  let t3 := w128 (t.a3 + t2 / 2 ^ 51)
  let t2 := t2 % 2 ^ 51
  let t4 := w128 (t.a4 + t3 / 2 ^ 51)
  let t3 := t3 % 2 ^ 51
  let t0 := w128 (t0 + 19 * (t4 / 2 ^ 51))
  ⟨t0, t1, t2, t3, t4 % 2 ^ 51⟩

/-- `Fe25519Reduce` (CEX/EC25519.cpp:678-748); the limbs are `uint128_t` here -/
def F5.reduce (f : F5) : F5 :=
  let t := wrapPass f
  let t := wrapPass t
  let t := wrapPass { t with a0 := w128 (t.a0 + 19) }
  let t0 := w128 (t.a0 + (0x8000000000000 - 19))
  let t1 := w128 (t.a1 + (0x8000000000000 - 1))
  let t2 := w128 (t.a2 + (0x8000000000000 - 1))
  let t3 := w128 (t.a3 + (0x8000000000000 - 1))
  let t4 := w128 (t.a4 + (0x8000000000000 - 1))
  let t1 := w128 (t1 + t0 / 2 ^ 51)
  let t0 := t0 % 2 ^ 51
  let t2 := w128 (t2 + t1 / 2 ^ 51)
  let t1 := t1 % 2 ^ 51
  let t3 := w128 (t3 + t2 / 2 ^ 51)
  let t2 := t2 % 2 ^ 51
  let t4 := w128 (t4 + t3 / 2 ^ 51)
  let t3 := t3 % 2 ^ 51
  ⟨w64 t0, w64 t1, w64 t2, w64 t3, w64 (t4 % 2 ^ 51)⟩

/-- `Fe25519ToBytes` (CEX/EC25519.cpp:750-767); `Le64ToBytes` writes eight bytes -/
def F5.toBytes (s : List Byte) (h : F5) : M (List Byte) := do
  let t := h.reduce
  let s ← blit s 0 (leEnc 8 (t.a0 ||| w64 (t.a1 * 2 ^ 51)))
  let s ← blit s 8 (leEnc 8 (t.a1 / 2 ^ 13 ||| w64 (t.a2 * 2 ^ 38)))
  let s ← blit s 16 (leEnc 8 (t.a2 / 2 ^ 26 ||| w64 (t.a3 * 2 ^ 25)))
  blit s 24 (leEnc 8 (t.a3 / 2 ^ 39 ||| w64 (t.a4 * 2 ^ 12)))

/-- `n` squarings in place -/
def F5.sqn : Nat → F5 → F5
  | 0, f => f
  | n + 1, f => F5.sqn n f.sq

/-- `Fe25519Invert` (CEX/EC25519.cpp:1871-1947) -/
def F5.invert (z : F5) : F5 :=
  let t0 := z.sq
  let t1 := t0.sq
  let t1 := t1.sq
  let t1 := z.mul t1
  let t0 := t0.mul t1
  let t2 := t0.sq
  let t1 := t1.mul t2
  let t2 := t1.sq
  let t2 := t2.sqn 4
  let t1 := t2.mul t1
  let t2 := t1.sq
  let t2 := t2.sqn 9
  let t2 := t2.mul t1
  let t3 := t2.sq
  let t3 := t3.sqn 19
  let t2 := t3.mul t2
  let t2 := t2.sqn 10
  let t1 := t2.mul t1
  let t2 := t1.sq
  let t2 := t2.sqn 49
  let t2 := t2.mul t1
  let t3 := t2.sq
  let t3 := t3.sqn 99
  let t2 := t3.mul t2
  let t2 := t2.sqn 50
  let t1 := t2.mul t1
  let t1 := t1.sqn 5
  t1.mul t0

/-- the arithmetic of one turn of the ladder (CEX/EC25519.cpp:5329-5346) -/
def step64 (x1 x2 z2 x3 z3 : F5) (swap : BitVec 32) : Vars F5 :=
  let a := x2.add z2
  let b := x2.sub z2
  let aa := a.sq
  let bb := b.sq
  let x2 := aa.mul bb
  let e := aa.sub bb
  let da := x3.sub z3
  let da := da.mul a
  let cb := x3.add z3
  let cb := cb.mul b
  let x3 := da.add cb
  let x3 := x3.sq
  let z3 := da.sub cb
  let z3 := z3.sq
  let z3 := z3.mul x1
  let z2 := e.mul32 121666
  let z2 := z2.add bb
  let z2 := z2.mul e
  ⟨x2, z2, x3, z3, swap⟩

/-- one turn of the ladder (CEX/EC25519.cpp:5323-5346) -/
def turn64 (q : List Byte) (x1 : F5) (pos : Nat) (v : Vars F5) : M (Vars F5) := do
  let bit := (((← rd q (pos / 8)).setWidth 32 : BitVec 32) >>> (pos % 8)) &&& 1
  let swap := v.swap ^^^ bit
  let (x2, x3) := v.x2.cSwap v.x3 swap
  let (z2, z3) := v.z2.cSwap v.z3 swap
  return step64 x1 x2 z2 x3 z3 bit

/-- `ScalarMultCurve25519Ref10` (CEX/EC25519.cpp:5283-5356) -/
def ref10x64 (q n p : List Byte) : M (Int × List Byte) := do
  if ← smallOrder p then return (-1, q)
  let q ← loopN 32 0 (fun i q => do wr q i (← rd n i)) q
  let q ← clamp q
  let x1 ← F5.fromBytes p
  let x3 := F5.zero.copy x1
  let v ← loopN 255 0 (fun j v => turn64 q x1 (254 - j) v) ⟨F5.one, F5.zero, x3, F5.one, 0⟩
  let (x2, _) := v.x2.cSwap v.x3 v.swap
  let (z2, _) := v.z2.cSwap v.z3 v.swap
  let z2 := z2.invert
  let x2 := x2.mul z2
  let q ← x2.toBytes q
  return (0, q)

end Cex.Ec25519
