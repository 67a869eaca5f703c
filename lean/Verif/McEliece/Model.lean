import Verif.Base

/-!
# Model of the field arithmetic and the helpers of McEliece (CEX/MPKCUtils.cpp)

`uint16_t` and `uint64_t` are `BitVec 16` and `BitVec 64`; all operations are unsigned and wrap. The shift of a `uint64_t` by a constant below 64 is always defined.
-/

namespace Cex.McEliece

/-- The step `x ^= (t >> 9) ^ (t >> 10) ^ (t >> 12) ^ (t >> 13)` with `t = x & mask` (MPKCUtils.cpp:545-546 and others). -/
def fold (mask x : BitVec 64) : BitVec 64 :=
  let t := x &&& mask
  x ^^^ (t >>> 9 ^^^ t >>> 10 ^^^ t >>> 12 ^^^ t >>> 13)

/-- `return (x & MCELIECE_GFMASK)`. -/
def mask13 (x : BitVec 64) : BitVec 16 := (x &&& 0x1FFF#64).setWidth 16

/-- The product before the reduction (MPKCUtils.cpp:536-543). -/
def clmul (t0 t1 : BitVec 64) : BitVec 64 :=
  (List.range 12).foldl (fun tmp i => tmp ^^^ t0 * (t1 &&& (1#64 <<< (i + 1)))) (t0 * (t1 &&& 1#64))

/-- `GfMultiply` (MPKCUtils.cpp:528-551). -/
def gfMultiply (a b : BitVec 16) : BitVec 16 :=
  mask13 (fold 0xE000#64 (fold 0x1FF0000#64 (clmul (a.setWidth 64) (b.setWidth 64))))

/-- `GfAdd` (MPKCUtils.cpp:512-515). -/
def gfAdd (a b : BitVec 16) : BitVec 16 := a ^^^ b

/-- `GfSq2` (MPKCUtils.cpp:553-578). -/
def gfSq2 (a : BitVec 16) : BitVec 16 :=
  let x := a.setWidth 64
  let x := (x ||| x <<< 24) &&& 0x000000FF000000FF#64
  let x := (x ||| x <<< 12) &&& 0x000F000F000F000F#64
  let x := (x ||| x <<< 6) &&& 0x0303030303030303#64
  let x := (x ||| x <<< 3) &&& 0x1111111111111111#64
  mask13 (fold 0x3FE000#64 (fold 0x7FC00000#64 (fold 0xFF80000000#64 (fold 0x1FF0000000000#64 x))))

/-- `GfSqMul` (MPKCUtils.cpp:580-611). -/
def gfSqMul (a m : BitVec 16) : BitVec 16 :=
  let t0 := a.setWidth 64
  let t1 := m.setWidth 64
  let x := t1 <<< 6 * (t0 &&& 0x40#64)
  let t0 := t0 ^^^ t0 <<< 7
  let x := x ^^^ t1 * (t0 &&& 0x4001#64)
  let x := x ^^^ (t1 * (t0 &&& 0x8002#64)) <<< 1
  let x := x ^^^ (t1 * (t0 &&& 0x10004#64)) <<< 2
  let x := x ^^^ (t1 * (t0 &&& 0x20008#64)) <<< 3
  let x := x ^^^ (t1 * (t0 &&& 0x40010#64)) <<< 4
  let x := x ^^^ (t1 * (t0 &&& 0x80020#64)) <<< 5
  mask13 (fold 0x7E000#64 (fold 0xFF80000#64 (fold 0x1FF0000000#64 x)))

/-- `GfSq2Mul` (MPKCUtils.cpp:613-644). -/
def gfSq2Mul (a m : BitVec 16) : BitVec 16 :=
  let t0 := a.setWidth 64
  let t1 := m.setWidth 64
  let x := t1 <<< 18 * (t0 &&& 0x40#64)
  let t0 := t0 ^^^ t0 <<< 21
  let x := x ^^^ t1 * (t0 &&& 0x10000001#64)
  let x := x ^^^ (t1 * (t0 &&& 0x20000002#64)) <<< 3
  let x := x ^^^ (t1 * (t0 &&& 0x40000004#64)) <<< 6
  let x := x ^^^ (t1 * (t0 &&& 0x80000008#64)) <<< 9
  let x := x ^^^ (t1 * (t0 &&& 0x100000010#64)) <<< 12
  let x := x ^^^ (t1 * (t0 &&& 0x200000020#64)) <<< 15
  mask13 (fold 0x1E000#64 (fold 0x1FE0000#64 (fold 0x3FE000000#64 (fold 0x7FC00000000#64 (fold 0xFF80000000000#64 (fold 0x1FF0000000000000#64 x))))))

/-- `GfFrac` (MPKCUtils.cpp:646-663). -/
def gfFrac (den num : BitVec 16) : BitVec 16 :=
  let tmp_11 := gfSqMul den den
  let tmp_1111 := gfSq2Mul tmp_11 tmp_11
  let out := gfSq2 tmp_1111
  let out := gfSq2Mul out tmp_1111
  let out := gfSq2 out
  let out := gfSq2Mul out tmp_1111
  gfSqMul out num

/-- `GfInv` (MPKCUtils.cpp:665-668). -/
def gfInv (den : BitVec 16) : BitVec 16 := gfFrac den 1

/-- `GfIsZero` (MPKCUtils.cpp:517-526). -/
def gfIsZero (a : BitVec 16) : BitVec 16 := ((a.setWidth 32 - 1#32) >>> 19).setWidth 16

/-- `SameMask` (MPKCUtils.cpp:806-816). -/
def sameMask (x y : BitVec 16) : BitVec 8 := ((~~~(((x ^^^ y).setWidth 32 - 1#32) >>> 31) + 1#32) &&& 0xFF#32).setWidth 8

/-- `Eval` (MPKCUtils.cpp:490-510) of the coefficients `F[0], …, F[SysT]`, the highest last; the loop runs from the highest down. With `SysT = 0` the body runs once with `i = 2^64 - 1` and reads outside of `F`. -/
def eval (f : List (BitVec 16)) (a : BitVec 16) : M (BitVec 16) :=
  match f.reverse with
  | [] => .error .ub
  | [_] => .error .ub
  | c :: l => .ok (l.foldl (fun r c => gfAdd (gfMultiply r a) c) c)

/-- `MinMax32` (MPKCUtils.cpp:769-781) on `int32_t`: the subtraction is undefined when it overflows; `>>` is arithmetic. -/
def minMax32 (a b : BitVec 32) : M (BitVec 32 × BitVec 32) :=
  if b.toInt - a.toInt < -2 ^ 31 ∨ 2 ^ 31 ≤ b.toInt - a.toInt then .error .ub
  else
    let ab := b ^^^ a
    let c := b - a
    let c := c ^^^ (ab &&& (c ^^^ b))
    let c := c.sshiftRight 31 &&& ab
    .ok (a ^^^ c, b ^^^ c)

/-- `MinMax64` (MPKCUtils.cpp:783-793). -/
def minMax64 (a b : BitVec 64) : BitVec 64 × BitVec 64 :=
  let c := (~~~((b - a) >>> 63) + 1#64) &&& (a ^^^ b)
  (a ^^^ c, b ^^^ c)

end Cex.McEliece
