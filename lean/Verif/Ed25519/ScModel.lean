import Verif.Ec25519.Model32

/-!
# Scalars modulo the order of the base point (CEX/EC25519.cpp:5492-6298)

`Sc25519Reduce` and `Sc25519MulAdd` are straight-line programs on 24 variables `s0`…`s23` of type `int64_t`. The sequence of their statements is given as data:
one `Op` stands for the three statements of a carry or the six of a fold, in the order of the source. A signed operation that overflows is undefined; `s -= carry *
(1ULL << 21)` is unsigned and wraps; a right shift of a negative number is arithmetic.
-/

namespace Cex.Ed25519

open Cex.Ec25519

/-- the statements -/
inductive Op where
  /-- `s(j-12) += s(j) * 666643; … s(j-7) -= s(j) * 683901;` -/
  | fold (j : Nat)
  /-- `carry = (s(i) + (1LL << 20)) >> 21; s(i+1) += carry; s(i) -= carry * (1ULL << 21);` -/
  | round (i : Nat)
  /-- the same with `1ULL << 20`: the sum and the shift are unsigned -/
  | roundU (i : Nat)
  /-- `carry = s(i) >> 21; s(i+1) += carry; s(i) -= carry * (1ULL << 21);` -/
  | carry (i : Nat)
  /-- `s(i) = 0;` -/
  | zero (i : Nat)

/-- `s(i) += s(j) * c` or `s(i) -= s(j) * c` -/
def mac (i j : Nat) (neg : Bool) (c : Int) (s : List Int) : M (List Int) := do
  let p ← ck64 ((← rd s j) * c)
  let x ← rd s i
  wr s i (← ck64 (if neg then x - p else x + p))

/-- the last two statements of a carry -/
def carryBy (i : Nat) (c : Int) (s : List Int) : M (List Int) := do
  let s ← wr s (i + 1) (← ck64 ((← rd s (i + 1)) + c))
  wr s i (i64 ((← rd s i) - c * 2 ^ 21))

/-- one `Op` -/
def Op.exec : Op → List Int → M (List Int)
  | .fold j, s => do
    let s ← mac (j - 12) j false 666643 s
    let s ← mac (j - 11) j false 470296 s
    let s ← mac (j - 10) j false 654183 s
    let s ← mac (j - 9) j true 997805 s
    let s ← mac (j - 8) j false 136657 s
    mac (j - 7) j true 683901 s
  | .round i, s => do
    let x ← ck64 ((← rd s i) + 2 ^ 20)
    carryBy i (x / 2 ^ 21) s
  | .roundU i, s => do
    let x := ((← rd s i) + 2 ^ 20) % 2 ^ 64
    carryBy i (x / 2 ^ 21) s
  | .carry i, s => do
    carryBy i ((← rd s i) / 2 ^ 21) s
  | .zero i, s => wr s i 0

def run : List Op → List Int → M (List Int)
  | [], s => .ok s
  | o :: os, s => do run os (← o.exec s)

/-- common to both functions (CEX/EC25519.cpp:6099-6223, 5768-5892) -/
def tailOps : List Op :=
  [.fold 17, .fold 16, .fold 15, .fold 14, .fold 13, .fold 12, .zero 12,
   .round 0, .round 2, .round 4, .round 6, .round 8, .round 10, .round 1, .round 3, .round 5, .round 7, .round 9, .round 11, .fold 12, .zero 12,
   .carry 0, .carry 1, .carry 2, .carry 3, .carry 4, .carry 5, .carry 6, .carry 7, .carry 8, .carry 9, .carry 10, .carry 11]
/-- the last fold and the last carries (CEX/EC25519.cpp:6225-6264, 5894-5933) -/
def lastOps : List Op :=
  [.fold 12, .carry 0, .carry 1, .carry 2, .carry 3, .carry 4, .carry 5, .carry 6, .carry 7, .carry 8, .carry 9, .carry 10]

/-- `Sc25519Reduce` up to the carry of `s8` (CEX/EC25519.cpp:6022-6069) -/
def redOps : List Op := [.fold 23, .fold 22, .fold 21, .fold 20, .fold 19, .fold 18, .round 6, .round 8]
/-- the carry of `s10` and what follows (CEX/EC25519.cpp:6070-6097) -/
def redOps2 : List Op := [.roundU 10, .round 12, .round 14, .round 16, .round 7, .round 9, .round 11, .round 13, .round 15]

/-- `Sc25519MulAdd` after the products (CEX/EC25519.cpp:5620-5766) -/
def mulOps : List Op :=
  [.round 0, .round 2, .round 4, .round 6, .round 8, .round 10, .round 12, .round 14, .round 16, .round 18, .round 20, .round 22,
   .round 1, .round 3, .round 5, .round 7, .round 9, .round 11, .round 13, .round 15, .round 17, .round 19, .round 21,
   .fold 23, .fold 22, .fold 21, .fold 20, .fold 19, .fold 18,
   .round 6, .round 8, .round 10, .round 12, .round 14, .round 16, .round 7, .round 9, .round 11, .round 13, .round 15]

/-- the bytes, the offset and the shift of each limb (CEX/EC25519.cpp:5997-6020); the first twelve are those of `Sc25519MulAdd` -/
def limbRows : List (Nat × Nat × Nat) :=
  [(3, 0, 0), (4, 2, 5), (3, 5, 2), (4, 7, 7), (4, 10, 4), (3, 13, 1), (4, 15, 6), (3, 18, 3), (3, 21, 0), (4, 23, 5), (3, 26, 2), (4, 28, 7),
   (4, 31, 4), (3, 34, 1), (4, 36, 6), (3, 39, 3), (3, 42, 0), (4, 44, 5), (3, 47, 2), (4, 49, 7), (4, 52, 4), (3, 55, 1), (4, 57, 6), (4, 60, 3)]

/-- a load of 3 or 4 bytes -/
def loadN (n : Nat) (b : List Byte) (off : Nat) : M Nat := if n = 3 then load3 b off else load4 b off

/-- limb `i` of `n`: `2097151 & (load >> shift)`; the last one is not masked -/
def loadLimb (n : Nat) (b : List Byte) (i : Nat) : M Int := do
  let r ← rd limbRows i
  let v := (← loadN r.1 b r.2.1) >>> r.2.2
  return ((if i + 1 = n then v else 2097151 &&& v : Nat) : Int)

/-- the limbs of a scalar -/
def loadLimbs (n : Nat) (b : List Byte) : M (List Int) :=
  loopN n 0 (fun i s => do return s ++ [← loadLimb n b i]) []

/-- the limb, the shift, and the factor of the next limb of each byte (CEX/EC25519.cpp:6266-6297, 5935-5966) -/
def byteRows : List (Nat × Nat × Option Nat) :=
  [(0, 0, none), (0, 8, none), (0, 16, some 5), (1, 3, none), (1, 11, none), (1, 19, some 2), (2, 6, none), (2, 14, some 7), (3, 1, none), (3, 9, none), (3, 17, some 4),
   (4, 4, none), (4, 12, none), (4, 20, some 1), (5, 7, none), (5, 15, some 6), (6, 2, none), (6, 10, none), (6, 18, some 3), (7, 5, none), (7, 13, none),
   (8, 0, none), (8, 8, none), (8, 16, some 5), (9, 3, none), (9, 11, none), (9, 19, some 2), (10, 6, none), (10, 14, some 7), (11, 1, none), (11, 9, none), (11, 17, none)]

/-- byte `k`: `static_cast<uint8_t>((s(i) >> sh) | (s(i+1) * (1ULL << m)))` -/
def limbByte (s : List Int) (k : Nat) : M Byte := do
  let r ← rd byteRows k
  let a := BitVec.ofInt 64 ((← rd s r.1) / 2 ^ r.2.1)
  match r.2.2 with
  | none => return a.setWidth 8
  | some m => return (a ||| (BitVec.ofInt 64 (← rd s (r.1 + 1)) * BitVec.ofNat 64 (2 ^ m))).setWidth 8

/-- the bytes of the limbs at `off` -/
def storeLimbs (s : List Int) (off : Nat) (out : List Byte) : M (List Byte) :=
  loopN 32 0 (fun k out => do wr out (off + k) (← limbByte s k)) out

/-- `Sc25519Reduce` (CEX/EC25519.cpp:5969-6298) -/
def scReduce (b : List Byte) : M (List Byte) := do
  let s ← loadLimbs 24 b
  let s ← run redOps s
  let s ← run redOps2 s
  let s ← run tailOps s
  let s ← run lastOps s
  storeLimbs s 0 b

/-- `c(k)`, for the first twelve sums -/
def addend (c : List Int) (k : Nat) : M Int := if k < 12 then rd c k else pure 0

/-- the sums of products: `s(k) = c(k) + Σ a(i) b(k-i)` (CEX/EC25519.cpp:5595-5618); the sums are written as loops in the order of the source -/
def prodLimb (a b c : List Int) (k : Nat) : M Int := do
  let x ← addend c k
  loopN (min k 11 + 1 - (k - 11)) (k - 11) (fun i x => do
    let p ← ck64 ((← rd a i) * (← rd b (k - i)))
    ck64 (x + p)) x

/-- `Sc25519MulAdd` (CEX/EC25519.cpp:5492-5967) -/
def scMulAdd (out : List Byte) (off : Nat) (a b c : List Byte) : M (List Byte) := do
  let a ← loadLimbs 12 a
  let b ← loadLimbs 12 b
  let c ← loadLimbs 12 c
  let s ← loopN 23 0 (fun k s => do return s ++ [← prodLimb a b c k]) []
  let s := s ++ [0]
  let s ← run mulOps s
  let s ← run tailOps s
  let s ← run lastOps s
  storeLimbs s off out

end Cex.Ed25519
