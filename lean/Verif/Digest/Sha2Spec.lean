import Verif.Base
import Verif.IntTools.Spec

/-!
# FIPS 180-4: SHA-256 and SHA-512

Written from the standard, including the constants: the round constants are the fractional bits of the cube
roots of the first primes, the initial values those of the square roots.
-/

namespace Cex.Digest.Fips
open Cex

/-- The eight words of a hash value or of the working variables a…h. -/
structure V8 (w : Nat) where
  a : BitVec w
  b : BitVec w
  c : BitVec w
  d : BitVec w
  e : BitVec w
  f : BitVec w
  g : BitVec w
  h : BitVec w
deriving DecidableEq

/-- Trial division. -/
def isPrime (n : Nat) : Bool := decide (2 ≤ n) && (List.range n).all (fun d => decide (d < 2) || decide (n % d ≠ 0))

/-- The primes below 410 (there are 80). -/
def primes : List Nat := (List.range 410).filter isPrime

/-- The largest `c < 2^k` with `c^e ≤ n`, built bit by bit on top of `c`. -/
def rootFrom (e n : Nat) : (k c : Nat) → Nat
  | 0, c => c
  | k + 1, c => if (c + 2 ^ k) ^ e ≤ n then rootFrom e n k (c + 2 ^ k) else rootFrom e n k c

/-- The first `w` bits of the fractional part of the `e`-th root of `p`. -/
def fracRoot (w e p : Nat) : BitVec w := BitVec.ofNat w (rootFrom e (p * 2 ^ (e * w)) (w + 5) 0)

/-- A member of the SHA-2 family. -/
structure Alg (w : Nat) where
  rounds : Nat
  Sum0 : BitVec w → BitVec w
  Sum1 : BitVec w → BitVec w
  sig0 : BitVec w → BitVec w
  sig1 : BitVec w → BitVec w

/-- FIPS 180-4 section 4.1.2. -/
def alg256 : Alg 32 where
  rounds := 64
  Sum0 x := x.rotateRight 2 ^^^ x.rotateRight 13 ^^^ x.rotateRight 22
  Sum1 x := x.rotateRight 6 ^^^ x.rotateRight 11 ^^^ x.rotateRight 25
  sig0 x := x.rotateRight 7 ^^^ x.rotateRight 18 ^^^ (x >>> 3)
  sig1 x := x.rotateRight 17 ^^^ x.rotateRight 19 ^^^ (x >>> 10)

/-- FIPS 180-4 section 4.1.3. -/
def alg512 : Alg 64 where
  rounds := 80
  Sum0 x := x.rotateRight 28 ^^^ x.rotateRight 34 ^^^ x.rotateRight 39
  Sum1 x := x.rotateRight 14 ^^^ x.rotateRight 18 ^^^ x.rotateRight 41
  sig0 x := x.rotateRight 1 ^^^ x.rotateRight 8 ^^^ (x >>> 7)
  sig1 x := x.rotateRight 19 ^^^ x.rotateRight 61 ^^^ (x >>> 6)

variable {w : Nat}

/-- Section 4.2: the round constants. -/
def Alg.K (A : Alg w) : List (BitVec w) := (primes.take A.rounds).map (fracRoot w 3)

/-- Section 5.3: the initial hash value. -/
def Alg.H0 (_ : Alg w) : V8 w :=
  ⟨fracRoot w 2 2, fracRoot w 2 3, fracRoot w 2 5, fracRoot w 2 7, fracRoot w 2 11, fracRoot w 2 13, fracRoot w 2 17, fracRoot w 2 19⟩

/-- Ch and Maj. -/
def ch (x y z : BitVec w) : BitVec w := (x &&& y) ^^^ (~~~x &&& z)
def maj (x y z : BitVec w) : BitVec w := (x &&& y) ^^^ (x &&& z) ^^^ (y &&& z)

/-- Word `i` of a block, big-endian. -/
def word (w : Nat) (b : List Byte) (i : Nat) : BitVec w := BitVec.ofNat w (beVal ((b.drop (i * (w / 8))).take (w / 8)))

/-- The message schedule. -/
def Alg.W (A : Alg w) (b : List Byte) (t : Nat) : BitVec w :=
  if t < 16 then word w b t
  else A.sig1 (A.W b (t - 2)) + A.W b (t - 7) + A.sig0 (A.W b (t - 15)) + A.W b (t - 16)
termination_by t
decreasing_by all_goals omega

/-- One round: T1, T2 and the shift of the working variables. -/
def Alg.round (A : Alg w) (v : V8 w) (k wt : BitVec w) : V8 w :=
  let t1 := v.h + A.Sum1 v.e + ch v.e v.f v.g + k + wt
  let t2 := A.Sum0 v.a + maj v.a v.b v.c
  ⟨t1 + t2, v.a, v.b, v.c, v.d + t1, v.e, v.f, v.g⟩

/-- Wordwise addition. -/
def V8.add (x y : V8 w) : V8 w :=
  ⟨x.a + y.a, x.b + y.b, x.c + y.c, x.d + y.d, x.e + y.e, x.f + y.f, x.g + y.g, x.h + y.h⟩

/-- Processing of one block. -/
def Alg.compress (A : Alg w) (hv : V8 w) (b : List Byte) : V8 w :=
  (A.K.zipIdx.foldl (fun v kt => A.round v kt.1 (A.W b kt.2)) hv).add hv

/-- A hash function given by an initial value and a compression function. -/
structure MD (w : Nat) where
  H0 : V8 w
  compress : V8 w → List Byte → V8 w

/-- The one with the standard's compression function. -/
def Alg.md (A : Alg w) : MD w := ⟨A.H0, A.compress⟩

/-- Block size in bytes. -/
def MD.rate (_ : MD w) : Nat := 2 * w

/-- Section 5.1: the padding of a message of `n` bytes: a one bit, the fewest zeros, the length in bits. -/
def MD.padding (A : MD w) (n : Nat) : List Byte :=
  0x80 :: List.replicate ((A.rate - (n + 1 + w / 4) % A.rate) % A.rate) 0 ++ beEnc (w / 4) (8 * n)

/-- The compression function over the blocks of a message (a multiple of the block size). -/
def MD.blocks (A : MD w) (hv : V8 w) (m : List Byte) : V8 w :=
  if 0 < w ∧ A.rate ≤ m.length then A.blocks (A.compress hv (m.take A.rate)) (m.drop A.rate) else hv
termination_by m.length
decreasing_by rw [List.length_drop, MD.rate] at *; omega

/-- The words of the hash value, big-endian. -/
def V8.bytes (v : V8 w) : List Byte :=
  beEnc (w / 8) v.a.toNat ++ beEnc (w / 8) v.b.toNat ++ beEnc (w / 8) v.c.toNat ++ beEnc (w / 8) v.d.toNat ++
  beEnc (w / 8) v.e.toNat ++ beEnc (w / 8) v.f.toNat ++ beEnc (w / 8) v.g.toNat ++ beEnc (w / 8) v.h.toNat

/-- The message digest. -/
def MD.hash (A : MD w) (m : List Byte) : List Byte := (A.blocks A.H0 (m ++ A.padding m.length)).bytes

/-- SHA-256 and SHA-512. -/
def sha256 (m : List Byte) : List Byte := alg256.md.hash m
def sha512 (m : List Byte) : List Byte := alg512.md.hash m

end Cex.Digest.Fips
