import Verif.Stream
import Verif.Keccak.PermSpec

/-!
# Sponge, SHA-3, SHAKE (FIPS 202, sections 4-6), cSHAKE and KMAC (SP 800-185)

Byte-aligned forms. `f` is the permutation on 200-byte strings, `r` the rate in bytes.
-/

namespace Cex.Fips202
open Cex

/-- Absorb one block of at most 200 bytes: XOR it to the start of the state, then permute (Algorithm 8, step 6). -/
def block (f : List Byte → List Byte) (s b : List Byte) : List Byte := f (xorBytes s (b ++ List.replicate (200 - b.length) 0))

/-- Absorb the complete blocks of `m`. -/
def absorb (f : List Byte → List Byte) (r : Nat) (s m : List Byte) : List Byte := (Stream.eager r (block f) s m).1

/-- Squeeze `n` bytes (Algorithm 8, steps 7-10). -/
def squeeze (f : List Byte → List Byte) (r : Nat) (s : List Byte) (n : Nat) : List Byte :=
  if 0 < r ∧ r < n then s.take r ++ squeeze f r (f s) (n - r) else s.take n
termination_by n

/-- Domain bits with the first padding bit, zeros, and the last padding bit, completing `l` bytes to whole blocks (5.1, B.2). -/
def pad (r : Nat) (dom : Byte) (l : Nat) : List Byte :=
  if r - l % r = 1 then [dom ||| 0x80] else dom :: (List.replicate (r - l % r - 2) 0 ++ [0x80])

/-- The sponge on `m` followed by its padding. -/
def sponge (f : List Byte → List Byte) (r : Nat) (dom : Byte) (m : List Byte) (n : Nat) : List Byte :=
  squeeze f r (absorb f r (List.replicate 200 0) (m ++ pad r dom m.length)) n

/-- SHA3 with `d` output bytes and rate `200 - 2d` (6.1). -/
def sha3 (d : Nat) (m : List Byte) : List Byte := sponge (keccakP 24) (200 - 2 * d) 0x06 m d

/-- SHAKE with rate `r` (6.2). -/
def shake (f : List Byte → List Byte) (r : Nat) (m : List Byte) (n : Nat) : List Byte := sponge f r 0x1F m n

end Cex.Fips202

namespace Cex.Sp800185
open Cex Fips202

/-- The number of bytes of `x`, at least one (SP 800-185, 2.3.1). -/
def byteLen (x : Nat) : Nat := if x < 256 then 1 else 1 + byteLen (x / 256)

def leftEncode (x : Nat) : List Byte := BitVec.ofNat 8 (byteLen x) :: beEnc (byteLen x) x

def rightEncode (x : Nat) : List Byte := beEnc (byteLen x) x ++ [BitVec.ofNat 8 (byteLen x)]

def encodeString (s : List Byte) : List Byte := leftEncode (8 * s.length) ++ s

/-- Zeros that complete `n` bytes to a multiple of `w`. -/
def fill (w n : Nat) : List Byte := List.replicate ((w - n % w) % w) 0

def bytepad (x : List Byte) (w : Nat) : List Byte :=
  leftEncode w ++ x ++ fill w (leftEncode w ++ x).length

/-- cSHAKE with function name `N` and customization `S` (3.3). -/
def cshake (f : List Byte → List Byte) (r : Nat) (m : List Byte) (n : Nat) (N S : List Byte) : List Byte :=
  if N = [] ∧ S = [] then shake f r m n
  else sponge f r 0x04 (bytepad (encodeString N ++ encodeString S) r ++ m) n

/-- The text that KMAC passes to cSHAKE with function name `N` (4.3). -/
def kmacText (r : Nat) (K X : List Byte) (n : Nat) : List Byte := bytepad (encodeString K) r ++ X ++ rightEncode (8 * n)

def kmacName : List Byte := [0x4B, 0x4D, 0x41, 0x43]

/-- KMAC with key `K`, `n` output bytes and customization `S` (4.3). -/
def kmac (f : List Byte → List Byte) (r : Nat) (K X : List Byte) (n : Nat) (S : List Byte) : List Byte :=
  cshake f r (kmacText r K X n) n kmacName S

end Cex.Sp800185
