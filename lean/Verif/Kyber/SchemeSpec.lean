import Verif.Lattice.Codec
import Verif.Kyber.Spec
import Verif.Keccak.Spec

/-!
# Kyber, encodings and compression (specification of round 3 of the NIST project, section 1.1 and algorithms 3 and following)
-/

namespace Cex.Spec.Kyber
open Cex Cex.Spec.Lattice

/-- `⌈(2 ^ d / q) x⌋ mod 2 ^ d`, halves rounded up. -/
def compress (d : Nat) (x : F) : Nat := (2 * (2 ^ d * x.val) + 3329) / (2 * 3329) % 2 ^ d

/-- `⌈(q / 2 ^ d) y⌋`, halves rounded up. -/
def decompress (d y : Nat) : F := ((2 * 3329 * y + 2 ^ d) / (2 * 2 ^ d) : Nat)

/-- The distance of `x` to 0 modulo `q`. -/
def norm (x : F) : Nat := min x.val (3329 - x.val)

/-- Number `i` of `d` bits in a byte string. -/
def number (d : Nat) (w : List Byte) (i : Nat) : Nat := leVal w / 2 ^ (d * i) % 2 ^ d

/-- `Encode_12` of the canonical residues. -/
def encodePoly (f : Nat → F) : List Byte := encode 12 ((List.range 256).map fun i => (f i).val)

/-- `Encode_d` of the compressed coefficients. -/
def encodeCompressed (d : Nat) (f : Nat → F) : List Byte := encode d ((List.range 256).map fun i => compress d (f i))

/-- `Decode_12`. -/
def decodePoly (w : List Byte) (i : Nat) : F := (number 12 w i : F)

/-- `Decompress` after `Decode_d`. -/
def decodeCompressed (d : Nat) (w : List Byte) (i : Nat) : F := decompress d (number d w i)

/-- Bits of a coefficient of a ciphertext, for its vector and its polynomial: 10 and 4 for `k = 2, 3`, otherwise 11 and 5. -/
def du (K : Nat) : Nat := if K = 2 ∨ K = 3 then 10 else 11
def dv (K : Nat) : Nat := if K = 2 ∨ K = 3 then 4 else 5

/-! ## Sampling -/

/-- Bit `n` of a byte string. -/
def bit (w : List Byte) (n : Nat) : Nat := leVal w / 2 ^ n % 2

/-- `CBD_η`: the difference of two sums of `η` bits (algorithm 2). -/
def cbd (η : Nat) (w : List Byte) (i : Nat) : Int :=
  (∑ j ∈ Finset.range η, (bit w (2 * i * η + j) : Int)) - ∑ j ∈ Finset.range η, (bit w (2 * i * η + η + j) : Int)

/-- A noise polynomial: `CBD_η` of `PRF(seed, nonce)`, with SHAKE-256 as `PRF` (`f` is the permutation). -/
def noise (f : List Byte → List Byte) (η : Nat) (seed : List Byte) (nonce : Nat) (i : Nat) : Int :=
  cbd η (Fips202.shake f 136 (seed ++ [BitVec.ofNat 8 nonce]) (64 * η)) i

/-- The residues among the 12-bit numbers of a byte string (algorithm 1). -/
def accepted (w : List Byte) : List Nat := (decode 12 (2 * (w.length / 3)) w).filter (· < 3329)

/-- `Parse` of the stream `XOF(ρ, x, y)`, with SHAKE-128 as `XOF`, gives `cs`: the first 256 residues of a long enough prefix. -/
def Parses (f : List Byte → List Byte) (ρ : List Byte) (x y : Nat) (cs : List Nat) : Prop :=
  ∃ n, cs.length = 256 ∧ cs = (accepted (Fips202.shake f 168 (ρ ++ [BitVec.ofNat 8 x, BitVec.ofNat 8 y]) (3 * n))).take 256

end Cex.Spec.Kyber
