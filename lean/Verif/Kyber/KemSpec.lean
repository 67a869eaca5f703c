import Verif.Kyber.SchemeSpec

/-!
# Kyber, the schemes (specification of round 3 of the NIST project, algorithms 4 to 9)

Polynomials are written by their coefficients; the transform appears only where the specification puts it into the encodings. `f` is the Keccak permutation, `A i j` entry `(i, j)` of the public
matrix.
-/

namespace Cex.Spec.Kyber
open Cex Cex.Lattice Cex.Spec.Lattice Finset

variable (f : List Byte → List Byte)

/-- The functions `G` (SHA3-512), `H` (SHA3-256) and `KDF` (SHAKE-256). -/
def G (x : List Byte) : List Byte := Fips202.sponge f 72 0x06 x 64
def H (x : List Byte) : List Byte := Fips202.sponge f 136 0x06 x 32
def KDF (x : List Byte) (n : Nat) : List Byte := Fips202.shake f 136 x n

/-- Scalar product of two vectors of `K` polynomials, modulo `X ^ 256 + 1`. -/
def inner (K : Nat) (a b : Nat → Nat → F) (i : Nat) : F := ∑ k ∈ range K, mul (a k) (b k) i

/-- Vector of noise polynomials for the nonces from `n`. -/
def noiseVec (η : Nat) (seed : List Byte) (n j i : Nat) : F := (noise f η seed (n + j) i : F)

/-- The `i`-th string of `L` bytes. -/
def part (L : Nat) (w : List Byte) (i : Nat) : List Byte := (w.drop (L * i)).take L

/-- `t = A s + e`. -/
def publicVec (K : Nat) (A : Nat → Nat → Nat → F) (s e : Nat → Nat → F) (i n : Nat) : F := inner K (A i) s n + e i n

/-- `Encode_12(NTT(t))`, for all polynomials of a vector. -/
def encodeVec (K : Nat) (t : Nat → Nat → F) : List Byte := (List.range K).flatMap fun i => encodePoly (ntt (t i))

/-- `t` is the vector whose transform a public or private key holds. -/
def DecodesTo (K : Nat) (w : List Byte) (t : Nat → Nat → F) : Prop := ∀ i, i < K → ∀ n, n < 256 → ntt (t i) n = decodePoly (part 384 w i) n

/-- `u = Aᵀ r + e₁`. -/
def cipherVec (K : Nat) (A : Nat → Nat → Nat → F) (r e1 : Nat → Nat → F) (i n : Nat) : F := inner K (fun j => A j i) r n + e1 i n

/-- `v = tᵀ r + e₂ + ⌈q/2⌋ m`. -/
def cipherPoly (K : Nat) (t r : Nat → Nat → F) (e2 : Nat → F) (m : List Byte) (n : Nat) : F := inner K t r n + e2 n + decodeCompressed 1 m n

/-- The ciphertext of `u` and `v`. -/
def cipherBytes (K : Nat) (u : Nat → Nat → F) (v : Nat → F) : List Byte := (List.range K).flatMap (fun i => encodeCompressed (du K) (u i)) ++ encodeCompressed (dv K) v

/-- Encryption of `m` with the given coins (algorithm 5). -/
def encrypt (K η : Nat) (A : Nat → Nat → Nat → F) (t : Nat → Nat → F) (m coins : List Byte) : List Byte :=
  cipherBytes K (cipherVec K A (noiseVec f η coins 0) (noiseVec f 2 coins K)) (cipherPoly K t (noiseVec f η coins 0) (fun n => (noise f 2 coins (2 * K) n : F)) m)

/-- Decryption (algorithm 6). -/
def decrypt (K : Nat) (s : Nat → Nat → F) (c : List Byte) : List Byte :=
  encodeCompressed 1 fun n => decodeCompressed (dv K) (c.drop (32 * du K * K)) n - inner K s (fun i => decodeCompressed (du K) (part (32 * du K) c i)) n

/-- Length of a ciphertext. -/
def cipherLen (K : Nat) : Nat := 32 * du K * K + 32 * dv K

/-- `A` is the public matrix of the seed `ρ` (algorithm 4, lines 4 to 8): the transform of entry `(i, j)` is `Parse(XOF(ρ, j, i))`. -/
def IsMatrix (K : Nat) (ρ : List Byte) (A : Nat → Nat → Nat → F) : Prop :=
  ∀ i j, i < K → j < K → ∃ cs, Parses f ρ j i cs ∧ ∀ (n c : Nat), cs[n]? = some c → ntt (A i j) n = (c : F)

/-- What compression adds to a coefficient. -/
def roundErr (d : Nat) (x : F) : F := decompress d (compress d x) - x

/-- The part of the decrypted polynomial that is not the message: `eᵀ r + e₂ + c_v - sᵀ (e₁ + c_u)`. -/
def noiseTerm (K : Nat) (A : Nat → Nat → Nat → F) (s e r e1 : Nat → Nat → F) (e2 : Nat → F) (m : List Byte) (n : Nat) : F :=
  inner K e r n + e2 n + roundErr (dv K) (cipherPoly K (publicVec K A s e) r e2 m n) - inner K s (fun i k => e1 i k + roundErr (du K) (cipherVec K A r e1 i k)) n

/-- Decryption of `m`, encrypted with `coins` to the key of the seed `σ`, does not fail: all coefficients of the noise are below a quarter of the modulus. -/
def NoFailure (K η : Nat) (A : Nat → Nat → Nat → F) (σ m coins : List Byte) : Prop :=
  ∀ n, n < 256 → ∃ x : Int, -832 ≤ x ∧ x ≤ 831 ∧
    noiseTerm K A (noiseVec f η σ 0) (noiseVec f η σ K) (noiseVec f η coins 0) (noiseVec f 2 coins K) (fun n => (noise f 2 coins (2 * K) n : F)) m n = (x : F)

/-- Keys of the seed `d` and the rejection value `z` (algorithms 4 and 7). -/
def publicKey (K η : Nat) (A : Nat → Nat → Nat → F) (d : List Byte) : List Byte :=
  encodeVec K (publicVec K A (noiseVec f η ((G f d).drop 32) 0) (noiseVec f η ((G f d).drop 32) K)) ++ (G f d).take 32

def privateKey (K η : Nat) (A : Nat → Nat → Nat → F) (d z : List Byte) : List Byte :=
  encodeVec K (noiseVec f η ((G f d).drop 32) 0) ++ publicKey f K η A d ++ H f (publicKey f K η A d) ++ z

end Cex.Spec.Kyber
