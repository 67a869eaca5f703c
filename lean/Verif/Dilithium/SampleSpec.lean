import Verif.Keccak.Spec
import Verif.Dilithium.CodecSpec

/-!
# Sampling in Dilithium (specification of round 3 of the NIST project, sections 2.3 and 5.3)

`f` is the permutation of the sponge; `SHAKE128` has rate 168 and `SHAKE256` has rate 136.
-/

namespace Cex.Spec.Dilithium
open Cex

/-- The numbers of 23 bits in a byte string, from three bytes each. -/
def numbers23 : List Byte → List Nat
  | a :: b :: c :: t => (a.toNat + 256 * b.toNat + 65536 * c.toNat) % 2 ^ 23 :: numbers23 t
  | _ => []

/-- Those below `q`. -/
def residues (w : List Byte) : List Nat := (numbers23 w).filter (· < 8380417)

/-- The halves of the bytes, the low one first. -/
def halves : List Byte → List Nat
  | [] => []
  | b :: t => b.toNat % 16 :: b.toNat / 16 :: halves t

/-- The coefficient for one half of a byte, if it is accepted. -/
def small (eta t : Nat) : Option Int :=
  if eta = 2 then (if t < 15 then some (2 - (t % 5 : Nat)) else none) else (if t < 9 then some (4 - (t : Int)) else none)

/-- The accepted coefficients of a byte string. -/
def smalls (eta : Nat) (w : List Byte) : List Int := (halves w).filterMap (small eta)

/-- A seed followed by a nonce of two bytes. -/
def withNonce (ρ : List Byte) (n : Nat) : List Byte := ρ ++ [BitVec.ofNat 8 n, BitVec.ofNat 8 (n / 256)]

/-- `cs` are the first 256 residues in the output of `SHAKE128` for `ρ` and `n`. -/
def IsUniform (f : List Byte → List Byte) (ρ : List Byte) (n : Nat) (cs : List Nat) : Prop :=
  ∃ m, cs.length = 256 ∧ cs = (residues (Fips202.shake f 168 (withNonce ρ n) (3 * m))).take 256

/-- `cs` are the first 256 small coefficients in the output of `SHAKE128` for `ρ` and `n`. -/
def IsSmall (f : List Byte → List Byte) (eta : Nat) (ρ : List Byte) (n : Nat) (cs : List Int) : Prop :=
  ∃ m, cs.length = 256 ∧ cs = (smalls eta (Fips202.shake f 168 (withNonce ρ n) m)).take 256

/-- The mask: `SHAKE256` output read as an encoded polynomial. -/
def mask (f : List Byte → List Byte) (gamma1 : Nat) (ρ : List Byte) (n : Nat) : Nat → Int :=
  unpackBelow (zBits gamma1) gamma1 (Fips202.shake f 136 (withNonce ρ n) (32 * zBits gamma1))

/-- Byte `k` of the output of a sponge. -/
def xofByte (f : List Byte → List Byte) (r : Nat) (x : List Byte) (k : Nat) : Byte :=
  match (Fips202.shake f r x (k + 1))[k]? with
  | some b => b
  | none => 0

/-- One step of `SampleInBall`: coefficient `j` moves to `i`, and `j` is set to `1` or `-1`. -/
def place (c : Nat → Int) (i j s : Nat) (k : Nat) : Int := if k = j then (if s % 2 = 1 then -1 else 1) else if k = i then c j else c k

/-- `n` steps of `SampleInBall` from `i` on: `s` has the signs, the bytes `g` are read from position `a`, and bytes above `i` are skipped. -/
inductive Ball (g : Nat → Byte) : (n i s a : Nat) → (c c' : Nat → Int) → Prop
  | done {i s a c} : Ball g 0 i s a c c
  | step {n i s a c c'} (k : Nat) (skip : ∀ j, j < k → i < (g (a + j)).toNat) (hit : (g (a + k)).toNat ≤ i)
      (rest : Ball g n (i + 1) (s / 2) (a + k + 1) (place c i (g (a + k)).toNat s) c') : Ball g (n + 1) i s a c c'

/-- `SampleInBall`: `c` is the polynomial for `seed`. -/
def IsChallenge (f : List Byte → List Byte) (tau : Nat) (seed : List Byte) (c : Nat → Int) : Prop :=
  Ball (xofByte f 136 seed) tau (256 - tau) (leVal (Fips202.shake f 136 seed 8)) 8 (fun _ => 0) c

end Cex.Spec.Dilithium
