import Verif.Ec25519.Spec

/-!
# Ed25519 (RFC 8032, section 5.1), written independently of the code

Field elements are natural numbers below `P = 2^255 - 19` (`Verif.Ec25519.Spec`); a point is its pair of affine coordinates. Nothing here mentions limbs, extended
coordinates, tables or signed digits. The hash is a parameter.
-/

namespace Cex.Rfc8032

open Cex.Ec25519

/-- the inverse in the field, `a^(p-2)` -/
def inv (a : Nat) : Nat := a ^ (P - 2) % P

/-- `d = -121665 / 121666`, as printed in table 1 of the RFC -/
def d : Nat := 37095705934669439343138083508754565189542113879843219016388785533085940283555

/-- the base point, as printed in table 1 -/
def B : Nat × Nat :=
  (15112221349535400772501151409588531511454012693041857206046113283949847762202, 46316835694926478169428394003475163141307993866256225615783033603165251855960)

/-- the order of the base point, as printed in table 1 -/
def L : Nat := 2 ^ 252 + 27742317777372353535851937790883648493

/-- the curve `-x² + y² = 1 + d x² y²` -/
def OnCurve (a : Nat × Nat) : Prop := a.1 < P ∧ a.2 < P ∧ a.2 ^ 2 % P = (1 + d * a.1 ^ 2 * a.2 ^ 2 + a.1 ^ 2) % P

/-- the addition of the curve (5.1.4 in affine coordinates) -/
def add (a b : Nat × Nat) : Nat × Nat :=
  let w := d * (a.1 * b.1 * a.2 * b.2) % P
  ((a.1 * b.2 + a.2 * b.1) * inv (1 + w) % P, (a.2 * b.2 + a.1 * b.1) * inv (1 + (P - w)) % P)

/-- `[n]A` -/
def mul : Nat → Nat × Nat → Nat × Nat
  | 0, _ => (0, 1)
  | n + 1, a => add (mul n a) a

/-- 5.1.2: the 32 bytes of a point; the decoding of 5.1.3 is its inverse on the points of the curve -/
def encode (a : Nat × Nat) : List Byte := leEnc 32 (a.2 + 2 ^ 255 * (a.1 % 2))

/-- 5.1.5: the secret scalar of a seed -/
def secret (H : List Byte → List Byte) (seed : List Byte) : Nat := decodeScalar ((H seed).take 32)

/-- 5.1.5: the public key of a seed -/
def publicKey (H : List Byte → List Byte) (seed : List Byte) : List Byte := encode (mul (secret H seed) B)

/-- 5.1.6: the signature of a message -/
def sign (H : List Byte → List Byte) (seed msg : List Byte) : List Byte :=
  let r := leVal (H ((H seed).drop 32 ++ msg))
  let R := encode (mul r B)
  let k := leVal (H (R ++ publicKey H seed ++ msg))
  R ++ leEnc 32 ((r + k * secret H seed) % L)

/-- 5.1.7: the signature is valid (the equation without the cofactor) -/
def Valid (H : List Byte → List Byte) (pk msg sig : List Byte) : Prop :=
  sig.length = 64 ∧ leVal (sig.drop 32) < L ∧
    ∃ R A, OnCurve R ∧ OnCurve A ∧ encode R = sig.take 32 ∧ encode A = pk ∧
      mul (leVal (sig.drop 32)) B = add R (mul (leVal (H (sig.take 32 ++ pk ++ msg))) A)

end Cex.Rfc8032
