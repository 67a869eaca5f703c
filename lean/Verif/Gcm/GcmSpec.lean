import Verif.Gcm.GhashSpec
import Verif.Modes.Spec

/-!
# Authenticated encryption with GCM (NIST SP 800-38D)
-/

namespace Cex.Gcm
open Cex Cex.IntTools Cex.Modes.Spec

/-- The tag of associated data and ciphertext, with pre-counter block `J`. -/
def Nist.tag (H : BitVec 128) (E : List Byte → List Byte) (J aad c : List Byte) : List Byte :=
  xorBytes (unblk (Nist.ghash H (Nist.gcmString aad c))) (E J)

/-- The `k`-fold increment of the last 32 bits (section 6.2). -/
def Nist.inc32 (b : List Byte) (k : Nat) : List Byte := b.take 12 ++ beEnc 4 (beVal (b.drop 12) + k)

/-- Algorithm 4 of SP 800-38D: ciphertext and tag. -/
def Nist.seal (E : List Byte → List Byte) (iv aad m : List Byte) : List Byte × List Byte :=
  let J := Nist.j0 (Nist.hkey E) iv
  let c := xorBytes (ctrStream E (fun k => Nist.inc32 J (1 + k)) m.length) m
  (c, Nist.tag (Nist.hkey E) E J aad c)

/-- What the library is to compute: GCM with the whole 128-bit block as counter, hash key `H`, block encryption `E`. -/
def sealed (H : BitVec 128) (E : List Byte → List Byte) (iv aad m : List Byte) : List Byte × List Byte :=
  let J := Nist.j0 H iv
  let c := xorBytes (ctrStream E (fun k => beCounter J (1 + k)) m.length) m
  (c, Nist.tag H E J aad c)

end Cex.Gcm
