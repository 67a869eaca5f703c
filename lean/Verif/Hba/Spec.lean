import Verif.IntTools.Spec
import Verif.Base

/-!
# What HBA authenticates

The bytes a MAC key is applied to, for a list of associated-data items, the 16-byte nonce at the start of the message, the ciphertext, and the
number `cnt` of message bytes processed before (plus one).
-/

namespace Cex.Hba.Spec
open Cex

/-- Items of associated data: content, then length; an empty item leaves no trace. -/
def adText (ads : List (List Byte)) : List Byte := ads.flatMap fun a => if a = [] then [] else a ++ leEnc 4 a.length

/-- The text that is authenticated: associated data, nonce, ciphertext, counter. -/
def macText (ads : List (List Byte)) (nonce : List Byte) (cnt : Nat) (c : List Byte) : List Byte :=
  adText ads ++ nonce ++ c ++ leEnc 8 (cnt + c.length + 24)

/-- The name given to the key derivation function: counter, key size in bits, algorithm name. -/
def kdfName (cnt n : Nat) (name : List Byte) : List Byte := leEnc 8 cnt ++ leEnc 2 (n * 8) ++ name

end Cex.Hba.Spec
