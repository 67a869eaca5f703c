import Verif.Gcm.CmulLemmas
import Verif.Stream

/-!
# GHASH and GMAC as in NIST SP 800-38D

`Nist.ghash` is Algorithm 2. `hashSum` is the same value as a polynomial: the evaluation of the polynomial whose coefficients are the
blocks of the message at the hash key, in the field GF(2)[x] / (x^128 + x^7 + x^2 + x + 1).
-/

namespace Cex.Gcm
open Cex Cex.IntTools Polynomial Stream

/-- One step of Algorithm 2: `Y ↦ (Y ⊕ X) • H`. -/
def Nist.gstep (H : BitVec 128) (y : BitVec 128) (b : List Byte) : BitVec 128 := Nist.mul (y ^^^ blk b) H

/-- Zero bytes up to a multiple of 16. -/
def Nist.pad16 (m : List Byte) : List Byte := m ++ List.replicate ((16 - m.length % 16) % 16) 0

/-- Algorithm 2: GHASH of a string of whole blocks. -/
def Nist.ghash (H : BitVec 128) (m : List Byte) : BitVec 128 := (eager 16 (Nist.gstep H) 0 m).1

/-- The block `[len(A)]_64 || [len(C)]_64` for lengths in bytes. -/
def Nist.lens (a c : Nat) : List Byte := beEnc 8 (8 * a) ++ beEnc 8 (8 * c)

/-- The string hashed by GCM. -/
def Nist.gcmString (aad c : List Byte) : List Byte := Nist.pad16 aad ++ Nist.pad16 c ++ Nist.lens aad.length c.length

/-- The pre-counter block `J0` (section 7.1, step 2). -/
def Nist.j0 (H : BitVec 128) (iv : List Byte) : List Byte :=
  if iv.length = 12 then iv ++ [0, 0, 0, 1] else unblk (Nist.ghash H (Nist.pad16 iv ++ Nist.lens 0 iv.length))

/-- The hash key. -/
def Nist.hkey (E : List Byte → List Byte) : BitVec 128 := blk (E (List.replicate 16 0))

/-- GMAC: the GCM tag of associated data with an empty text. -/
def Nist.gmac (E : List Byte → List Byte) (iv aad : List Byte) : List Byte :=
  xorBytes (unblk (Nist.ghash (Nist.hkey E) (Nist.gcmString aad []))) (E (Nist.j0 (Nist.hkey E) iv))

/-- Block `i` of a string. -/
def Nist.block (m : List Byte) (i : Nat) : BitVec 128 := blk ((m.drop (16 * i)).take 16)

/-- `X_1 H^n + X_2 H^(n-1) + … + X_n H` modulo `P`, for a string of `n` blocks. -/
noncomputable def Nist.hashSum (H : BitVec 128) (m : List Byte) (n : ℕ) : (ZMod 2)[X] :=
  (∑ i ∈ Finset.range n, poly (Nist.block m i) * poly H ^ (n - i)) %ₘ P

end Cex.Gcm
