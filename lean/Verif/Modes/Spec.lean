import Verif.Buf
import Verif.IntTools.Spec

/-!
# Textbook definitions of the block cipher modes (NIST SP 800-38A)

Written over messages already cut into blocks; nothing here refers to the model.
-/

namespace Cex.Modes.Spec
open Cex

/-- CBC encryption: C_i = E(P_i xor C_{i-1}), C_0 = IV. -/
def cbcEnc (E : List Byte → List Byte) : List Byte → List (List Byte) → List (List Byte)
  | _, [] => []
  | iv, b :: bs => E (xorBytes iv b) :: cbcEnc E (E (xorBytes iv b)) bs

/-- CBC decryption: P_i = D(C_i) xor C_{i-1}. -/
def cbcDec (D : List Byte → List Byte) : List Byte → List (List Byte) → List (List Byte)
  | _, [] => []
  | iv, b :: bs => xorBytes (D b) iv :: cbcDec D b bs

/-- The chaining value after processing the ciphertext blocks `cs`. -/
def lastOr : List Byte → List (List Byte) → List Byte
  | iv, [] => iv
  | _, c :: cs => lastOr c cs

/-- CFB encryption with `r`-byte segments: C_i = P_i xor MSB_r(E(S_i)), S_{i+1} = LSB(S_i) || C_i. -/
def cfbEnc (E : List Byte → List Byte) (r : Nat) : List Byte → List (List Byte) → List (List Byte)
  | _, [] => []
  | s, b :: bs => xorBytes ((E s).take r) b :: cfbEnc E r (s.drop r ++ xorBytes ((E s).take r) b) bs

/-- CFB decryption. -/
def cfbDec (E : List Byte → List Byte) (r : Nat) : List Byte → List (List Byte) → List (List Byte)
  | _, [] => []
  | s, b :: bs => xorBytes ((E s).take r) b :: cfbDec E r (s.drop r ++ b) bs

/-- The CFB shift register after the ciphertext segments `cs`. -/
def cfbReg (r : Nat) : List Byte → List (List Byte) → List Byte
  | s, [] => s
  | s, c :: cs => cfbReg r (s.drop r ++ c) cs

/-- OFB keystream blocks: O_1 = E(IV), O_{i+1} = E(O_i). -/
def ofbStream (E : List Byte → List Byte) : (n : Nat) → List Byte → List (List Byte)
  | 0, _ => []
  | n + 1, iv => E iv :: ofbStream E n (E iv)

/-- The `k`-th counter block after `nonce`, big-endian addition modulo 2^128. -/
def beCounter (nonce : List Byte) (k : Nat) : List Byte := beEnc 16 (beVal nonce + k)

/-- The `k`-th counter block after `nonce`, little-endian. -/
def leCounter (nonce : List Byte) (k : Nat) : List Byte := leEnc 16 (leVal nonce + k)

/-- The first `len` keystream bytes of counter mode with counter sequence `cnt`. -/
def ctrStream (E : List Byte → List Byte) (cnt : Nat → List Byte) (len : Nat) : List Byte :=
  ((List.range ((len + 15) / 16)).flatMap (fun k => E (cnt k))).take len

end Cex.Modes.Spec
