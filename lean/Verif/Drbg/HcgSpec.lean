import Verif.Mac.HmacProps
import Verif.IntTools.Spec

/-!
# What HCG is meant to compute

The class documentation describes chained HMAC blocks over the previous block, the distribution code and a counter.
-/

namespace Cex.Drbg
open Cex Cex.Mac Cex.IntTools

/-- Key, code, chaining value and counter. -/
structure Chain where
  K : List Byte
  code : List Byte
  V : List Byte
  c : Nat

namespace Chain
variable (H : List Byte → List Byte) (B : Nat)

/-- The next block: HMAC of the last block, the code and the counter, which grows by the block size of the digest. -/
def step (x : Chain) : Chain :=
  { x with V := Rfc2104.hmac H B x.K (x.V ++ x.code ++ beEnc 8 ((x.c + B) % 2 ^ 64)), c := (x.c + B) % 2 ^ 64 }

/-- The output: blocks 1, 2, 3, … -/
def stream (x : Chain) (n : Nat) : List Byte := ((List.range n).flatMap fun i => (Nat.repeat (step H B) (i + 1) x).V).take n

/-- After seeding: the counter starts at the nonce plus the length of the code, and block 0 is not output. -/
def seed (key code iv : List Byte) : Chain :=
  let c := (beVal (iv.take 8 ++ List.replicate (8 - iv.length) 0) + code.length) % 2 ^ 64
  ⟨key, code, Rfc2104.hmac H B key (code ++ beEnc 8 c), c⟩

/-- A new key: `x` and the HMAC of the next block under the old key; then one block under the new key. -/
def rekey (x : List Byte) (s : Chain) : Chain :=
  let t := s.step H B
  step H B { t with K := x ++ Rfc2104.hmac H B t.K t.V }

/-- The documented distribution code: the string "CEX-", the name of the generator, its strength in bits as a 16-bit
little-endian number, and the caller's info. -/
def codeString (name info : List Byte) : List Byte := [67, 69, 88, 45] ++ name ++ leEnc 2 (B / 4 * 8) ++ info

end Chain
end Cex.Drbg
