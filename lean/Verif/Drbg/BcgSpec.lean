import Verif.Keccak.Spec
import Verif.SCipher.Spec
import Verif.SCipher.Blocks
import Verif.Rijndael.Props

/-!
# What BCG computes

Counter mode of the wide Rijndael block function under round keys taken from cSHAKE-256. `Tally` is the state a caller can follow without looking at the object:
the key and customization in force, the next counter block, the bytes since the last reseed and the number of reseeds counted.
-/

namespace Cex.Drbg
open Cex Cex.IntTools Cex.SCipher Cex.SCipher.Spec Cex.Rijndael

/-- `Info` of the generator in ASCII. -/
def versionString : List Byte := "BCG version 1.0b".toUTF8.toList.map (BitVec.ofNat 8 ·.toNat)

/-- The counter of a task: the 32 bytes as one big-endian number, plus `n`. -/
def beJump (c : List Byte) (n : Nat) : List Byte := beEnc 32 (beVal c + n)

/-- A request is answered without tasks. -/
def Serial (p : Prof) (len : Nat) : Prop := p.isParallel = false ∨ len < p.blockSize

instance (p : Prof) (len : Nat) : Decidable (Serial p len) := inferInstanceAs (Decidable (_ ∨ _))

/-- Blocks per task. -/
def perTask (p : Prof) : Nat := p.blockSize / p.degree / 32

/-- The counter the last task leaves. -/
def lastCtr (p : Prof) (c : List Byte) : List Byte := byteCnt (beJump c (perTask p * (p.degree - 1))) (perTask p)

/-- Counter mode from `c`: the first 16 bytes count, low byte first. -/
def ctrStream (E : List Byte → List Byte) (c : List Byte) (len : Nat) : List Byte := keystream (fun j => E (byteCnt c j)) 32 len

/-- The bytes one request returns. With tasks: each task's stream from its own counter, then the stream from the last task's counter. -/
def answer (E : List Byte → List Byte) (p : Prof) (c : List Byte) (len : Nat) : List Byte :=
  if Serial p len then ctrStream E c len
  else (List.range p.degree).flatMap (fun i => ctrStream E (beJump c (perTask p * i)) (perTask p * 32)) ++ ctrStream E (lastCtr p c) (len - p.blockSize)

/-- The counter after the request. -/
def ctrAfter (p : Prof) (c : List Byte) (len : Nat) : List Byte :=
  if Serial p len then byteCnt c (blocksFor 32 len) else byteCnt (lastCtr p c) (blocksFor 32 (len - p.blockSize))

structure Tally where
  key : List Byte
  cust : List Byte
  ctr : List Byte
  c : Nat
  m : Nat

namespace Tally
variable (f : List Byte → List Byte)

/-- Rounds by key size. -/
def rounds (t : Tally) : Nat := match t.key.length with
  | 32 => 22
  | 64 => 30
  | _ => 38

/-- Round keys: cSHAKE-256 of the key with the function name "key bits, BCG". -/
def roundKeys (t : Tally) : List Byte := Sp800185.cshake f 136 t.key (32 * (t.rounds + 1)) (leEnc 2 (8 * t.key.length) ++ [0x42, 0x43, 0x47]) t.cust

/-- The block function in force. -/
def E (t : Tally) : List Byte → List Byte := rcs (t.roundKeys f) t.rounds

/-- Before the first `Initialize`. -/
def blank : Tally := ⟨[], [], List.replicate 32 0, 0, 0⟩

/-- After `Initialize`. The number of reseeds goes on. -/
def seeded (t : Tally) (key iv info : List Byte) : Tally := ⟨key, versionString ++ info, iv, 0, t.m⟩

/-- After `Update(key)`; `ent` is fresh entropy if there is a provider. -/
def updated (t : Tally) (prov : Bool) (key ent : List Byte) : Tally :=
  ⟨if prov then Sp800185.cshake f 136 key key.length [] ent else key, versionString ++ t.cust, t.ctr, 0, t.m + 1⟩

/-- After a request of `len` bytes: at the threshold the next 32 bytes are the new key. -/
def after (t : Tally) (p : Prof) (prov : Bool) (thr len : Nat) (ent : List Byte) : Tally :=
  let u := { t with ctr := ctrAfter p t.ctr len }
  if prov then
    if thr ≤ t.c + len then
      { u with ctr := ctrAfter p u.ctr 32, m := u.m + 1 }.updated f true (answer (t.E f) p u.ctr 32) ent
    else { u with c := t.c + len }
  else u

end Tally
end Cex.Drbg
