import Verif.Keccak.Spec

/-!
# What KPA computes (CEX/KPA.h:43-75)

The message is dealt in blocks of `r` bytes to eight sponges that start from the same keyed state and differ by a name; a ninth sponge absorbs the first bytes of the eight
states, the output length and the message length. `f` is the permutation, `r` the rate. There is no other definition of KPA than its code; the constants are from it.
-/

namespace Cex.KpaSpec
open Cex Fips202

variable (f : List Byte → List Byte) (r : Nat)

/-- the state after customization and key, as in KMAC -/
def base (key iv : List Byte) : List Byte :=
  absorb f r (if iv = [] then List.replicate 200 0 else absorb f r (List.replicate 200 0) (Sp800185.bytepad (Sp800185.encodeString iv) r))
    (Sp800185.bytepad (Sp800185.encodeString key) r)

/-- the name of leaf `i`: the last eight bytes of the text `i+1 "KBA" AD "12"`, read as a big-endian word -/
def name (i : Nat) : List Byte := [0x32, 0x31, 0xAD, 0x41, 0x42, 0x4B, BitVec.ofNat 8 (i + 1), 0]

/-- the eight leaves before the message -/
def leaves (key iv : List Byte) : List (List Byte) := (List.range 8).map fun i => block f (base f r key iv) (name i)

/-- the blocks `i`, `i + 8`, `i + 16`, … of `m` -/
def stripe (i : Nat) (m : List Byte) : List Byte := (List.range (m.length / (8 * r))).flatMap fun j => (m.drop (j * (8 * r) + i * r)).take r

/-- the leaves `ls` after the message `m`, completed by zeros -/
def after (ls : List (List Byte)) (m : List Byte) : List (List Byte) := ls.mapIdx fun i s => absorb f r s (stripe r i (m ++ Sp800185.fill (8 * r) m.length))

/-- the bytes taken from each leaf -/
def hashLen : Nat := if r = 136 then 32 else 64

/-- the tag of `n` bytes for the message `m`, when the leaves started from `ls` -/
def tag (ls : List (List Byte)) (m : List Byte) (n : Nat) : List Byte :=
  let h := ((after f r ls m).map (List.take (hashLen r))).flatten
  sponge f r 0x41 (h ++ Sp800185.fill r h.length ++ (Sp800185.rightEncode (8 * n) ++ Sp800185.rightEncode (8 * m.length))) n

/-- the rate for a key -/
def rate (key : List Byte) : Nat := if key.length = 16 then 168 else if key.length = 32 then 136 else 72

/-- KPA with 12 rounds -/
def kpa (key iv m : List Byte) (n : Nat) : List Byte := tag (keccakP 12) (rate key) (leaves (keccakP 12) (rate key) key iv) m n

end Cex.KpaSpec
