import Verif.Keccak.Spec

/-!
# What SCBKDF is described to do (CEX/SCBKDF.h:47-64), written on the sponge of FIPS 202

`f` is the permutation, `r` the rate. The description gives the order of the steps; the domain byte is 0x24. The memory in use is the cache; the header calls `MemoryCost`
"the maximum amount of memory cost used by the KDF in Megabytes", and a megabyte is 1000000 bytes in the code.
-/

namespace Cex.ScbSpec
open Cex

/-- state and cache -/
abbrev St := List Byte × List Byte

/-- whole blocks are absorbed; the last, padded one is added and not yet permuted -/
def soak (f : List Byte → List Byte) (r : Nat) (st m : List Byte) : List Byte :=
  xorBytes (Fips202.absorb f r st m) (m.drop (r * (m.length / r)) ++ Fips202.pad r 0x24 m.length ++ List.replicate (200 - r) 0)

/-- the customization block, if there is a salt or an information string -/
def custom (f : List Byte → List Byte) (r : Nat) (iv info : List Byte) : List Byte :=
  if iv = [] ∧ info = [] then List.replicate 200 0
  else Fips202.absorb f r (List.replicate 200 0) (Sp800185.bytepad (Sp800185.encodeString info ++ Sp800185.encodeString iv) r)

/-- after `Initialize` -/
def start (f : List Byte → List Byte) (r : Nat) (key iv info : List Byte) : St :=
  (f (soak f r (custom f r iv info) key), (f (soak f r (custom f r iv info) key)).take r)

/-- one turn; `grow` says whether the cache may still grow, given its length -/
def turn (f : List Byte → List Byte) (r : Nat) (grow : Nat → Bool) (x : St) : St :=
  (soak f r x.1 x.2, if grow x.2.length then x.2 ++ (soak f r x.1 x.2).take r else x.2)

/-- `n` turns -/
def turns (f : List Byte → List Byte) (r : Nat) (grow : Nat → Bool) (n : Nat) (x : St) : St := Nat.repeat (turn f r grow) n x

/-- a request of `n` bytes: the bytes, and the state and cache after it -/
def request (f : List Byte → List Byte) (r : Nat) (grow : Nat → Bool) (cpu n : Nat) (x : St) : List Byte × St :=
  let y := turns f r grow cpu x
  (Fips202.squeeze f r (f y.1) n, (Nat.repeat f ((n + r - 1) / r) y.1, y.2))

/-- as described: while the cache is smaller than the memory cost -/
def described (mem len : Nat) : Bool := decide (len < mem * 1000000)

/-- as implemented: whatever the length, if there is a memory cost -/
def implemented (mem _len : Nat) : Bool := decide (25 < mem * 1000000 % 2 ^ 64)

end Cex.ScbSpec
