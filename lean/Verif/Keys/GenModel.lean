import Verif.Keccak.Objects
import Verif.Keys.Model

/-!
# Model of `SymmetricKeyGenerator` (CEX/SymmetricKeyGenerator.cpp)

The permutation `P` of SHAKE and the entropy source are parameters. Every call of the private `Generate` makes a new provider object and asks it once, so the source is a function of the
number of calls before and of the length.
-/

namespace Cex.Keys
open Cex Cex.Keccak Cex.Mac

/-- `SecurityPolicy` without `None` (SecurityPolicy.h:12-41). -/
inductive SecPolicy
  | spl256 | spl256ae | spl512 | spl512ae | spl1024 | spl1024ae
  deriving DecidableEq

/-- An entropy source: the name of the provider and what the provider of the `i`-th call gives for a length. -/
structure Source where
  name : List Byte
  draw : Nat → Nat → M (List Byte)

/-- The bytes of a string literal. -/
def str (s : String) : List Byte := s.toList.map fun c => BitVec.ofNat 8 c.toNat

namespace SecPolicy

/-- The `switch` of `Generate` (SymmetricKeyGenerator.cpp:162-183): rate of the SHAKE mode, its name, and the seed length. -/
def mode : SecPolicy → Nat × List Byte × Nat
  | spl256 | spl256ae => (136, str "SHAKE256", 32)
  | spl512 | spl512ae => (72, str "SHAKE512", 64)
  | _ => (136, str "SHAKE256", 32)

end SecPolicy

variable (P : List Byte → M (List Byte))

/-- The private `Generate` (SymmetricKeyGenerator.cpp:156-202); `AppendString` is concatenation. `i` is the number of calls before. -/
def genWith (v : Source) (pol : SecPolicy) (i : Nat) (out : List Byte) (off len : Nat) : M (List Byte) := do
  let seed ← v.draw i pol.mode.2.2
  let s ← Shake.new pol.mode.1
  let s ← s.initCust P seed (str "SymmetricKeyGenerator" ++ v.name ++ pol.mode.2.1)
  let r ← s.generateAt P out off len
  return r.2

/-- `Generate(Output, Offset, Length)` (SymmetricKeyGenerator.cpp:126-138); the sum is a `size_t`. -/
def genAt (v : Source) (pol : SecPolicy) (i : Nat) (out : List Byte) (off len : Nat) : M (List Byte) :=
  if len = 0 then throw (.throws .invalidSize)
  else if out.length < (off + len) % 2 ^ 64 then throw (.throws .invalidSize)
  else genWith P v pol i out off len

/-- `Generate(Length)` (SymmetricKeyGenerator.cpp:140-152). -/
def genLen (v : Source) (pol : SecPolicy) (i len : Nat) : M (List Byte) :=
  if len = 0 then throw (.throws .invalidSize) else genWith P v pol i (List.replicate len 0) 0 len

/-- `GetSymmetricKey` (SymmetricKeyGenerator.cpp:36-80); `GetSecureKey` (82-124) calls `Generate` in the same way. `i` is the number of calls of the private `Generate` before. -/
def getKey (v : Source) (pol : SecPolicy) (i : Nat) (ks : KeySize) : M SymKey :=
  if ks.key = 0 then throw (.throws .invalidSize)
  else if ks.iv ≠ 0 then
    if ks.info ≠ 0 then do
      let k ← genWith P v pol i (List.replicate ks.key.toNat 0) 0 ks.key.toNat
      let n ← genWith P v pol (i + 1) (List.replicate ks.iv.toNat 0) 0 ks.iv.toNat
      let f ← genWith P v pol (i + 2) (List.replicate ks.info.toNat 0) 0 ks.info.toNat
      SymKey.new k n f
    else do
      let k ← genWith P v pol i (List.replicate ks.key.toNat 0) 0 ks.key.toNat
      let n ← genWith P v pol (i + 1) (List.replicate ks.iv.toNat 0) 0 ks.iv.toNat
      SymKey.new k n []
  else do
    let k ← genWith P v pol i (List.replicate ks.key.toNat 0) 0 ks.key.toNat
    SymKey.new k [] []

end Cex.Keys
