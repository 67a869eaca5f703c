import Verif.Stream
import Verif.IntTools.Model
import Verif.Kdf.Fill

/-!
# Model of the key containers

`SymmetricKey` (CEX/SymmetricKey.cpp; `SymmetricSecureKey::Serialize` and `DeSerialize`, SymmetricSecureKey.cpp:408-471, are the same text), `SymmetricKeySize` (CEX/SymmetricKeySize.cpp),
`AsymmetricKey` (CEX/AsymmetricKey.cpp).
-/

namespace Cex.Keys
open Cex Cex.IntTools Cex.Kdf

/-- `ArrayTools::AppendVector` on bytes (ArrayTools.h:135-145). -/
def appendVector (inp out : List Byte) : M (List Byte) := copy inp 0 (resize out (inp.length + out.length)) out.length inp.length

/-- `IntegerTools::Le16ToBytes<Array>(Value)` (IntegerTools.h:1283-1291). -/
def le16Vec (v : BitVec 16) : M (List Byte) := le16ToBytes v (List.replicate 2 0) 0

/-- `SymmetricKey::KeyState` (SymmetricKey.cpp:13-97), without the sizes, which are those of the arrays. -/
structure SymKey where
  key : List Byte
  iv : List Byte
  info : List Byte
deriving DecidableEq

/-- The constructor from three vectors (SymmetricKey.cpp:129-141). -/
def SymKey.new (key iv info : List Byte) : M SymKey :=
  if (key.length + iv.length + info.length) % 2 ^ 64 ≠ 0 then return ⟨key, iv, info⟩ else throw (.throws .invalidParam)

/-- `SymmetricKey::Serialize` (SymmetricKey.cpp:242-273). -/
def SymKey.serialize (k : SymKey) : M (List Byte) := do
  let klen : BitVec 16 := BitVec.ofNat 16 k.key.length
  let nlen : BitVec 16 := BitVec.ofNat 16 k.iv.length
  let ilen : BitVec 16 := BitVec.ofNat 16 k.info.length
  let a ← le16Vec klen
  let t ← appendVector a []
  let a ← le16Vec nlen
  let t ← appendVector a t
  let a ← le16Vec ilen
  let t ← appendVector a t
  let t ← (if 0 < klen.toNat then appendVector k.key t else pure t)
  let t ← (if 0 < nlen.toNat then appendVector k.iv t else pure t)
  if 0 < ilen.toNat then appendVector k.info t else pure t

/-- `x.resize(len)` and `MemoryTools::Copy(KeyStream, off, x, 0, len)` for `len > 0` (e.g. SymmetricKey.cpp:223-227). -/
def part (s : List Byte) (off len : Nat) : M (List Byte) :=
  if 0 < len then copy s off (List.replicate len 0) 0 len else pure []

/-- `SymmetricKey::DeSerialize` (SymmetricKey.cpp:210-240). -/
def SymKey.deserialize (s : List Byte) : M SymKey := do
  let klen ← leBytesTo16 s 0
  let nlen ← leBytesTo16 s 2
  let ilen ← leBytesTo16 s 4
  let key ← part s 6 klen.toNat
  let nonce ← part s (klen.toNat + 6) nlen.toNat
  let info ← part s (klen.toNat + nlen.toNat + 6) ilen.toNat
  SymKey.new key nonce info

/-- `SymmetricKeySize`: three 32-bit sizes (SymmetricKeySize.h, SymmetricKeySize.cpp:15-38). -/
structure KeySize where
  info : BitVec 32
  key : BitVec 32
  iv : BitVec 32

/-- The constructor from sizes (SymmetricKeySize.cpp:32-38). -/
def KeySize.new (key iv info : Nat) : KeySize := ⟨BitVec.ofNat 32 info, BitVec.ofNat 32 key, BitVec.ofNat 32 iv⟩

/-- The constructor from an array (SymmetricKeySize.cpp:23-30). -/
def KeySize.ofBytes (a : List Byte) : M KeySize :=
  if a.length ≥ 12 then do
    let i ← leBytesTo32 a 0
    let k ← leBytesTo32 a 4
    let v ← leBytesTo32 a 8
    return ⟨i, k, v⟩
  else throw (.throws .invalidSize)

/-- `ArrayTools::AppendValue<uint32_t>` on bytes (ArrayTools.h:114-125); the copy is of the object representation, little endian. -/
def appendValue32 (v : BitVec 32) (out : List Byte) : M (List Byte) := le32ToBytes v (resize out (out.length + 4)) out.length

/-- `SymmetricKeySize::ToBytes` (SymmetricKeySize.cpp:106-115). -/
def KeySize.toBytes (s : KeySize) : M (List Byte) := do
  let t ← appendValue32 s.info []
  let t ← appendValue32 s.key t
  appendValue32 s.iv t

/-- `SymmetricKeySize::Contains` (SymmetricKeySize.cpp:59-97). -/
def KeySize.contains (l : List KeySize) (key iv info : Nat) : Bool :=
  l.any fun s =>
    if key ≠ 0 ∧ iv ≠ 0 ∧ info ≠ 0 then s.key.toNat = key ∧ s.iv.toNat = iv ∧ s.info.toNat = info
    else if key ≠ 0 ∧ iv ≠ 0 then s.key.toNat = key ∧ s.iv.toNat = iv
    else if key ≠ 0 ∧ info ≠ 0 then s.key.toNat = key ∧ s.info.toNat = info
    else s.key.toNat = key

/-- `AsymmetricKey` (AsymmetricKey.cpp:16-73); the enumerations have the underlying type `uint8_t` and 0 is `None`. -/
structure AsymKey where
  poly : List Byte
  primitive : Byte
  cls : Byte
  params : Byte
deriving DecidableEq

/-- The constructor (AsymmetricKey.cpp:77-91). -/
def AsymKey.new (poly : List Byte) (primitive cls params : Byte) : M AsymKey :=
  if poly.length ≠ 0 ∧ primitive ≠ 0 ∧ cls ≠ 0 ∧ params ≠ 0 then return ⟨poly, primitive, cls, params⟩ else throw (.throws .invalidParam)

/-- `ArrayTools::AppendValue<uint8_t>` on bytes (ArrayTools.h:114-125). -/
def appendByte (v : Byte) (out : List Byte) : M (List Byte) := blit (resize out (out.length + 1)) out.length [v]

/-- `AsymmetricKey::Serialize` (AsymmetricKey.cpp:144-154). -/
def AsymKey.serialize (k : AsymKey) : M (List Byte) := do
  let t ← appendByte k.cls []
  let t ← appendByte k.params t
  let t ← appendByte k.primitive t
  appendVector k.poly t

/-- `AsymmetricKey::DeSerialize` (AsymmetricKey.cpp:134-142); `begin() + 3` behind the end is undefined. The arguments are evaluated in an order that does not matter. -/
def AsymKey.deserialize (s : List Byte) : M AsymKey :=
  if s.length < 3 then throw .ub
  else do
    let prim ← rd s 2
    let cls ← rd s 0
    let par ← rd s 1
    AsymKey.new (s.drop 3) prim cls par

end Cex.Keys
