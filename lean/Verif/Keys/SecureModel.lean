import Verif.Keys.Model

/-!
# Model of the keys that are kept encrypted: SymmetricSecureKey and AsymmetricSecureKey

The stream cipher and the key derivation (SHAKE over the names of computer, system, user and process and over the properties of the processor, customised with the salt) are parameters: the names
and properties do not change while the key lives. The accessors turn an authentication failure into one that names them; the error code is the same. `SecureVector` and `std::vector` are both lists of
bytes, and the erasing of temporary arrays is not modelled.
-/

namespace Cex.Keys
open Cex Cex.Kdf

/-- `SecurityPolicy` (SecurityPolicy.h:11-41). -/
inductive Policy
  | none | spl256 | spl256ae | spl512 | spl512ae | spl1024 | spl1024ae
deriving DecidableEq

/-- The stream ciphers that the keys use, without and with authentication (StreamCipherFromName.cpp:77-106). -/
inductive Tsx
  | t256 | t256a | t512 | t512a | t1024 | t1024a
deriving DecidableEq

/-- `IStreamCipher`: `IsAuthenticator()`, `TagSize()`, the first of `LegalKeySizes()`, and `Initialize(encryption, key)` followed by `Transform(Input, InOffset, Output, OutOffset, Length)`. -/
structure Eng where
  auth : Bool
  tag : Nat
  ksize : Nat
  ivsize : Nat
  transform : (encryption : Bool) → (key nonce : List Byte) → (inp : List Byte) → (io : Nat) → (out : List Byte) → (oo len : Nat) → M (List Byte)

/-- What the keys are set in: the ciphers and the output of SHAKE for policy, salt and length. -/
structure World where
  eng : Tsx → Eng
  kdf : Policy → List Byte → Nat → List Byte

/-- `SymmetricSecureKey::GetStreamCipher` (SymmetricSecureKey.cpp:534-578). -/
def symTsx : Policy → Tsx
  | .spl256 => .t256
  | .spl256ae => .t256a
  | .spl512 => .t512
  | .spl512ae => .t512a
  | .spl1024 => .t1024
  | .spl1024ae => .t1024a
  | .none => .t512a

/-- `AsymmetricSecureKey::GetStreamCipher` (AsymmetricSecureKey.cpp:257-301). -/
def asymTsx : Policy → Tsx
  | .spl256 => .t256
  | .spl256ae => .t1024a
  | .spl512 => .t512
  | .spl512ae => .t512a
  | .spl1024 => .t1024
  | .spl1024ae => .t1024a
  | .none => .t512a

/-- `GetSystemKey` (SymmetricSecureKey.cpp:580-624, AsymmetricSecureKey.cpp:303-347); SHAKE refuses a salt of one to three bytes (SHAKE.cpp:238-241). -/
def systemKey (w : World) (p : Policy) (salt : List Byte) (n : Nat) : M (List Byte) :=
  if salt.length ≠ 0 ∧ salt.length < 4 then throw (.throws .invalidSalt) else return w.kdf p salt n

/-- Key and nonce from the seed (e.g. SymmetricSecureKey.cpp:495-498). -/
def keyNonce (w : World) (c : Eng) (p : Policy) (salt : List Byte) : M (List Byte × List Byte) := do
  let seed ← systemKey w p salt (c.ksize + c.ivsize)
  let k ← copy seed 0 (List.replicate c.ksize 0) 0 c.ksize
  let n ← copy seed c.ksize (List.replicate c.ivsize 0) 0 c.ivsize
  return (k, n)

/-- `Encipher` (SymmetricSecureKey.cpp:475-504, AsymmetricSecureKey.cpp:198-227): the plain state goes in, the stored one comes out. -/
def encipher (w : World) (c : Eng) (p : Policy) (salt state : List Byte) : M (List Byte) := do
  let cpt := List.replicate state.length 0
  let cpt := if c.auth then resize cpt (cpt.length + c.tag) else cpt
  let (k, n) ← keyNonce w c p salt
  c.transform true k n state 0 cpt 0 state.length

/-- `Extract` (SymmetricSecureKey.cpp:506-532; AsymmetricSecureKey.cpp:229-255 with offset 0). -/
def extract (w : World) (c : Eng) (p : Policy) (salt state : List Byte) (off : Nat) (out : List Byte) (len : Nat) : M (List Byte) := do
  let cptsze := if c.auth then state.length - c.tag else state.length
  let (k, n) ← keyNonce w c p salt
  let tmpt ← c.transform false k n state 0 (List.replicate state.length 0) 0 cptsze
  copy tmpt off out 0 len

/-- `SymmetricSecureKey::SecureKeyState` (SymmetricSecureKey.cpp:26-183): salt, stored state, sizes, policy. -/
structure SecKey where
  salt : List Byte
  state : List Byte
  klen : Nat
  nlen : Nat
  ilen : Nat
  policy : Policy
deriving DecidableEq

/-- The plain state of a key (SymmetricSecureKey.cpp:84-106). -/
def joined (key iv info : List Byte) : M (List Byte) := do
  let s := List.replicate (key.length + iv.length + info.length) 0
  let s ← copy key 0 s 0 key.length
  let s ← copy iv 0 s key.length iv.length
  copy info 0 s (key.length + iv.length) info.length

/-- The constructors without policy and salt (SymmetricSecureKey.cpp:185-231), the one from three vectors. -/
def SecKey.new (w : World) (key iv info : List Byte) : M SecKey :=
  if key.length + iv.length + info.length ≠ 0 then do
    let s ← joined key iv info
    let s ← encipher w (w.eng (symTsx .spl256)) .spl256 [] s
    return ⟨[], s, key.length, iv.length, info.length, .spl256⟩
  else throw (.throws .invalidParam)

/-- The constructors with policy and salt (SymmetricSecureKey.cpp:233-279), the one from three vectors. -/
def SecKey.newSalted (w : World) (key iv info : List Byte) (p : Policy) (salt : List Byte) : M SecKey :=
  if key.length + iv.length + info.length ≠ 0 ∧ salt.length ≠ 0 ∧ p ≠ .none then do
    let s ← joined key iv info
    let s ← encipher w (w.eng (symTsx p)) p salt s
    return ⟨salt, s, key.length, iv.length, info.length, p⟩
  else throw (.throws .invalidParam)

/-- `Key` and `SecureKey` (SymmetricSecureKey.cpp:309-323, 362-376). -/
def SecKey.key (w : World) (k : SecKey) : M (List Byte) := extract w (w.eng (symTsx k.policy)) k.policy k.salt k.state 0 (List.replicate k.klen 0) k.klen

/-- `IV` and `SecureIV` (SymmetricSecureKey.cpp:330-344, 378-392). -/
def SecKey.iv (w : World) (k : SecKey) : M (List Byte) := extract w (w.eng (symTsx k.policy)) k.policy k.salt k.state k.klen (List.replicate k.nlen 0) k.nlen

/-- `Info` and `SecureInfo` (SymmetricSecureKey.cpp:291-307, 346-360). -/
def SecKey.info (w : World) (k : SecKey) : M (List Byte) :=
  extract w (w.eng (symTsx k.policy)) k.policy k.salt k.state (k.klen + k.nlen) (List.replicate k.ilen 0) k.ilen

/-- `Clone` (SymmetricSecureKey.cpp:396-399). -/
def SecKey.clone (w : World) (k : SecKey) : M SecKey := do
  let key ← k.key w
  let iv ← k.iv w
  let info ← k.info w
  SecKey.newSalted w key iv info k.policy k.salt

/-- `AsymmetricSecureKeyState` (AsymmetricSecureKey.cpp:31-89). -/
structure AsymSecKey where
  poly : List Byte
  salt : List Byte
  primitive : Byte
  cls : Byte
  params : Byte
  policy : Policy

/-- The constructors (AsymmetricSecureKey.cpp:93-109). -/
def AsymSecKey.new (w : World) (poly salt : List Byte) (primitive cls params : Byte) (p : Policy) : M AsymSecKey :=
  if poly.length ≠ 0 ∧ cls ≠ 0 ∧ primitive ≠ 0 ∧ params ≠ 0 ∧ p ≠ .none then do
    let s ← encipher w (w.eng (asymTsx p)) p salt poly
    return ⟨s, salt, primitive, cls, params, p⟩
  else throw (.throws .invalidParam)

/-- `Polynomial` (AsymmetricSecureKey.cpp:133-148). -/
def AsymSecKey.polynomial (w : World) (k : AsymSecKey) : M (List Byte) :=
  extract w (w.eng (asymTsx k.policy)) k.policy k.salt k.poly 0 (List.replicate k.poly.length 0) k.poly.length

/-- `Serialize` (AsymmetricSecureKey.cpp:184-194). `DeSerialize` (177-182) is `AsymKey.deserialize`. -/
def AsymSecKey.serialize (w : World) (k : AsymSecKey) : M (List Byte) := do
  let t ← appendByte k.cls []
  let t ← appendByte k.params t
  let t ← appendByte k.primitive t
  let x ← k.polynomial w
  appendVector x t

end Cex.Keys
