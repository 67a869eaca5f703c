import Verif.Mac.Interface
import Verif.Gcm.GhashModel
import Verif.Modes.Session

/-!
# Model of the HBA mode (CEX/HBA.cpp)

A function that can throw returns the exception together with the state (and output array) it leaves behind. `Input`, `Output` and the
members are distinct arrays. `CEXASSERT` is off. Simplification: an exception of the MAC, of the key derivation function or of the ICM object
is an error of the whole call here (`M`), without the state left behind. The block cipher is a family `cip key info` of functions on 16-byte
blocks. The key derivation function is a parameter as well: the object is created inside `Initialize` and `Finalize` (HBA.cpp:261-275,
299-316, 467-476, 488-499), so it is a function of its inputs and of the lengths of the outputs asked for one after the other.
-/

namespace Cex.Hba
open Cex Cex.IntTools Cex.Modes Cex.Mac Cex.Gcm

/-- What an HBA instance is built with. Length functions take the size of the user's key. -/
structure Env where
  /-- `m_macAuthenticator` -/
  mac : MacOps
  /-- cSHAKE or HKDF (extract, then expand): size of the user's key, key, customisation, name, output lengths -/
  gen : Nat → List Byte → List Byte → List Byte → List Nat → M (List (List Byte))
  /-- the block encryption for a key and an info string -/
  cip : List Byte → List Byte → List Byte → List Byte
  /-- `Name()` -/
  name : List Byte
  /-- `tmpk.size()` (HBA.cpp:189, 296) -/
  ckLen : Nat → Nat
  /-- `mack.size()` (HBA.cpp:259, 295) -/
  mkLen : Nat → Nat
  /-- `mack.size()` in `Finalize` (HBA.cpp:475, 498) -/
  rkLen : Nat → Nat
  /-- `Contains(LegalKeySizes(), size)` (HBA.cpp:192) -/
  legal : Nat → Bool
  /-- the same test in `ICM::Initialize` (ICM.cpp:184) -/
  engLegal : Nat → Bool

/-- `HbaState` (HBA.cpp:23-75) with the objects it owns: `mac` is `m_macAuthenticator`, `nonce` and `eng` (key and info string) belong to
`m_cipherMode`, `ksize` is the size of the user's key, which determines `Digest` (HBA.cpp:287-289). -/
structure Hba (e : Env) where
  custom : List Byte
  macKey : List Byte
  macTag : List Byte
  name : List Byte
  counter : Nat
  ksize : Nat
  enc : Bool
  init : Bool
  mac : e.mac.σ
  nonce : List Byte
  eng : Option (List Byte × List Byte)

namespace Hba
variable {e : Env}

/-- A constructed HBA (HBA.cpp:39-53, 81-104); ICM holds a zero nonce. -/
def fresh (s : e.mac.σ) : Hba e := ⟨[], [], [], [], 0, 0, false, false, s, List.replicate 16 0, none⟩

/-- `HbaState::Reset` and the reset of the MAC (HBA.cpp:60-74, 214-218). -/
def reset (st : Hba e) : M (Hba e) := do
  let mac ← e.mac.reset st.mac
  return { st with custom := [], macKey := [], macTag := [], name := [], counter := 0, enc := false, init := false, mac := mac }

/-- The customisation string (HBA.cpp:230-235). -/
def setCustom (st : Hba e) (info : List Byte) : M (List Byte) :=
  if info.length ≠ 0 then copy info 0 (vresize st.custom info.length) 0 info.length else return st.custom

/-- The name string: counter, key size in bits, algorithm name (HBA.cpp:238-247). -/
def makeName (st : Hba e) (n : Nat) : M (List Byte) := do
  let s := vresize st.name (8 + 2 + e.name.length)
  let s ← le64ToBytes 1 s 0
  let s ← le16ToBytes (BitVec.ofNat 16 (n * 8)) s 8
  blit s 10 e.name

/-- `HBA::Initialize` (HBA.cpp:187-328). `par` is the outcome of the tests of the parallel profile (201-211). -/
def «initialize» (st : Hba e) (encryption : Bool) (key iv info : List Byte) (par : Option ErrCode) : M (Option ErrCode × Hba e) :=
  if e.legal key.length = false then return (some .invalidKey, st)
  else if iv.length ≠ 16 then return (some .invalidNonce, st)
  else match par with
  | some x => return (some x, st)
  | none => do
    let st ← (if st.init then st.reset else pure st)
    let custom ← st.setCustom info
    let name ← st.makeName key.length
    let ks ← e.gen key.length key custom name [e.ckLen key.length, e.mkLen key.length]
    let st := { st with counter := 1, enc := encryption, macTag := vresize st.macTag e.mac.tag, custom := custom, name := name, ksize := key.length }
    match ks with
    | [ck, mkey] =>
      if e.engLegal ck.length = false then return (some .invalidKey, st)
      else do
        let nonce ← copy iv 0 st.nonce 0 16
        let mac ← e.mac.init st.mac mkey
        let macKey ← copy mkey 0 (vresize st.macKey mkey.length) 0 mkey.length
        return (none, { st with nonce := nonce, eng := some (ck, info), mac := mac, macKey := macKey, init := true })
    | _ => throw .ub

/-- `HBA::SetAssociatedData` (HBA.cpp:340-386). -/
def setAssociatedData (st : Hba e) (inp : List Byte) (off len : Nat) : M (Option ErrCode × Hba e) :=
  if st.init = false then return (some .notInitialized, st)
  else if subU len off > inp.length then return (some .invalidSize, st)
  else if len ≠ 0 then do
    let mac ← e.mac.update st.mac inp off len
    let actr ← le32ToBytes (BitVec.ofNat 32 len) (List.replicate 4 0) 0
    let mac ← e.mac.update mac actr 0 actr.length
    return (none, { st with mac := mac })
  else return (none, st)

/-- `HBA::Finalize` (HBA.cpp:439-508) with `Length = TagSize()`. -/
def finalize (st : Hba e) (out : List Byte) (oo : Nat) : M (Hba e × List Byte) := do
  let pctr ← le64ToBytes (BitVec.ofNat 64 (st.counter + st.nonce.length + 8)) (List.replicate 8 0) 0
  let mac ← e.mac.update st.mac pctr 0 pctr.length
  let t ← e.mac.finalize mac st.macTag 0
  let out ← copy t.2 0 out oo e.mac.tag
  let name ← le64ToBytes (BitVec.ofNat 64 st.counter) st.name 0
  let ks ← e.gen st.ksize st.macKey st.custom name [e.rkLen st.ksize]
  match ks with
  | [mkey] => do
    let mac ← e.mac.init t.1 mkey
    let macKey ← copy mkey 0 st.macKey 0 mkey.length
    return ({ st with mac := mac, macTag := t.2, name := name, macKey := macKey }, out)
  | _ => throw .ub

/-- `HBA::Verify` (HBA.cpp:510-531). -/
def verify (st : Hba e) (inp : List Byte) (off : Nat) : M (Hba e × Bool) := do
  let r ← st.finalize (List.replicate e.mac.tag 0) 0
  let tag ← (if r.1.macTag.length ≠ 0 then do let t ← clear r.1.macTag 0 r.1.macTag.length; pure (vresize t e.mac.tag) else pure r.1.macTag)
  let tag ← copy r.2 0 tag 0 tag.length
  let ok ← compare tag 0 inp off e.mac.tag
  return ({ r.1 with macTag := tag }, ok)

/-- `m_cipherMode->Transform` (ICM.cpp:221-251). `W` is the SIMD width. An unkeyed block cipher has no round keys to read. -/
def cipher (st : Hba e) (W : Nat) (p : Profile) (scheds : Nat → List Nat) (inp : List Byte) (io : Nat) (out : List Byte) (oo len : Nat) : M (Hba e × List Byte) :=
  match st.eng with
  | none => throw .ub
  | some k => do
    let r ← ctrTransform .icm W ⟨e.cip k.1 k.2, e.cip k.1 k.2⟩ p scheds st.nonce inp io out oo len
    return ({ st with nonce := r.1 }, r.2)

/-- `HBA::Transform` (HBA.cpp:388-435). -/
def transform (st : Hba e) (W : Nat) (p : Profile) (scheds : Nat → List Nat) (inp : List Byte) (io : Nat) (out : List Byte) (oo len : Nat) :
    M (Option ErrCode × Hba e × List Byte) :=
  if st.init = false then return (some .notInitialized, st, out)
  else do
    let mac ← e.mac.update st.mac st.nonce 0 st.nonce.length
    let st := { st with mac := mac }
    if st.enc then
      if subU out.length oo < (len + e.mac.tag) % 2 ^ 64 then return (some .invalidSize, st, out)
      else do
        let c ← st.cipher W p scheds inp io out oo len
        let mac ← e.mac.update c.1.mac c.2 oo len
        let r ← { c.1 with mac := mac, counter := (c.1.counter + len) % 2 ^ 64 }.finalize c.2 (oo + len)
        return (none, r.1, r.2)
    else
      if subU out.length oo < len then return (some .invalidSize, st, out)
      else do
        let mac ← e.mac.update st.mac inp io len
        let v ← { st with mac := mac, counter := (st.counter + len) % 2 ^ 64 }.verify inp (io + len)
        if v.2 = false then return (some .authenticationFailure, v.1, out)
        else do
          let c ← v.1.cipher W p scheds inp io out oo len
          return (none, c.1, c.2)

/-- The caller's calls of `SetAssociatedData`, one after the other, until one throws. -/
def feed (st : Hba e) : List Window → M (Option ErrCode × Hba e)
  | [] => return (none, st)
  | w :: ws => do
    let r ← st.setAssociatedData w.buf w.off w.len
    match r.1 with
    | some x => return (some x, r.2)
    | none => r.2.feed ws

/-- One message: associated data, then `Transform`. -/
def message (st : Hba e) (ads : List Window) (W : Nat) (p : Profile) (scheds : Nat → List Nat) (inp : List Byte) (io : Nat) (out : List Byte) (oo len : Nat) :
    M (Option ErrCode × Hba e × List Byte) := do
  let r ← st.feed ads
  match r.1 with
  | some x => return (some x, r.2, out)
  | none => r.2.transform W p scheds inp io out oo len

end Hba
end Cex.Hba
