import Verif.Gcm.GhashModel
import Verif.Modes.Session

/-!
# Model of the GCM mode (CEX/GCM.cpp)

A function that can throw returns the exception together with the state (and output array) it leaves behind, because the caller keeps
both; `M` fails only for undefined behaviour. `Input`, `Output` and the members are distinct arrays. `CEXASSERT` is off.
The block cipher is a family `cip key info` of functions on 16-byte blocks. The bounds test of the CTR object's own parallel profile
(CTR.cpp:193-203) is taken to pass; the one of GCM is a parameter.
-/

namespace Cex.Gcm
open Cex Cex.IntTools Cex.Modes

/-- What a GCM instance is built with. -/
structure Env where
  /-- `HAS_CMUL` -/
  simd : Bool
  /-- SIMD width of CTR -/
  W : Nat
  /-- the block encryption for a key and an info string -/
  cip : List Byte → List Byte → List Byte → List Byte
  /-- `Contains(m_legalKeySizes, size)` (GCM.cpp:71-79, 91-99) -/
  legal : Nat → Bool
  /-- `Contains(LegalKeySizes(), size)` of the block cipher (RHX.cpp:204, SHX.cpp:202, CTR.cpp:184) -/
  engLegal : Nat → Bool

/-- `GcmState` (GCM.cpp:12-60) with the members of the objects it owns: `gh` is `m_macAuthenticator`, `ctr` the counter of `m_cipherMode`,
`eng` key and info string the block cipher was last keyed with, `ctrInit` is `m_cipherMode->IsInitialized()`. `Finalized` and
`Destroyed` are never read by the functions below. -/
structure Gcm where
  aad : List Byte
  buf : List Byte
  key : List Byte
  nonce : List Byte
  tag : List Byte
  counter : Nat
  enc : Bool
  init : Bool
  gh : Gh
  ctr : List Byte
  ctrInit : Bool
  eng : Option (List Byte × List Byte)

/-- A constructed GCM (GCM.cpp:27-40, 64-103). -/
def Gcm.fresh : Gcm :=
  ⟨[], [], [], List.replicate 16 0, List.replicate 16 0, 0, false, false, .fresh, List.replicate 16 0, false, none⟩

/-- The pre-counter block (GCM.cpp:254-265); `Buffer` holds the caller's nonce. -/
def Gcm.preCounter (e : Env) (st : Gcm) : M Gcm :=
  if st.buf.length = 12 then do
    let n ← copy st.buf 0 st.nonce 0 st.buf.length
    let n ← wr n 15 0x01
    return { st with nonce := n }
  else do
    let y ← st.gh.multiply e.simd st.buf 0 st.buf.length (List.replicate 16 0)
    let r ← st.gh.finalize e.simd y 0 st.buf.length
    let n ← copy r.2 0 st.nonce 0 st.nonce.length
    return { st with gh := r.1, nonce := n }

/-- `m_cipherMode->Transform` (CTR.cpp:221-251). An unkeyed block cipher has no round keys to read. -/
def Gcm.cipher (e : Env) (st : Gcm) (p : Profile) (scheds : Nat → List Nat) (inp : List Byte) (io : Nat) (out : List Byte) (oo len : Nat) :
    M (Gcm × List Byte) :=
  match st.eng with
  | none => throw .ub
  | some k => do
    let r ← ctrTransform .ctr e.W ⟨e.cip k.1 k.2, e.cip k.1 k.2⟩ p scheds st.ctr inp io out oo len
    return ({ st with ctr := r.1 }, r.2)

/-- The second half of `GCM::Initialize` (GCM.cpp:248-278): load the nonce, key and start CTR (CTR.cpp:182-209; the CTR object gets the
stored key without an info string), encrypt the pre-counter block. -/
def Gcm.load (e : Env) (st : Gcm) (encryption : Bool) (iv : List Byte) (p : Profile) (scheds : Nat → List Nat) : M (Option ErrCode × Gcm) := do
  let buf ← copy iv 0 (vresize st.buf iv.length) 0 iv.length
  let st ← { st with enc := encryption, buf := buf }.preCounter e
  if e.engLegal st.key.length = false then return (some .invalidKey, st)
  else do
    let c ← slice st.nonce 0 16
    let r ← { st with eng := some (st.key, []), ctr := c, ctrInit := true }.cipher e p scheds (List.replicate 16 0) 0 st.nonce 0 16
    return (none, { r.1 with nonce := r.2, init := true })

/-- The clearing at the start of `GCM::Initialize` (GCM.cpp:187-192): the content of `AAD` is cleared, not its size. -/
def Gcm.restart (st : Gcm) : M Gcm := do
  let aad ← clear st.aad 0 st.aad.length
  let gh ← st.gh.reset
  let buf ← clear st.buf 0 st.buf.length
  let tag ← clear st.tag 0 st.tag.length
  return { st with aad := aad, gh := gh, buf := buf, counter := 0, tag := tag }

/-- `GCM::Initialize` (GCM.cpp:185-279). `par` is the outcome of the test of the parallel profile (199-209). An empty key asks to keep the
previous one (211-221); otherwise the block cipher is keyed (its own test: RHX.cpp:204, SHX.cpp:202) and the hash key made. -/
def Gcm.initialize (e : Env) (st : Gcm) (encryption : Bool) (key info iv : List Byte) (par : Option ErrCode) (p : Profile) (scheds : Nat → List Nat) :
    M (Option ErrCode × Gcm) := do
  let st ← st.restart
  if iv.length < 8 then return (some .invalidNonce, st)
  else match par with
  | some x => return (some x, st)
  | none =>
    if key.length = 0 then
      if iv = st.buf then return (some .invalidNonce, st)
      else if st.ctrInit = false then return (some .illegalOperation, st)
      else st.load e encryption iv p scheds
    else if e.legal key.length = false then return (some .invalidKey, st)
    else if e.engLegal key.length = false then return (some .invalidKey, st)
    else do
      let tmph ← blit (List.replicate 16 0) 0 (e.cip key info (List.replicate 16 0))
      let k0 ← beBytesTo64 tmph 0
      let k1 ← beBytesTo64 tmph 8
      let stored ← copy key 0 (vresize st.key key.length) 0 key.length
      { st with gh := st.gh.initialize k0 k1, key := stored, eng := some (key, info) }.load e encryption iv p scheds

/-- `GCM::SetAssociatedData` (GCM.cpp:291-321). -/
def Gcm.setAssociatedData (e : Env) (st : Gcm) (inp : List Byte) (off len : Nat) : M (Option ErrCode × Gcm) :=
  if st.init = false then return (some .notInitialized, st)
  else if st.aad.length ≠ 0 then return (some .illegalOperation, st)
  else do
    let aad ← copy inp off (vresize st.aad len) 0 len
    let tag ← st.gh.multiply e.simd aad 0 len st.tag
    return (none, { st with aad := aad, tag := tag })

/-- `GCM::Finalize` (GCM.cpp:356-385) with `Length = TagSize() = 16`. -/
def Gcm.finalize (e : Env) (st : Gcm) (out : List Byte) (oo : Nat) : M (Option ErrCode × Gcm × List Byte) :=
  if st.init = false then return (some .notInitialized, st, out)
  else do
    let r ← st.gh.finalize e.simd st.tag st.aad.length st.counter
    let tag ← xorInto st.nonce 0 r.2 0 16
    let gh ← r.1.clear
    let nonce ← clear st.nonce 0 st.nonce.length
    let out ← copy tag 0 out oo 16
    return (none, { st with tag := tag, aad := [], gh := gh, nonce := nonce, counter := 0, init := false }, out)

/-- `GCM::Verify` (GCM.cpp:387-408): the tag is computed into `code`, `Tag` is cleared and set again on success. -/
def Gcm.verify (e : Env) (st : Gcm) (inp : List Byte) (off : Nat) : M (Option ErrCode × Gcm × Bool) := do
  let r ← st.finalize e (List.replicate 16 0) 0
  match r.1 with
  | some x => return (some x, r.2.1, false)
  | none => do
    let tag ← clear r.2.1.tag 0 16
    let tag := vresize tag 16
    let ok ← compare r.2.2 0 inp off 16
    if ok then do
      let tag ← copy r.2.2 0 tag 0 16
      return (none, { r.2.1 with tag := tag }, true)
    else return (none, { r.2.1 with tag := tag }, false)

/-- `GCM::Transform` (GCM.cpp:323-352). -/
def Gcm.transform (e : Env) (st : Gcm) (p : Profile) (scheds : Nat → List Nat) (inp : List Byte) (io : Nat) (out : List Byte) (oo len : Nat) :
    M (Option ErrCode × Gcm × List Byte) :=
  let st := { st with counter := (st.counter + len) % 2 ^ 64 }
  if st.enc then do
    let c ← st.cipher e p scheds inp io out oo len
    let m ← c.1.gh.update e.simd c.2 oo len c.1.tag
    { c.1 with gh := m.1, tag := m.2 }.finalize e c.2 (oo + len)
  else do
    let m ← st.gh.update e.simd inp io len st.tag
    let v ← { st with gh := m.1, tag := m.2 }.verify e inp (io + len)
    match v.1 with
    | some x => return (some x, v.2.1, out)
    | none =>
      if v.2.2 then do
        let c ← v.2.1.cipher e p scheds inp io out oo len
        return (none, c.1, c.2)
      else return (some .authenticationFailure, v.2.1, out)

end Cex.Gcm
