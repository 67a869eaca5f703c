import Verif.Digest.Interface
import Verif.Mac.CmacModel

/-!
# Model of HMAC (CEX/HMAC.cpp)

The digest object is part of the state; its implementation `D` is arbitrary.
-/

namespace Cex.Mac
open Cex Cex.Digest

/-- `HmacState` (HMAC.cpp:15-53) and the digest instance. -/
structure Hmac (D : DigestOps) where
  dg : D.σ
  ipad : List Byte
  opad : List Byte
  init : Bool

namespace Hmac
variable {D : DigestOps}

/-- The constructors (HMAC.cpp:57-122). -/
def fresh (s : D.σ) : Hmac D := ⟨s, List.replicate D.block 0, List.replicate D.block 0, false⟩

/-- `HMAC::Reset` with `HmacState::Reset` (HMAC.cpp:247-252, 47-52). -/
def reset (st : Hmac D) : M (Hmac D) := do
  let dg ← D.reset st.dg
  let ipad ← clear st.ipad 0 st.ipad.length
  let opad ← clear st.opad 0 st.opad.length
  return ⟨dg, ipad, opad, false⟩

/-- `MemoryTools::XorPad` (MemoryTools.h:1579-1641): every byte, in whole vectors or one at a time. -/
def xorPad (b : List Byte) (n : Byte) : List Byte := b.map (· ^^^ n)

/-- The key is hashed when longer than a block, else copied (HMAC.cpp:221-232). Result: digest, pad, `klen`. -/
def loadKey (st : Hmac D) (key : List Byte) : M (D.σ × List Byte × Nat) :=
  if key.length > D.block then do
    let dg ← D.update st.dg key 0 key.length
    let r ← D.finalize dg st.ipad 0
    return (r.1, r.2, D.size)
  else do
    let ipad ← copy key 0 st.ipad 0 key.length
    return (st.dg, ipad, key.length)

/-- The padding with zeros (HMAC.cpp:234-237). -/
def padKey (D : DigestOps) (ipad : List Byte) (klen : Nat) : M (List Byte) :=
  if D.block > klen then clear ipad klen (D.block - klen) else return ipad

/-- `HMAC::Initialize` (HMAC.cpp:200-245). `keyOk` is the key-size test: at least `MINKEY_LENGTH`, or a legal size. -/
def «initialize» (keyOk : Nat → Bool) (st : Hmac D) (key : List Byte) : M (Hmac D) :=
  if keyOk key.length = false then throw (.throws .invalidKey)
  else do
    let st ← (if st.init then st.reset else pure st)
    let r ← st.loadKey key
    let ipad ← padKey D r.2.1 r.2.2
    let opad ← copy ipad 0 st.opad 0 ipad.length
    let ipad := xorPad ipad 0x36
    let opad := xorPad opad 0x5C
    let dg ← D.update r.1 ipad 0 ipad.length
    return ⟨dg, ipad, opad, true⟩

/-- `HMAC::Update` (HMAC.cpp:254-266). -/
def update (st : Hmac D) (inp : List Byte) (io len : Nat) : M (Hmac D) :=
  if st.init = false then throw (.throws .notInitialized)
  else if subU inp.length io < len then throw (.throws .invalidSize)
  else do
    let dg ← D.update st.dg inp io len
    return { st with dg := dg }

/-- `HMAC::Finalize` (HMAC.cpp:168-188). -/
def finalize (st : Hmac D) (out : List Byte) (oo : Nat) : M (Hmac D × List Byte) :=
  if st.init = false then throw (.throws .notInitialized)
  else if subU out.length oo < D.size then throw (.throws .invalidSize)
  else do
    let r ← D.finalize st.dg (List.replicate D.size 0) 0
    let dg ← D.update r.1 st.opad 0 st.opad.length
    let dg ← D.update dg r.2 0 r.2.length
    let f ← D.finalize dg out oo
    let dg ← D.update f.1 st.ipad 0 st.ipad.length
    return ({ st with dg := dg }, f.2)

/-- `HMAC::Finalize` into a `SecureVector` (HMAC.cpp:190-198); `SecureMove` is SecureVector.h:394-403. -/
def finalizeSecure (st : Hmac D) (out : List Byte) (oo : Nat) : M (Hmac D × List Byte) := do
  let r ← st.finalize (List.replicate D.size 0) 0
  let out ← copy r.2 0 out oo r.2.length
  return (r.1, out)

/-- `HMAC::Compute` (HMAC.cpp:153-166). -/
def compute (st : Hmac D) (inp out : List Byte) : M (Hmac D × List Byte) :=
  if st.init = false then throw (.throws .notInitialized)
  else if out.length < D.size then throw (.throws .invalidSize)
  else do
    let st ← st.update inp 0 inp.length
    st.finalize out 0

end Hmac
end Cex.Mac
