import Verif.Kdf.Fill
import Verif.Mac.HmacModel

/-!
# Model of HKDF (CEX/HKDF.cpp)

Parameters: the digest `D` inside the HMAC, and `keyOk`, the key-size test of `HMAC::Initialize`.
-/

namespace Cex.Kdf
open Cex Cex.Digest Cex.Mac

/-- `HkdfState` (HKDF.cpp:11-40) and the HMAC instance. `state` has one byte more than the tag, the counter. -/
structure Hkdf (D : DigestOps) where
  mac : Hmac D
  info : List Byte
  state : List Byte
  init : Bool

namespace Hkdf
variable {D : DigestOps}

/-- The constructors (HKDF.cpp:44-88). -/
def fresh (s : D.σ) : Hkdf D := ⟨.fresh s, [], List.replicate (D.size + 1) 0, false⟩

/-- `HKDF::Reset` with `HkdfState::Reset` (HKDF.cpp:261-266, 33-39). The info vector keeps its size. -/
def reset (st : Hkdf D) : M (Hkdf D) := do
  let info ← clear st.info 0 st.info.length
  let state ← clear st.state 0 st.state.length
  let mac ← st.mac.reset
  return ⟨mac, info, state, false⟩

/-- `HKDF::Extract` (HKDF.cpp:141-156; the other overload, 124-139, differs in the vector type). -/
def extract (keyOk : Nat → Bool) (mac : Hmac D) (key salt out : List Byte) : M (Hmac D × List Byte) := do
  let mac ← (if salt.length ≠ 0 then mac.initialize keyOk salt else mac.initialize keyOk (List.replicate D.size 0))
  let mac ← mac.update key 0 key.length
  mac.finalizeSecure out 0

/-- The info is stored when given (HKDF.cpp:234-238). -/
def setInfo (st : Hkdf D) (info : List Byte) : M (List Byte) :=
  if info.length ≠ 0 then copy info 0 (resize st.info info.length) 0 (resize st.info info.length).length else return st.info

/-- The key of the MAC (HKDF.cpp:240-256). -/
def setKey (keyOk : Nat → Bool) (st : Hkdf D) (key iv info : List Byte) : M (Hmac D) :=
  if iv.length ≠ 0 then
    if iv.length + info.length < 4 then throw (.throws .invalidSalt)
    else do
      let r ← extract keyOk st.mac key iv (List.replicate D.size 0)
      r.1.initialize keyOk r.2
  else st.mac.initialize keyOk key

/-- `HKDF::Initialize` (HKDF.cpp:222-259). -/
def «initialize» (keyOk : Nat → Bool) (st : Hkdf D) (key iv info : List Byte) : M (Hkdf D) :=
  if key.length < 16 then throw (.throws .invalidKey)
  else do
    let st ← (if st.init then st.reset else pure st)
    let info' ← st.setInfo info
    let mac ← st.setKey keyOk key iv info
    return ⟨mac, info', st.state, true⟩

/-- One pass of the loop in `Expand` up to the new block in `state` (HKDF.cpp:278-294). -/
def block (st : Hkdf D) : M (Hkdf D) := do
  let c ← rd st.state D.size
  let mac ← (if c ≠ 0 then st.mac.update st.state 0 (st.state.length - 1) else pure st.mac)
  let mac ← (if st.info.length ≠ 0 then mac.update st.info 0 st.info.length else pure mac)
  let state ← wr st.state D.size (c + 1)
  let mac ← mac.update state D.size 1
  let r ← mac.finalize state 0
  return { st with mac := r.1, state := r.2 }

/-- One pass of the loop in `Expand`, pass `k` (HKDF.cpp:276-300): `plen = k * TagSize`. -/
def pass (len oo k : Nat) (p : Hkdf D × List Byte) : M (Hkdf D × List Byte) := do
  let st ← p.1.block
  let out ← copy st.state 0 p.2 (oo + k * D.size) (min D.size (len - k * D.size))
  return (st, out)

/-- `HKDF::Expand` (HKDF.cpp:270-301). -/
def expand (st : Hkdf D) (out : List Byte) (oo len : Nat) : M (Hkdf D × List Byte) :=
  loopN (blocksFor D.size len) 0 (pass len oo) (st, out)

/-- `HKDF::Generate(Output, OutOffset, Length)` (HKDF.cpp:186-202). -/
def generate (st : Hkdf D) (out : List Byte) (oo len : Nat) : M (Hkdf D × List Byte) :=
  if st.init = false then throw (.throws .notInitialized)
  else if D.size = 0 then throw .ub
  else do
    let c ← rd st.state D.size
    if c.toNat + len / D.size > 255 then throw (.throws .maxExceeded)
    else if subU out.length oo < len then throw (.throws .invalidSize)
    else st.expand out oo len

/-- `HKDF::Generate(Output)` (HKDF.cpp:158-170). -/
def generateAll (st : Hkdf D) (out : List Byte) : M (Hkdf D × List Byte) :=
  if st.init = false then throw (.throws .notInitialized)
  else if D.size = 0 then throw .ub
  else do
    let c ← rd st.state D.size
    if c.toNat + out.length / D.size > 255 then throw (.throws .maxExceeded)
    else st.expand out 0 out.length

/-- `HKDF::Generate` into a `SecureVector` (HKDF.cpp:204-220, 303-308): the temporary has `Length` bytes but is written at
`OutOffset`. -/
def generateSecure (st : Hkdf D) (out : List Byte) (oo len : Nat) : M (Hkdf D × List Byte) :=
  if st.init = false then throw (.throws .notInitialized)
  else if D.size = 0 then throw .ub
  else do
    let c ← rd st.state D.size
    if c.toNat + len / D.size > 255 then throw (.throws .maxExceeded)
    else if subU out.length oo < len then throw (.throws .invalidSize)
    else do
      let r ← st.expand (List.replicate len 0) oo len
      let out ← copy r.2 0 out oo len
      return (r.1, out)

end Hkdf
end Cex.Kdf
