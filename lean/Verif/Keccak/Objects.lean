import Verif.Keccak.Model

/-!
# Models of SHA3 (sequential), KMAC and SHAKE (CEX/SHA3256.cpp, CEX/SHA3512.cpp, CEX/KMAC.cpp, CEX/SHAKE.cpp)

`P` is the permutation function used.
-/

namespace Cex.Keccak
open Cex Cex.Mac

variable (P : List Byte → M (List Byte))

/-- Keccak state, message buffer and fill count: `m_dgtState[0]`, `m_msgBuffer`, `m_msgLength` of SHA3; `State`, `Buffer`, `Position` of KMAC. -/
structure Buffered where
  st : List Byte
  buf : List Byte
  pos : Nat

/-- The partially filled block (SHA3256.cpp:322-336, KMAC.cpp:243-256). Result: object, `InOffset`, `Length`. -/
def Buffered.first (rate : Nat) (s : Buffered) (inp : List Byte) (io len : Nat) : M (Buffered × Nat × Nat) :=
  if s.pos ≠ 0 ∧ s.pos + len ≥ rate then do
    let buf ← copy inp io s.buf s.pos (rate - s.pos)
    let st ← absorbOne P buf 0 rate s.st
    return (⟨st, buf, 0⟩, io + (rate - s.pos), len - (rate - s.pos))
  else return (s, io, len)

/-- Whole blocks, then the rest is stored (SHA3256.cpp:339-353, KMAC.cpp:259-272). -/
def Buffered.rest (rate : Nat) (inp : List Byte) (r : Buffered × Nat × Nat) : M Buffered := do
  let st ← absorbLoop P inp rate (r.2.2 / rate) r.2.1 r.1.st
  if r.2.2 % rate = 0 then return { r.1 with st := st }
  else do
    let buf ← copy inp (r.2.1 + rate * (r.2.2 / rate)) r.1.buf r.1.pos (r.2.2 % rate)
    return ⟨st, buf, r.1.pos + r.2.2 % rate⟩

/-- The body of `Update` (SHA3256.cpp:267-354 not parallel, KMAC.cpp:240-273). -/
def Buffered.update (rate : Nat) (s : Buffered) (inp : List Byte) (io len : Nat) : M Buffered :=
  if len = 0 then return s
  else do
    let r ← s.first P rate inp io len
    Buffered.rest P rate inp r

/-! ## SHA3 -/

namespace Sha3

/-- `Reset` of a sequential instance (SHA3256.cpp:223-241). -/
def reset (s : Buffered) : M Buffered := do
  let buf ← clear s.buf 0 s.buf.length
  let st ← clear s.st 0 s.st.length
  return ⟨st, buf, 0⟩

/-- Construction with `Parallel = false` (SHA3256.cpp:37-52). -/
def new (rate : Nat) : M Buffered := reset ⟨List.replicate 200 0, List.replicate rate 0, 0⟩

/-- `Finalize` of a sequential instance (SHA3256.cpp:133-139, 199-208) with digest size `d`. -/
def finalize (rate d : Nat) (s : Buffered) (out : List Byte) (oo : Nat) : M (Buffered × List Byte) :=
  if subU out.length oo < d then throw (.throws .invalidSize)
  else do
    let buf ← (if s.pos ≠ s.buf.length then clear s.buf s.pos (s.buf.length - s.pos) else pure s.buf)
    let st ← absorb P buf 0 s.pos rate 0x06 s.st
    let st ← P st
    let out ← copy st 0 out oo d
    let s ← reset ⟨st, buf, s.pos⟩
    return (s, out)

/-- `Compute` (SHA3256.cpp:122-131). -/
def compute (rate d : Nat) (s : Buffered) (inp out : List Byte) : M (Buffered × List Byte) :=
  if out.length < d then throw (.throws .invalidSize)
  else do
    let s ← s.update P rate inp 0 inp.length
    finalize P rate d s out 0

end Sha3

/-! ## KMAC -/

/-- `KmacState` (KMAC.cpp:14-52). -/
structure Kmac extends Buffered where
  rate : Nat
  tag : Nat
  init : Bool

namespace Kmac

/-- The constructor (KMAC.cpp:56-88): the three modes have rates 168, 136, 72 and tags 16, 32, 64. -/
def fresh (rate tag : Nat) : Kmac := ⟨⟨List.replicate 200 0, List.replicate 200 0, 0⟩, rate, tag, false⟩

/-- `KMAC::Reset` (KMAC.cpp:46-51, 223-227). -/
def reset (s : Kmac) : M Kmac := do
  let buf ← clear s.buf 0 s.buf.length
  let st ← clear s.st 0 s.st.length
  return { s with st := st, buf := buf, pos := 0, init := false }

/-- `KMAC::Initialize` (KMAC.cpp:185-221), `iv` the customization, `info` the function name. -/
def «initialize» (s : Kmac) (key iv info : List Byte) : M Kmac :=
  if key.length < 16 then throw (.throws .invalidKey)
  else if iv.length ≠ 0 ∧ iv.length < 4 then throw (.throws .invalidSalt)
  else do
    let s ← (if s.init then s.reset else pure s)
    let st ← customize P iv (if info.length > 0 then info else kmacName) s.rate s.st
    let st ← loadKey P key s.rate st
    return { s with st := st, init := true }

/-- `KMAC::Update` (KMAC.cpp:229-274). -/
def update (s : Kmac) (inp : List Byte) (io len : Nat) : M Kmac :=
  if s.init = false then throw (.throws .notInitialized)
  else if subU inp.length io < len then throw (.throws .invalidSize)
  else do
    let b ← s.toBuffered.update P s.rate inp io len
    return { s with toBuffered := b }

/-- The output length encoding, domain byte and last bit put into the buffer (KMAC.cpp:157-172); `sizeof(size_t) + 1 = 9`. -/
def lastBuf (s : Kmac) (olen : Nat) : M (List Byte) := do
  let buf ← (if s.pos ≠ s.buf.length then clear s.buf s.pos (s.buf.length - s.pos) else pure s.buf)
  let e ← rightEncode (List.replicate 9 0) 0 (BitVec.ofNat 64 olen * 8)
  let buf ← loopN e.2 0 (fun i buf => do let b ← rd e.1 i; wr buf (s.pos + i) b) buf
  let buf ← wr buf (s.pos + e.2) 0x04
  let b ← rd buf (s.rate - 1)
  wr buf (s.rate - 1) (b ||| 128)

/-- `KMAC::Finalize(SecureVector)` (KMAC.cpp:142-183). -/
def finalizeSecure (s : Kmac) (out : List Byte) (oo : Nat) : M (Kmac × List Byte) :=
  if s.init = false then throw (.throws .notInitialized)
  else if subU out.length oo < s.tag then throw (.throws .invalidSize)
  else do
    let olen := subU out.length oo
    let buf ← s.lastBuf olen
    let st ← fastAbsorb buf 0 s.rate s.st
    let r ← expand P s.rate st out oo olen
    let buf ← clear buf 0 buf.length
    return ({ s with st := r.1, buf := buf, pos := 0 }, r.2)

/-- `KMAC::Finalize(vector)` (KMAC.cpp:132-140). A temporary of `Output.size() - OutOffset` bytes is filled and copied. -/
def finalize (s : Kmac) (out : List Byte) (oo : Nat) : M (Kmac × List Byte) := do
  let r ← s.finalizeSecure P (List.replicate (subU out.length oo) 0) 0
  let out ← copy r.2 0 out oo r.2.length
  return (r.1, out)

/-- `KMAC::Compute` (KMAC.cpp:117-130). -/
def compute (s : Kmac) (inp out : List Byte) : M (Kmac × List Byte) :=
  if s.init = false then throw (.throws .notInitialized)
  else if out.length < s.tag then throw (.throws .invalidSize)
  else do
    let s ← s.update P inp 0 inp.length
    s.finalize P out 0

end Kmac

/-! ## SHAKE -/

/-- `ShakeState` (SHAKE.cpp:11-47). -/
structure Shake where
  st : List Byte
  ctr : Nat
  rate : Nat
  dom : Byte
  init : Bool

namespace Shake

/-- `ShakeState::Reset` (SHAKE.cpp:40-46, 304-307). -/
def reset (s : Shake) : M Shake := do
  let st ← clear s.st 0 s.st.length
  return { s with st := st, ctr := 0, dom := 0x1F, init := false }

/-- The constructor (SHAKE.cpp:51-85): rates 168, 136, 72, 32. -/
def new (rate : Nat) : M Shake := reset ⟨List.replicate 200 0, 0, rate, 0x1F, false⟩

/-- `SHAKE::Initialize(Key)` (SHAKE.cpp:175-196). -/
def initKey (s : Shake) (key : List Byte) : M Shake :=
  if key.length < 4 then throw (.throws .invalidKey)
  else do
    let s ← (if s.init then s.reset else pure s)
    let st ← absorb P key 0 key.length s.rate s.dom s.st
    return { s with st := st, init := true }

/-- `SHAKE::Customize` (SHAKE.cpp:318-322). -/
def custom (s : Shake) (cust info : List Byte) : M Shake := do
  let st ← customize P cust info s.rate s.st
  return { s with st := st, dom := 0x04 }

/-- `SHAKE::Initialize(Key, Customization)` (SHAKE.cpp:224-256). -/
def initCust (s : Shake) (key cust : List Byte) : M Shake :=
  if key.length < 4 then throw (.throws .invalidKey)
  else if cust.length ≠ 0 ∧ cust.length < 4 then throw (.throws .invalidSalt)
  else do
    let s ← (if s.init then s.reset else pure s)
    let s ← (if cust.length ≠ 0 then s.custom P cust [] else pure s)
    let st ← absorb P key 0 key.length s.rate s.dom s.st
    return { s with st := st, init := true }

/-- `SHAKE::Initialize(Key, Customization, Information)` (SHAKE.cpp:271-302) and `Initialize(ISymmetricKey)` (162-165). -/
def initAll (s : Shake) (key cust info : List Byte) : M Shake :=
  if key.length < 4 then throw (.throws .invalidKey)
  else if cust.length ≠ 0 ∧ cust.length < 4 then throw (.throws .invalidSalt)
  else do
    let s ← (if s.init then s.reset else pure s)
    let s ← (if cust.length ≠ 0 ∨ info.length ≠ 0 then s.custom P cust info else pure s)
    let st ← absorb P key 0 key.length s.rate s.dom s.st
    return { s with st := st, init := true }

/-- `SHAKE::Generate(SecureVector, OutOffset, Length)` (SHAKE.cpp:144-160) with `Expand` (324-341): the counter grows by one for a partial block,
since `Keccak::Squeeze` does not count. `MAXGEN_REQUESTS = 1024000`. -/
def generateAt (s : Shake) (out : List Byte) (oo len : Nat) : M (Shake × List Byte) :=
  if s.init = false then throw (.throws .notInitialized)
  else if subU out.length oo < len then throw (.throws .invalidSize)
  else if s.ctr + len / s.rate > 1024000 then throw (.throws .maxExceeded)
  else do
    let r ← expand P s.rate s.st out oo len
    return ({ s with st := r.1, ctr := if len % s.rate = 0 then s.ctr else s.ctr + 1 }, r.2)

/-- `SHAKE::Generate(SecureVector)` (SHAKE.cpp:117-129). -/
def generate (s : Shake) (out : List Byte) : M (Shake × List Byte) :=
  if s.init = false then throw (.throws .notInitialized)
  else if s.ctr + out.length / s.rate > 1024000 then throw (.throws .maxExceeded)
  else do
    let r ← expand P s.rate s.st out 0 out.length
    return ({ s with st := r.1, ctr := if out.length % s.rate = 0 then s.ctr else s.ctr + 1 }, r.2)

/-- `SHAKE::Generate(vector, OutOffset, Length)` (SHAKE.cpp:131-142); with offset 0 and the whole output, `Generate(vector)` (109-115). -/
def generateVec (s : Shake) (out : List Byte) (oo len : Nat) : M (Shake × List Byte) :=
  if subU out.length oo < len then throw (.throws .invalidSize)
  else do
    let r ← s.generateAt P (List.replicate len 0) 0 len
    let out ← copy r.2 0 out oo r.2.length
    return (r.1, out)

end Shake
end Cex.Keccak
