import Verif.Keccak.Model

/-!
# Model of the random bit generator CSG (CEX/CSG.cpp)

`P` is the permutation called by `CSG::Permute` (546-554). The entropy provider is an input: every call that may read it takes the bytes it would return.
One Keccak instance is used (`State(1)`, 52), so `Index` is always 0 and is left out.
-/

namespace Cex.Drbg
open Cex Cex.Keccak Cex.Mac

variable (P : List Byte → M (List Byte))

/-- `CsgState` (CSG.cpp:33-95); `prov`: `m_csgProvider != nullptr`. -/
structure Csg where
  st : List Byte
  buf : List Byte
  cached : Nat
  counter : Nat
  rate : Nat
  reseed : Nat
  threshold : Nat
  dom : Byte
  init : Bool
  prov : Bool

/-- `ShakeModes` accepted by the constructors. -/
inductive ShakeMode where
  | shake128 | shake256 | shake512
  deriving DecidableEq

/-- The rate chosen by `CSG(ShakeModes, Providers)` (CSG.cpp:118-121). -/
def ShakeMode.rate : ShakeMode → Nat
  | .shake128 => 168
  | .shake256 => 136
  | .shake512 => 72

/-- The rate chosen by `CSG(ShakeModes, IProvider*)` (CSG.cpp:165-167): the last alternative of the conditional is the comparison itself, converted to `size_t`. -/
def ShakeMode.rateProv : ShakeMode → Nat
  | .shake128 => 168
  | .shake256 => 136
  | .shake512 => 1

namespace Csg

/-- The state built by the constructors (CSG.cpp:50-59, 116-123, 163-169); `DEF_RESEED = 102400000`. -/
def make (rate : Nat) (prov : Bool) : Csg := ⟨List.replicate 200 0, List.replicate rate 0, 0, 0, rate, 0, 102400000, 0, false, prov⟩

/-- `CSG(ShakeModes, Providers)` (CSG.cpp:99-125); `prov = false` for `Providers::None`. -/
def new (m : ShakeMode) (prov : Bool) : Csg := make m.rate prov

/-- `CSG(ShakeModes, IProvider*)` (CSG.cpp:127-171). -/
def newProv (m : ShakeMode) : Csg := make m.rateProv true

/-- Assignment to `ReseedThreshold()` (CSG.cpp:231-234). -/
def setThreshold (s : Csg) (t : Nat) : Csg := { s with threshold := t }

/-- `CsgState::Reset` (CSG.cpp:82-94, 342-345). -/
def reset (s : Csg) : M Csg := do
  let buf ← clear s.buf 0 s.buf.length
  let st ← clear s.st 0 s.st.length
  return { s with st := st, buf := buf, cached := 0, counter := 0, reseed := 0, init := false }

/-- `CSG::Absorb` (CSG.cpp:395-420), the statements of `Keccak::Absorb`: whole blocks are absorbed and permuted, the padded rest is absorbed only.
`Clear(msg, Length, Rate - Length)` clears bytes that are zero. -/
def absorbKey (s : Csg) (key : List Byte) : M Csg := do
  let st ← absorb P key 0 key.length s.rate s.dom s.st
  return { s with st := st }

/-- `CSG::Fill` (CSG.cpp:539-544). -/
def fill (s : Csg) : M Csg := do
  let st ← P s.st
  let buf ← copy st 0 s.buf 0 s.rate
  return { s with st := st, buf := buf, cached := buf.length }

/-- `CSG::Derive` (CSG.cpp:476-493); `ent` is what the provider writes into `tmpk`. -/
def derive (s : Csg) (ent : List Byte) : M Csg := do
  let s ← s.absorbKey P ent
  s.fill P

/-- `while (Length != 0)` (CSG.cpp:511-521). The first argument bounds the iterations. -/
def fillLoop : Nat → Csg → List Byte → Nat → Nat → M (Csg × List Byte)
  | _, s, out, _, 0 => return (s, out)
  | 0, _, _, _, _ + 1 => throw .diverges
  | k + 1, s, out, oo, len + 1 => do
    let s ← s.fill P
    let n := min s.buf.length (len + 1)
    let out ← copy s.buf 0 out oo n
    fillLoop k { s with cached := s.cached - n } out (oo + n) (len + 1 - n)

/-- `CSG::Expand` (CSG.cpp:495-537). -/
def expand (s : Csg) (out : List Byte) (oo len : Nat) : M (Csg × List Byte) :=
  if s.cached < len then do
    let out ← (if s.cached ≠ 0 then copy s.buf (s.buf.length - s.cached) out oo s.cached else pure out)
    let r ← fillLoop P (len - s.cached) { s with cached := 0 } out (oo + s.cached) (len - s.cached)
    if r.1.cached ≠ 0 then do
      let buf ← clear r.1.buf 0 (r.1.buf.length - r.1.cached)
      return ({ r.1 with buf := buf }, r.2)
    else return r
  else do
    let out ← copy s.buf (s.buf.length - s.cached) out oo len
    return ({ s with cached := s.cached - len }, out)

/-- The end of `Generate` (CSG.cpp:285-301); `MAX_THRESHOLD = 10000`. `CyclicReseed()` is false: nothing sets it. -/
def checkReseed (s : Csg) (len : Nat) (ent : List Byte) : M Csg :=
  if s.prov then
    let c := (s.counter + len) % 2 ^ 64
    if c ≥ s.threshold then
      if s.reseed + 1 > 10000 then throw (.throws .maxExceeded)
      else do
        let s ← { s with counter := c, reseed := s.reseed + 1 }.derive P ent
        return { s with counter := 0 }
    else return { s with counter := c }
  else return s

/-- `CSG::Generate(SecureVector, OutOffset, Length)` (CSG.cpp:268-302); `MAX_REQUEST = 102400000`. -/
def generate (s : Csg) (out : List Byte) (oo len : Nat) (ent : List Byte) : M (Csg × List Byte) :=
  if s.init = false then throw (.throws .notInitialized)
  else if subU out.length oo < len then throw (.throws .invalidSize)
  else if len > 102400000 then throw (.throws .maxExceeded)
  else do
    let r ← s.expand P out oo len
    let s ← r.1.checkReseed P len ent
    return (s, r.2)

/-- `CSG::Generate(vector, OutOffset, Length)` (CSG.cpp:256-266). -/
def generateVec (s : Csg) (out : List Byte) (oo len : Nat) (ent : List Byte) : M (Csg × List Byte) :=
  if subU out.length oo < len then throw (.throws .invalidSize)
  else do
    let r ← s.generate P (List.replicate len 0) 0 len ent
    let out ← copy r.2 0 out oo r.2.length
    return (r.1, out)

/-- The domain is set and the state customized (CSG.cpp:320-335). `CSG::Customize` (422-474) has the statements of `Keccak::Customize`. -/
def customized (s : Csg) (iv info : List Byte) : M Csg :=
  if iv.length ≠ 0 ∨ info.length ≠ 0 then do
    let st ← customize P iv info s.rate s.st
    return { s with st := st, dom := 0x04 }
  else return { s with dom := 0x1F }

/-- `CSG::Initialize` (CSG.cpp:304-340); `MINKEY_LENGTH = 16`. The nonce is the customization, the info is the name. -/
def initKey (s : Csg) (key iv info : List Byte) : M Csg :=
  if key.length < 16 then throw (.throws .invalidKey)
  else do
    let s ← s.reset
    let s ← s.customized P iv info
    let s ← s.absorbKey P key
    return { s with init := true }

/-- `CSG::Update` (CSG.cpp:347-391). -/
def update (s : Csg) (key ent : List Byte) : M Csg :=
  if key.length < 16 then throw (.throws .invalidKey)
  else if s.reseed + 1 > 10000 then throw (.throws .maxExceeded)
  else do
    let s := { s with reseed := s.reseed + 1 }
    let s ← (if s.prov then s.derive P ent else pure s)
    let s ← s.absorbKey P key
    s.fill P

end Csg
end Cex.Drbg
