import Verif.Mac.HmacModel
import Verif.IntTools.Model

/-!
# Model of the random bit generator HCG (CEX/HCG.cpp)

The digest inside HMAC is arbitrary (`D`). The entropy provider is an input: every call that may read it takes the bytes it would return.
Destruction, and the state after an exception, are not modelled.
-/

namespace Cex.Drbg
open Cex Cex.Digest Cex.Mac Cex.IntTools

/-- `HcgState` (HCG.cpp:19-74), the HMAC instance, the name, and `m_hcgProvider != nullptr`. `Rate` is the block size of the digest. -/
structure Hcg (D : DigestOps) where
  mac : Hmac D
  buf : List Byte
  code : List Byte
  nonce : List Byte
  cached : Nat
  counter : Nat
  reseed : Nat
  threshold : Nat
  init : Bool
  prov : Bool
  name : List Byte

/-- The key test of HMAC (HMAC.cpp:210-213, `MINKEY_LENGTH = 8`). -/
def macKeyOk (n : Nat) : Bool := decide (8 ≤ n)

/-- `CEX_PREFIX` (HCG.cpp:17). -/
def cexPrefix : List Byte := [0x43, 0x45, 0x58, 0x2D]

/-- `AppendValue` of an unsigned 16-bit value (ArrayTools.h:114-125), little endian. -/
def le16 (n : Nat) : List Byte := [BitVec.ofNat 8 n, BitVec.ofNat 8 (n / 256)]

namespace Hcg
variable {D : DigestOps}

/-- The constructors (HCG.cpp:36-46, 78-131); `dg` is a fresh digest, `DEF_RESEED = 102400000`. The buffer has half the block size. -/
def new (dg : D.σ) (name : List Byte) (prov : Bool) : Hcg D :=
  ⟨.fresh dg, List.replicate (D.block / 2) 0, [], List.replicate 8 0, 0, 0, 0, 102400000, false, prov, name⟩

/-- Assignment to `ReseedThreshold()`. -/
def setThreshold (s : Hcg D) (t : Nat) : Hcg D := { s with threshold := t }

/-- `SecurityStrength()` (HCG.cpp:42, 178-181). -/
def strength (D : DigestOps) : Nat := D.block / 4 * 8

/-- `HCG::Fill` (HCG.cpp:414-427). -/
def fill (s : Hcg D) : M (Hcg D) := do
  let mac ← s.mac.update s.buf 0 s.buf.length
  let mac ← mac.update s.code 0 s.code.length
  let nonce ← beIncrease8InPlace 4 s.nonce (BitVec.ofNat 32 D.block)
  let mac ← mac.update nonce 0 nonce.length
  let r ← mac.finalize s.buf 0
  return { s with mac := r.1, buf := r.2, nonce := nonce, cached := r.2.length }

/-- The second half of the new key is computed, HMAC is keyed with it, and the buffer is filled (HCG.cpp:321-334, 354-367); `tmpk` has the first half filled. -/
def rekey (s : Hcg D) (tmpk : List Byte) : M (Hcg D) := do
  let s ← s.fill
  let mac ← s.mac.update s.buf 0 s.buf.length
  let r ← mac.finalize tmpk (tmpk.length / 2)
  let mac ← r.1.initialize macKeyOk r.2
  { s with mac := mac }.fill

/-- `HCG::Derive` (HCG.cpp:347-368); `ent` is what the provider writes to the first half of `tmpk`. -/
def derive (s : Hcg D) (ent : List Byte) : M (Hcg D) := do
  let tmpk ← copy ent 0 (List.replicate D.block 0) 0 (D.block / 2)
  s.rekey tmpk

/-- `while (Length != 0)` (HCG.cpp:386-396). The first argument bounds the iterations. -/
def fillLoop : Nat → Hcg D → List Byte → Nat → Nat → M (Hcg D × List Byte)
  | _, s, out, _, 0 => return (s, out)
  | 0, _, _, _, _ + 1 => throw .diverges
  | k + 1, s, out, oo, len + 1 => do
    let s ← s.fill
    let n := min s.buf.length (len + 1)
    let out ← copy s.buf 0 out oo n
    fillLoop k { s with cached := s.cached - n } out (oo + n) (len + 1 - n)

/-- `HCG::Expand` (HCG.cpp:370-412). -/
def expand (s : Hcg D) (out : List Byte) (oo len : Nat) : M (Hcg D × List Byte) :=
  if s.cached < len then do
    let out ← (if s.cached ≠ 0 then copy s.buf (s.buf.length - s.cached) out oo s.cached else pure out)
    let r ← fillLoop (len - s.cached) { s with cached := 0 } out (oo + s.cached) (len - s.cached)
    if r.1.cached ≠ 0 then do
      let buf ← clear r.1.buf 0 (r.1.buf.length - r.1.cached)
      return ({ r.1 with buf := buf }, r.2)
    else return r
  else do
    let out ← copy s.buf (s.buf.length - s.cached) out oo len
    return ({ s with cached := s.cached - len }, out)

/-- The end of `Generate` (HCG.cpp:212-233); `MAX_THRESHOLD = 10000`. `CyclicReseed()` is false: nothing sets it. -/
def checkReseed (s : Hcg D) (len : Nat) (ent : List Byte) : M (Hcg D) :=
  if s.prov then
    let c := (s.counter + len) % 2 ^ 64
    if c ≥ s.threshold then
      if s.reseed + 1 > 10000 then throw (.throws .maxExceeded)
      else do
        let s ← { s with counter := c, reseed := s.reseed + 1 }.derive ent
        return { s with counter := 0 }
    else return { s with counter := c }
  else return s

/-- `HCG::Generate(vector, OutOffset, Length)` (HCG.cpp:195-234); `MAX_REQUEST = 102400000`. -/
def generate (s : Hcg D) (out : List Byte) (oo len : Nat) (ent : List Byte) : M (Hcg D × List Byte) :=
  if s.init = false then throw (.throws .notInitialized)
  else if subU out.length oo < len then throw (.throws .invalidSize)
  else if len > 102400000 then throw (.throws .maxExceeded)
  else do
    let r ← s.expand out oo len
    let s ← r.1.checkReseed len ent
    return (s, r.2)

/-- `HCG::Generate(SecureVector, OutOffset, Length)` (HCG.cpp:236-246). -/
def generateSecure (s : Hcg D) (out : List Byte) (oo len : Nat) (ent : List Byte) : M (Hcg D × List Byte) :=
  if subU out.length oo < len then throw (.throws .invalidSize)
  else do
    let r ← s.generate (List.replicate len 0) 0 len ent
    let out ← copy r.2 0 out oo r.2.length
    return (r.1, out)

/-- The code string (HCG.cpp:265-269). -/
def codeOf (D : DigestOps) (name info : List Byte) : List Byte := cexPrefix ++ name ++ le16 (strength D) ++ info

/-- `HCG::Initialize` (HCG.cpp:248-291), `MINKEY_LENGTH = 16`; `HcgState::Reset` (64-73) clears everything but `IsInitialized`. -/
def initKey (s : Hcg D) (key iv info : List Byte) : M (Hcg D) :=
  if key.length < 16 then throw (.throws .invalidNonce)
  else do
    let buf ← clear s.buf 0 s.buf.length
    let nonce ← clear s.nonce 0 s.nonce.length
    let code := codeOf D s.name info
    let nonce ← (if iv.length ≠ 0 then copy iv 0 nonce 0 (min iv.length nonce.length) else pure nonce)
    let mac ← s.mac.initialize macKeyOk key
    let nonce ← beIncrease8InPlace 4 nonce (BitVec.ofNat 32 code.length)
    let mac ← mac.update code 0 code.length
    let mac ← mac.update nonce 0 nonce.length
    let r ← mac.finalize buf 0
    return { s with mac := r.1, buf := r.2, code := code, nonce := nonce, cached := 0, counter := 0, reseed := 0, init := true }

/-- `HCG::Update` (HCG.cpp:293-335). The size test is `(Key.size() < SecurityStrength() / 8) * 2`, the comparison converted to 0 or 1 and doubled. -/
def update (s : Hcg D) (key : List Byte) : M (Hcg D) :=
  if (if key.length < strength D / 8 then 1 else 0) * 2 ≠ 0 then throw (.throws .invalidKey)
  else if s.reseed + 1 > 10000 then throw (.throws .maxExceeded)
  else do
    let mac ← s.mac.update key 0 key.length
    let r ← mac.finalize (List.replicate D.block 0) 0
    { s with mac := r.1, reseed := s.reseed + 1 }.rekey r.2

end Hcg
end Cex.Drbg
