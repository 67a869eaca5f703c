import Verif.Kdf.Fill
import Verif.Mac.HmacModel
import Verif.IntTools.Model

/-!
# Models of KDF2 and PBKDF2 (CEX/KDF2.cpp, CEX/PBKDF2.cpp)

The digest `D` is arbitrary. `keyOk` stands for the key-size test of `Initialize` (at least `MINKEY_LENGTH`, or a legal size),
`macOk` for the one of `HMAC::Initialize`.
-/

namespace Cex.Kdf
open Cex Cex.Digest Cex.Mac Cex.IntTools

/-- `do { … } while (Length != 0)` with `Length -= min(B, Length)`: number of passes. -/
def passesFor (B len : Nat) : Nat := max 1 (blocksFor B len)

/-- `Kdf2State` (KDF2.cpp:12-48) and the digest instance. -/
structure Kdf2 (D : DigestOps) where
  dg : D.σ
  counter : List Byte
  salt : List Byte
  state : List Byte
  init : Bool

namespace Kdf2
variable {D : DigestOps}

/-- The constructors (KDF2.cpp:52-96): empty state and salt, counter 1. -/
def fresh (s : D.σ) : Kdf2 D := ⟨s, [0, 0, 0, 1], [], [], false⟩

/-- `KDF2::Reset` with `Kdf2State::Reset` (KDF2.cpp:263-268, 40-47). Salt and state keep their sizes. -/
def reset (st : Kdf2 D) : M (Kdf2 D) := do
  let dg ← D.reset st.dg
  let counter ← clear st.counter 0 (st.counter.length - 1)
  let counter ← wr counter (counter.length - 1) 1
  let salt ← clear st.salt 0 st.salt.length
  let state ← clear st.state 0 st.state.length
  return ⟨dg, counter, salt, state, false⟩

/-- With an IV (KDF2.cpp:210-232). Note the length in the first copy to the salt. -/
def loadIv (st : Kdf2 D) (key iv info : List Byte) : M (Kdf2 D) :=
  if iv.length + info.length < 4 then throw (.throws .invalidSalt)
  else do
    let state ← copy key 0 (resize st.state key.length) 0 key.length
    let salt ← copy iv 0 (resize st.salt (iv.length + info.length)) 0 (iv.length + info.length)
    let salt ← (if info.length > 0 then copy info 0 salt iv.length info.length else pure salt)
    return { st with state := state, salt := salt, init := true }

/-- Without IV (KDF2.cpp:233-258). -/
def loadKey (st : Kdf2 D) (key info : List Byte) : M (Kdf2 D) :=
  if key.length ≤ D.block then do
    let state ← copy key 0 (resize st.state D.block) 0 key.length
    return { st with state := state, init := true }
  else do
    let state ← copy key 0 (resize st.state D.block) 0 D.block
    let salt ← copy key D.block (resize st.salt (key.length - D.block)) 0 (key.length - D.block)
    let salt ← (if info.length > 0 then copy info 0 (resize salt (salt.length + info.length)) salt.length info.length else pure salt)
    return { st with state := state, salt := salt, init := true }

/-- `KDF2::Initialize` (KDF2.cpp:191-261). -/
def «initialize» (keyOk : Nat → Bool) (st : Kdf2 D) (key iv info : List Byte) : M (Kdf2 D) :=
  if keyOk key.length = false then throw (.throws .invalidKey)
  else do
    let st ← (if st.init then st.reset else pure st)
    if iv.length ≠ 0 then st.loadIv key iv info else st.loadKey key info

/-- One pass of `Expand` (KDF2.cpp:276-298), pass `k`. -/
def pass (len oo k : Nat) (p : Kdf2 D × List Byte) : M (Kdf2 D × List Byte) := do
  let dg ← D.update p.1.dg p.1.state 0 p.1.state.length
  let dg ← D.update dg p.1.counter 0 4
  let dg ← (if p.1.salt.length ≠ 0 then D.update dg p.1.salt 0 p.1.salt.length else pure dg)
  let r ← D.finalize dg (List.replicate D.size 0) 0
  let counter ← beIncrement8At p.1.counter 0 4
  let out ← copy r.2 0 p.2 (oo + k * D.size) (min D.size (len - k * D.size))
  return ({ p.1 with dg := r.1, counter := counter }, out)

/-- `KDF2::Expand` (KDF2.cpp:272-299); `tmph` is overwritten completely in every pass. -/
def expand (st : Kdf2 D) (out : List Byte) (oo len : Nat) : M (Kdf2 D × List Byte) :=
  loopN (passesFor D.size len) 0 (pass len oo) (st, out)

/-- `KDF2::Generate(Output, OutOffset, Length)` (KDF2.cpp:155-171). -/
def generate (st : Kdf2 D) (out : List Byte) (oo len : Nat) : M (Kdf2 D × List Byte) :=
  if st.init = false then throw (.throws .notInitialized)
  else if D.size = 0 then throw .ub
  else do
    let c ← beBytesTo32 st.counter 0
    if c.toNat + len / D.size > 255 then throw (.throws .maxExceeded)
    else if subU out.length oo < len then throw (.throws .invalidSize)
    else st.expand out oo len

/-- `KDF2::Generate` into a `SecureVector` (KDF2.cpp:173-189, 301-306): the temporary has `Length` bytes but is written at
`OutOffset`. -/
def generateSecure (st : Kdf2 D) (out : List Byte) (oo len : Nat) : M (Kdf2 D × List Byte) :=
  if st.init = false then throw (.throws .notInitialized)
  else if D.size = 0 then throw .ub
  else do
    let c ← beBytesTo32 st.counter 0
    if c.toNat + len / D.size > 255 then throw (.throws .maxExceeded)
    else if subU out.length oo < len then throw (.throws .invalidSize)
    else do
      let r ← st.expand (List.replicate len 0) oo len
      let out ← copy r.2 0 out oo len
      return (r.1, out)

end Kdf2

/-- `Pbkdf2State` (PBKDF2.cpp:13-51) and the HMAC instance. -/
structure Pbkdf2 (D : DigestOps) where
  mac : Hmac D
  counter : List Byte
  salt : List Byte
  state : List Byte
  iterations : Nat
  init : Bool

namespace Pbkdf2
variable {D : DigestOps}

/-- The constructors (PBKDF2.cpp:56-101). -/
def fresh (s : D.σ) (iterations : Nat) : Pbkdf2 D := ⟨.fresh s, [0, 0, 0, 1], [], [], iterations, false⟩

/-- `PBKDF2::Iterations` returns a reference through which a caller can change the count (PBKDF2.cpp:130-133). -/
def setIterations (st : Pbkdf2 D) (n : Nat) : Pbkdf2 D := { st with iterations := n }

/-- `PBKDF2::Reset` with `Pbkdf2State::Reset` (PBKDF2.cpp:250-255, 44-51). -/
def reset (st : Pbkdf2 D) : M (Pbkdf2 D) := do
  let mac ← st.mac.reset
  let counter ← clear st.counter 0 (st.counter.length - 1)
  let counter ← wr counter (counter.length - 1) 1
  let salt ← clear st.salt 0 st.salt.length
  let state ← clear st.state 0 st.state.length
  return ⟨mac, counter, salt, state, st.iterations, false⟩

/-- The salt (PBKDF2.cpp:224-245). Note the length in the first copy. -/
def loadSalt (st : Pbkdf2 D) (iv info : List Byte) : M (List Byte) :=
  if iv.length + info.length ≠ 0 then
    if iv.length + info.length < 4 then throw (.throws .invalidSalt)
    else do
      let salt := resize st.salt (iv.length + info.length)
      let salt ← (if iv.length ≠ 0 then copy iv 0 salt 0 (iv.length + info.length) else pure salt)
      if info.length > 0 then copy info 0 salt iv.length info.length else pure salt
  else return st.salt

/-- `PBKDF2::Initialize` (PBKDF2.cpp:201-248). -/
def «initialize» (keyOk : Nat → Bool) (st : Pbkdf2 D) (key iv info : List Byte) : M (Pbkdf2 D) :=
  if keyOk key.length = false then throw (.throws .invalidKey)
  else do
    let st ← (if st.init then st.reset else pure st)
    let state ← copy key 0 (resize st.state key.length) 0 key.length
    let salt ← st.loadSalt iv info
    return { st with state := state, salt := salt, init := true }

/-- The body of the iteration loop (PBKDF2.cpp:277-285): MAC of the previous value, XORed into the output. -/
def iter (macOk : Nat → Bool) (key : List Byte) (off n : Nat) (q : Hmac D × List Byte × List Byte) : M (Hmac D × List Byte × List Byte) := do
  let mac ← q.1.initialize macOk key
  let mac ← mac.update q.2.1 0 q.2.1.length
  let r ← mac.finalize q.2.1 0
  let out ← xorInto r.2 0 q.2.2 off n
  return (r.1, r.2, out)

/-- One pass of `Expand` (PBKDF2.cpp:264-291), pass `k`. `i` is a `size_t` compared with `!=`, so it takes
`Iterations - 1` modulo `2^64` turns. `tmps` is overwritten completely by the first `Finalize`. -/
def pass (macOk : Nat → Bool) (len oo k : Nat) (p : Pbkdf2 D × List Byte) : M (Pbkdf2 D × List Byte) := do
  let n := min D.size (len - k * D.size)
  let mac ← p.1.mac.initialize macOk p.1.state
  let mac ← mac.update p.1.salt 0 p.1.salt.length
  let mac ← mac.update p.1.counter 0 4
  let r ← mac.finalize (List.replicate D.size 0) 0
  let out ← copy r.2 0 p.2 (oo + k * D.size) n
  let q ← loopN ((2 ^ 64 + p.1.iterations - 1) % 2 ^ 64) 1 (fun _ => iter macOk p.1.state (oo + k * D.size) n) (r.1, r.2, out)
  let counter ← beIncrement8At p.1.counter 0 4
  return ({ p.1 with mac := q.1, counter := counter }, q.2.2)

/-- `PBKDF2::Expand` (PBKDF2.cpp:259-292). -/
def expand (macOk : Nat → Bool) (st : Pbkdf2 D) (out : List Byte) (oo len : Nat) : M (Pbkdf2 D × List Byte) :=
  loopN (passesFor D.size len) 0 (pass macOk len oo) (st, out)

/-- `PBKDF2::Generate(Output, OutOffset, Length)` (PBKDF2.cpp:165-181). -/
def generate (macOk : Nat → Bool) (st : Pbkdf2 D) (out : List Byte) (oo len : Nat) : M (Pbkdf2 D × List Byte) :=
  if st.init = false then throw (.throws .notInitialized)
  else if subU out.length oo < len then throw (.throws .invalidSize)
  else if D.size = 0 then throw .ub
  else do
    let c ← beBytesTo32 st.counter 0
    if c.toNat + len / D.size > 1024000 then throw (.throws .maxExceeded)
    else st.expand macOk out oo len

/-- `PBKDF2::Generate` into a `SecureVector` (PBKDF2.cpp:183-199, 294-299): the temporary has `Length` bytes but is written
at `OutOffset`. -/
def generateSecure (macOk : Nat → Bool) (st : Pbkdf2 D) (out : List Byte) (oo len : Nat) : M (Pbkdf2 D × List Byte) :=
  if st.init = false then throw (.throws .notInitialized)
  else if subU out.length oo < len then throw (.throws .invalidSize)
  else if D.size = 0 then throw .ub
  else do
    let c ← beBytesTo32 st.counter 0
    if c.toNat + len / D.size > 1024000 then throw (.throws .maxExceeded)
    else do
      let r ← st.expand macOk (List.replicate len 0) oo len
      let out ← copy r.2 0 out oo r.2.length
      return (r.1, out)

end Pbkdf2
end Cex.Kdf
