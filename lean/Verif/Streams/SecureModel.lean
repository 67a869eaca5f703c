import Verif.Streams.Model
import Verif.Modes.Session

/-!
# Model of SecureStream (CEX/SecureStream.cpp)

The stream keeps its bytes encrypted with AES in counter mode and decrypts and encrypts all of them at every call. The key and the nonce come from `GetSystemKey` (263-282), the SHA2-512 digest of
the names of computer, system and user, of the process and user numbers and of the salt; the model takes the digest as the parameter `seed` and assumes that the names do not change while the
stream lives. Allocation never fails, in particular that of `m_keySalt(KeySalt)`, a vector of `KeySalt` bytes. `Destroy`, `CopyTo` and `SetLength` are not modelled.
-/

namespace Cex.Streams
open Cex Cex.Kdf

/-- What a stream is set in: the cipher, the nonce, the width of the SIMD calls and the parallel profile of the CTR instance, and the schedule of every parallel section of every call of
`Transform`. -/
structure Secret where
  c : Modes.Cipher
  nonce : List Byte
  W : Nat
  p : Modes.Profile
  scheds : Nat → Nat → List Nat

/-- `SecureStream`: `m_streamData`, `m_streamPosition` (SecureStream.h), and the number of calls of `Transform` so far, which selects the schedule. -/
structure SecStream where
  data : List Byte
  pos : Nat
  clock : Nat

/-- `Transform` (SecureStream.cpp:284-303): the data goes through a fresh CTR instance into a new array, which takes its place. -/
def SecStream.transform (e : Secret) (s : SecStream) : M SecStream :=
  if s.data.length ≠ 0 then do
    let r ← Modes.ctrTransform .ctr e.W e.c e.p (e.scheds s.clock) e.nonce s.data 0 (List.replicate s.data.length 0) 0 s.data.length
    return { s with data := r.2, clock := s.clock + 1 }
  else return s

/-- The constructor from an array (SecureStream.cpp:43-57). -/
def SecStream.ofBytes (e : Secret) (d : List Byte) : M SecStream := SecStream.transform e ⟨d, 0, 0⟩

/-- The constructor from a part of an array (SecureStream.cpp:59-78). -/
def SecStream.ofPart (e : Secret) (d : List Byte) (off len : Nat) : M SecStream := do
  let x ← copy d off (List.replicate len 0) 0 len
  SecStream.transform e ⟨x, 0, 0⟩

/-- `Read` (SecureStream.cpp:148-164). -/
def SecStream.read (e : Secret) (s : SecStream) (out : List Byte) (off len : Nat) : M (List Byte × Nat × SecStream) := do
  let rest := sub64 s.data.length s.pos
  let len := if rest < add64 off len then rest else len
  if 0 < len then
    let s ← s.transform e
    let o ← copy s.data s.pos out off len
    let s ← s.transform e
    return (o, len, { s with pos := add64 s.pos len })
  else return (out, len, s)

/-- `ReadByte` (SecureStream.cpp:166-177). -/
def SecStream.readByte (e : Secret) (s : SecStream) : M (Byte × SecStream) := do
  let s ← s.transform e
  let b ← rd s.data s.pos
  let s ← s.transform e
  return (b, { s with pos := add64 s.pos 1 })

/-- `Seek` (SecureStream.cpp:186-200). -/
def SecStream.seek (s : SecStream) (n : Nat) : Origin → SecStream
  | .begin => { s with pos := n }
  | .end_ => { s with pos := sub64 s.data.length n }
  | .current => { s with pos := add64 s.pos n }

/-- `ToArray` (SecureStream.cpp:207-223). -/
def SecStream.toArray (e : Secret) (s : SecStream) : M (List Byte × SecStream) :=
  if s.data.length ≠ 0 then do
    let s ← s.transform e
    let tmp := s.data
    let s ← s.transform e
    return (tmp, s)
  else return ([], s)

/-- `Write` (SecureStream.cpp:225-246). -/
def SecStream.write (e : Secret) (s : SecStream) (inp : List Byte) (off len : Nat) : M SecStream := do
  let ttl := add64 s.pos len
  let s := if s.data.length < ttl then { s with data := resize s.data ttl } else s
  let s ← s.transform e
  let d ← copy inp off s.data s.pos len
  let s ← SecStream.transform e { s with data := d }
  return { s with pos := add64 s.pos len }

/-- `WriteByte` (SecureStream.cpp:248-259). -/
def SecStream.writeByte (e : Secret) (s : SecStream) (v : Byte) : M SecStream := do
  let s := if sub64 s.data.length s.pos < 1 then { s with data := resize s.data (s.data.length + 1) } else s
  let s ← s.transform e
  let d ← wr s.data s.pos v
  let s ← SecStream.transform e { s with data := d }
  return { s with pos := add64 s.pos 1 }

/-- One call (accessors and `Close`, `Reset`: SecureStream.cpp:107-128, 179-184). -/
def SecStream.call (e : Secret) (s : SecStream) : Req → M (Ans × SecStream)
  | .read out off len => do
    let (o, n, s) ← s.read e out off len
    return (.buffer o n, s)
  | .readByte => do
    let (b, s) ← s.readByte e
    return (.byte b, s)
  | .write inp off len => do
    let s ← s.write e inp off len
    return (.done, s)
  | .writeByte v => do
    let s ← s.writeByte e v
    return (.done, s)
  | .seek n o => return (.done, s.seek n o)
  | .reset => return (.done, ⟨[], 0, s.clock⟩)
  | .close => return (.done, ⟨[], 0, s.clock⟩)
  | .length => return (.number s.data.length, s)
  | .position => return (.number s.pos, s)
  | .toArray => do
    let (b, s) ← s.toArray e
    return (.bytes b, s)

/-- A sequence of calls. -/
def SecStream.calls (e : Secret) (s : SecStream) : List Req → M (List Ans × SecStream)
  | [] => return ([], s)
  | r :: rs => do
    let (a, s) ← s.call e r
    let (as, s) ← s.calls e rs
    return (a :: as, s)

end Cex.Streams
