import Verif.Streams.Model
import Verif.Digest.Interface
import Verif.Mac.Interface

/-!
# Model of DigestStream (CEX/DigestStream.cpp) and MacStream (CEX/MacStream.cpp)

Both cut their input into blocks and pass them to an engine behind `IDigest` or `IMac`; the stream is a `MemoryStream`. `size_t` and `uint64_t` are the same type. The events
(`ProgressPercent`) are not modelled, but the computation of their argument is, where it is undefined.
-/

namespace Cex.Streams
open Cex Cex.Digest Cex.Mac Cex.Kdf

/-- What the two classes use of their engines: `BlockSize`, `DigestSize` or `TagSize`, `Update`, `Finalize`. -/
structure Sink where
  σ : Type
  block : Nat
  size : Nat
  update : σ → List Byte → Nat → Nat → M σ
  finalize : σ → List Byte → Nat → M (σ × List Byte)

def ofDigest (D : DigestOps) : Sink := ⟨D.σ, D.block, D.size, D.update, D.finalize⟩
def ofMac (A : MacOps) (block : Nat) : Sink := ⟨A.σ, block, A.tag, A.update, A.finalize⟩

/-- `CalculateInterval` (DigestStream.cpp:108-127, MacStream.cpp:122-141): the interval is not used; `% BlockSize()` with zero is undefined. -/
def interval (E : Sink) (len : Nat) : M Unit := if E.block ≤ len / 100 ∧ E.block = 0 then throw .ub else return ()

/-- `CalculateProgress` (DigestStream.cpp:129-168, MacStream.cpp:143-175): with no length and nothing processed the percentage is 0.0 / 0.0, and its conversion to `int32_t` is undefined.
The branch with `Length / 100 == 0` is taken then. -/
def progress (len done : Nat) : M Unit := if done ≤ len ∧ len = 0 then throw .ub else return ()

/-- `while (plen != N) { Update(Input, InOffset, B); InOffset += B; plen += B; … }` (DigestStream.cpp:246-252, 256-262; MacStream.cpp:225-231). `n` bounds the number of rounds: after `N + 1` of
them `plen` has passed `N` or does not move. -/
def arrLoop (E : Sink) (len B N : Nat) (inp : List Byte) : Nat → E.σ × Nat × Nat → M (E.σ × Nat × Nat)
  | 0, q => if q.2.2 = N then return q else throw .diverges
  | n + 1, q =>
    if q.2.2 = N then return q
    else do
      let s ← E.update q.1 inp q.2.1 B
      progress len (q.2.1 + B)
      arrLoop E len B N inp n (s, q.2.1 + B, q.2.2 + B)

/-- `while (plen != N) { pread = Read(inp, 0, B); Update(inp, 0, pread); plen += pread; … }` (DigestStream.cpp:191-197, 203-209; MacStream.cpp:190-196). -/
def strLoop (E : Sink) (len B N : Nat) : Nat → E.σ × MemStream × List Byte × Nat → M (E.σ × MemStream × List Byte × Nat)
  | 0, q => if q.2.2.2 = N then return q else throw .diverges
  | n + 1, q =>
    if q.2.2.2 = N then return q
    else do
      let (inp, c, st) ← q.2.1.read q.2.2.1 0 B
      let s ← E.update q.1 inp 0 c
      progress len st.pos
      strLoop E len B N n (s, st, inp, q.2.2.2 + c)

/-- `Process` for an array (DigestStream.cpp:229-278; MacStream.cpp:216-247 with `par = false`; the first tests `plen != Length`, and `plen` is never larger). `prl` is `ParallelBlockSize()` of the engine. -/
def processArr (E : Sink) (par : Bool) (prl : Nat) (s : E.σ) (inp : List Byte) (io len : Nat) : M (E.σ × List Byte) := do
  if E.block = 0 then throw .ub
  let q ← (if par ∧ len > prl then (if prl = 0 then throw .ub else arrLoop E len prl (len / prl * prl) inp (len / prl * prl + 1) (s, io, 0)) else return (s, io, 0))
  let q ← arrLoop E len E.block (len / E.block * E.block) inp (len / E.block * E.block + 1) q
  let s ← (if q.2.2 < len then E.update q.1 inp q.2.1 (len - q.2.2) else return q.1)
  let (s, out) ← E.finalize s (List.replicate E.size 0) 0
  progress len len
  return (s, out)

/-- `Process` for a stream (DigestStream.cpp:170-227; MacStream.cpp:177-214 with `par = false`). -/
def processStr (E : Sink) (par : Bool) (prl : Nat) (s : E.σ) (st : MemStream) (len : Nat) : M (E.σ × MemStream × List Byte) := do
  if E.block = 0 then throw .ub
  let q ← (if par ∧ len > prl then (if prl = 0 then throw .ub else strLoop E len prl (len / prl * prl) (len / prl * prl + 1) (s, st, List.replicate prl 0, 0)) else return (s, st, [], 0))
  let q ← strLoop E len E.block (len / E.block * E.block) (len / E.block * E.block + 1) (q.1, q.2.1, resize q.2.2.1 E.block, q.2.2.2)
  let (s, st, pl) ← (if q.2.2.2 < len then do
      let (inp, c, st) ← q.2.1.read (resize q.2.2.1 (len - q.2.2.2)) 0 (len - q.2.2.2)
      let s ← E.update q.1 inp 0 c
      return (s, st, q.2.2.2 + c)
    else return (q.1, q.2.1, q.2.2.2))
  let (s, out) ← E.finalize s (List.replicate E.size 0) 0
  progress len pl
  return (s, st, out)

/-- `DigestStream::Compute` for an array (DigestStream.cpp:96-104). -/
def digestArr (D : DigestOps) (par : Bool) (prl : Nat) (s : D.σ) (inp : List Byte) (io len : Nat) : M (D.σ × List Byte) := do
  interval (ofDigest D) len
  let s ← D.reset s
  processArr (ofDigest D) par prl s inp io len

/-- `DigestStream::Compute` for a stream (DigestStream.cpp:84-94). -/
def digestStr (D : DigestOps) (par : Bool) (prl : Nat) (s : D.σ) (st : MemStream) : M (D.σ × MemStream × List Byte) := do
  interval (ofDigest D) (sub64 st.data.length st.pos)
  let s ← D.reset s
  processStr (ofDigest D) par prl s st (sub64 st.data.length st.pos)

/-- `MacStream::Compute` for an array (MacStream.cpp:89-100); the interval is computed from `Length - InOffset`. -/
def macArr (A : MacOps) (block : Nat) (s : A.σ) (inp : List Byte) (io len : Nat) : M (A.σ × List Byte) := do
  interval (ofMac A block) (sub64 len io)
  processArr (ofMac A block) false 0 s inp io len

/-- `MacStream::Compute` for a stream (MacStream.cpp:75-87). -/
def macStr (A : MacOps) (block : Nat) (s : A.σ) (st : MemStream) : M (A.σ × MemStream × List Byte) := do
  interval (ofMac A block) (sub64 st.data.length st.pos)
  processStr (ofMac A block) false 0 s st (sub64 st.data.length st.pos)

end Cex.Streams
