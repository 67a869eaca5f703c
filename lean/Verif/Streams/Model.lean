import Verif.IntTools.Model
import Verif.Kdf.Fill
import Verif.Stream

/-!
# Model of the memory stream, the stream writer and the stream reader

Positions are 64-bit unsigned numbers, kept as natural numbers with the reduction written out. Allocation never fails (`resize` to more than the largest vector is not modelled), and capacity
(`reserve`, `SetLength`) has no effect that can be seen.
-/

namespace Cex.Streams
open Cex Cex.IntTools Cex.Kdf

/-- Subtraction of `uint64_t` values. -/
def sub64 (a b : Nat) : Nat := (a + 2 ^ 64 - b) % 2 ^ 64

/-- Addition of `uint64_t` values. -/
def add64 (a b : Nat) : Nat := (a + b) % 2 ^ 64

/-- `MemoryStream`: `m_streamData` and `m_streamPosition` (MemoryStream.h). -/
structure MemStream where
  data : List Byte
  pos : Nat
deriving DecidableEq

/-- The default constructor and the one that reserves (MemoryStream.cpp:13-19, 29-36). -/
def MemStream.empty : MemStream := ⟨[], 0⟩

/-- The constructor from an array (MemoryStream.cpp:38-44) and the copy constructor (21-27), which rewinds. -/
def MemStream.ofBytes (d : List Byte) : MemStream := ⟨d, 0⟩

/-- The constructor from a part of an array (MemoryStream.cpp:46-56). -/
def MemStream.ofPart (d : List Byte) (off len : Nat) : M MemStream := do
  let x ← copy d off (List.replicate len 0) 0 len
  return ⟨x, 0⟩

/-- `Read` (MemoryStream.cpp:128-142). Returns the caller's array and the count. -/
def MemStream.read (s : MemStream) (out : List Byte) (off len : Nat) : M (List Byte × Nat × MemStream) := do
  let rest := sub64 s.data.length s.pos
  let len := if rest < add64 off len then rest else len
  if 0 < len then
    let o ← copy s.data s.pos out off len
    return (o, len, { s with pos := add64 s.pos len })
  else return (out, len, s)

/-- `ReadByte` (MemoryStream.cpp:144-152). -/
def MemStream.readByte (s : MemStream) : M (Byte × MemStream) := do
  let b ← rd s.data s.pos
  return (b, { s with pos := add64 s.pos 1 })

/-- `Reset` (MemoryStream.cpp:154-159). -/
def MemStream.reset (s : MemStream) : M MemStream := do
  let d ← clear s.data 0 s.data.length
  return ⟨resize d 0, 0⟩

/-- `Close` (MemoryStream.cpp:107-111). -/
def MemStream.close (_ : MemStream) : MemStream := ⟨[], 0⟩

/-- `SeekOrigin` (SeekOrigin.h). -/
inductive Origin
  | begin | current | end_
deriving DecidableEq

/-- `Seek` (MemoryStream.cpp:161-175). -/
def MemStream.seek (s : MemStream) (n : Nat) : Origin → MemStream
  | .begin => { s with pos := n }
  | .end_ => { s with pos := sub64 s.data.length n }
  | .current => { s with pos := add64 s.pos n }

/-- `Write` (MemoryStream.cpp:182-199). -/
def MemStream.write (s : MemStream) (inp : List Byte) (off len : Nat) : M MemStream := do
  let ttl := add64 s.pos len
  let d := if s.data.length < ttl then resize s.data ttl else s.data
  let d ← copy inp off d s.pos len
  return ⟨d, add64 s.pos len⟩

/-- `WriteByte` (MemoryStream.cpp:201-210). -/
def MemStream.writeByte (s : MemStream) (v : Byte) : M MemStream := do
  let d := if sub64 s.data.length s.pos < 1 then resize s.data (s.data.length + 1) else s.data
  let d ← wr d s.pos v
  return ⟨d, add64 s.pos 1⟩

/-- `CopyTo` for a memory stream as destination (MemoryStream.cpp:113-116). -/
def MemStream.copyTo (s d : MemStream) : M MemStream := d.write s.data 0 s.data.length

/-- The calls a program can make on a memory stream. -/
inductive Req
  | read (out : List Byte) (off len : Nat)
  | readByte
  | write (inp : List Byte) (off len : Nat)
  | writeByte (v : Byte)
  | seek (n : Nat) (o : Origin)
  | reset
  | close
  | length
  | position
  | toArray

/-- What a call gives back. -/
inductive Ans
  | done
  | buffer (out : List Byte) (count : Nat)
  | byte (v : Byte)
  | number (n : Nat)
  | bytes (b : List Byte)
deriving DecidableEq

/-- One call (accessors: MemoryStream.cpp:90-103). -/
def MemStream.call (s : MemStream) : Req → M (Ans × MemStream)
  | .read out off len => do
    let (o, n, s) ← s.read out off len
    return (.buffer o n, s)
  | .readByte => do
    let (b, s) ← s.readByte
    return (.byte b, s)
  | .write inp off len => do
    let s ← s.write inp off len
    return (.done, s)
  | .writeByte v => do
    let s ← s.writeByte v
    return (.done, s)
  | .seek n o => return (.done, s.seek n o)
  | .reset => do
    let s ← s.reset
    return (.done, s)
  | .close => return (.done, s.close)
  | .length => return (.number s.data.length, s)
  | .position => return (.number s.pos, s)
  | .toArray => return (.bytes s.data, s)

/-- A sequence of calls. -/
def MemStream.calls (s : MemStream) : List Req → M (List Ans × MemStream)
  | [] => return ([], s)
  | r :: rs => do
    let (a, s) ← s.call r
    let (as, s) ← s.calls rs
    return (a :: as, s)

/-! ## StreamWriter and StreamReader -/

/-- A value that can be written: an integer of 8, 16, 32 or 64 bits, or an array of bytes. (Arrays of wider integers are not modelled.) -/
inductive Item
  | u8 (v : BitVec 8)
  | u16 (v : BitVec 16)
  | u32 (v : BitVec 32)
  | u64 (v : BitVec 64)
  | bytes (b : List Byte)
deriving DecidableEq

/-- `StreamWriter`: `m_streamState` and `m_streamPosition` (StreamWriter.h:20-21). -/
structure Writer where
  state : List Byte
  pos : Nat

/-- The constructors (StreamWriter.cpp:9-28). -/
def Writer.ofLength (n : Nat) : Writer := ⟨List.replicate n 0, 0⟩
def Writer.ofBytes (d : List Byte) : Writer := ⟨d, 0⟩

/-- The growth of the state before a write of `n` bytes (StreamWriter.h:104-107, 124-127, 150-153). -/
def Writer.grow (w : Writer) (n : Nat) : List Byte := if w.state.length < add64 w.pos n then resize w.state (add64 w.pos n) else w.state

/-- `Write` of an integer (StreamWriter.h:146-180) and of a byte array (99-111; the little-endian `LeToBlock` is a copy, IntegerTools.h:1239-1240). -/
def Writer.put (w : Writer) : Item → M Writer
  | .u8 v => do
    let d ← wr (w.grow 1) w.pos v
    return ⟨d, add64 w.pos 1⟩
  | .u16 v => do
    let d ← le16ToBytes v (w.grow 2) w.pos
    return ⟨d, add64 w.pos 2⟩
  | .u32 v => do
    let d ← le32ToBytes v (w.grow 4) w.pos
    return ⟨d, add64 w.pos 4⟩
  | .u64 v => do
    let d ← le64ToBytes v (w.grow 8) w.pos
    return ⟨d, add64 w.pos 8⟩
  | .bytes b => do
    let d ← copy b 0 (w.grow b.length) w.pos b.length
    return ⟨d, add64 w.pos b.length⟩

/-- `GetStream` (StreamWriter.cpp:55-60). -/
def Writer.getStream (w : Writer) : MemStream := MemStream.ofBytes (resize w.state w.pos)

/-- Successive writes. -/
def Writer.puts (w : Writer) : List Item → M Writer
  | [] => return w
  | i :: is => do
    let w ← w.put i
    w.puts is

/-- The type asked of the reader; `bytes` with a length. -/
inductive Kind
  | u8 | u16 | u32 | u64
  | bytes (n : Nat)

/-- `StreamReader::ReadByte` (StreamReader.cpp:31-38). -/
def readByte (s : MemStream) : M (Byte × MemStream) := do
  let (d, _, s) ← s.read [0] 0 1
  let b ← rd d 0
  return (b, s)

/-- `StreamReader::ReadBytes` (StreamReader.cpp:40-47). -/
def readBytes (s : MemStream) (n : Nat) : M (List Byte × MemStream) := do
  let (d, _, s) ← s.read (List.replicate n 0) 0 n
  return (d, s)

/-- `StreamReader::ReadInt<T>` (StreamReader.h:104-140) and `ReadBytes`. -/
def get (s : MemStream) : Kind → M (Item × MemStream)
  | .u8 => do
    let v ← rd s.data s.pos
    return (.u8 v, s.seek (add64 s.pos 1) .begin)
  | .u16 => do
    let v ← leBytesTo16 s.data s.pos
    return (.u16 v, s.seek (add64 s.pos 2) .begin)
  | .u32 => do
    let v ← leBytesTo32 s.data s.pos
    return (.u32 v, s.seek (add64 s.pos 4) .begin)
  | .u64 => do
    let v ← leBytesTo64 s.data s.pos
    return (.u64 v, s.seek (add64 s.pos 8) .begin)
  | .bytes n => do
    let (d, s) ← readBytes s n
    return (.bytes d, s)

/-- Successive reads. -/
def gets (s : MemStream) : List Kind → M (List Item × MemStream)
  | [] => return ([], s)
  | k :: ks => do
    let (i, s) ← get s k
    let (is, s) ← gets s ks
    return (i :: is, s)

end Cex.Streams
