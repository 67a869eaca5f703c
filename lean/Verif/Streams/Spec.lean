import Verif.Streams.Model
import Verif.IntTools.Spec

/-!
# Specification of C33: a file is a list of bytes and a cursor

Reading takes up to the asked number of bytes from the cursor on. Writing replaces the bytes from the cursor on; a gap between the end of the file and the cursor becomes zeros.
-/

namespace Cex.Streams
open Cex

structure File where
  bytes : List Byte
  cursor : Nat

/-- Replace the bytes from position `n` on by `w`, filling a gap with zeros. -/
def splice (b : List Byte) (n : Nat) (w : List Byte) : List Byte :=
  b.take n ++ List.replicate (n - b.length) 0 ++ w ++ b.drop (n + w.length)

/-- The bytes a read of `n` bytes returns. -/
def File.next (f : File) (n : Nat) : List Byte := (f.bytes.drop f.cursor).take n

/-- The calls whose arguments make sense: the caller's windows lie in their arrays, a byte is there to be read, the seek stays in the addressable range. -/
def Sensible (f : File) : Req → Prop
  | .read out off len => off + len ≤ out.length ∧ out.length < 2 ^ 63 ∧ f.cursor ≤ f.bytes.length
  | .readByte => f.cursor < f.bytes.length
  | .write inp off len => off + len ≤ inp.length ∧ f.cursor + len < 2 ^ 63
  | .writeByte _ => f.cursor ≤ f.bytes.length ∧ f.bytes.length + 1 < 2 ^ 63
  | .seek n .begin => n < 2 ^ 63
  | .seek n .current => f.cursor + n < 2 ^ 63
  | .seek n .end_ => n ≤ f.bytes.length
  | _ => True

/-- What the file does. -/
inductive Step : File → Req → Ans → File → Prop
  | read {f out off len} : Step f (.read out off len) (.buffer (splice out off (f.next len)) (f.next len).length) { f with cursor := f.cursor + (f.next len).length }
  | readByte {f b} : f.next 1 = [b] → Step f .readByte (.byte b) { f with cursor := f.cursor + 1 }
  | write {f inp off len} : Step f (.write inp off len) .done ⟨splice f.bytes f.cursor ((inp.drop off).take len), f.cursor + len⟩
  | writeByte {f v} : Step f (.writeByte v) .done ⟨splice f.bytes f.cursor [v], f.cursor + 1⟩
  | seekBegin {f n} : Step f (.seek n .begin) .done { f with cursor := n }
  | seekCurrent {f n} : Step f (.seek n .current) .done { f with cursor := f.cursor + n }
  | seekEnd {f n} : Step f (.seek n .end_) .done { f with cursor := f.bytes.length - n }
  | reset {f} : Step f .reset .done ⟨[], 0⟩
  | close {f} : Step f .close .done ⟨[], 0⟩
  | length {f} : Step f .length (.number f.bytes.length) f
  | position {f} : Step f .position (.number f.cursor) f
  | toArray {f} : Step f .toArray (.bytes f.bytes) f

/-- A sequence of calls that all satisfy `ok`. -/
inductive Steps (ok : File → Req → Prop) : File → List Req → List Ans → File → Prop
  | nil {f} : Steps ok f [] [] f
  | cons {f r a f1 rs as f2} : ok f r → Step f r a f1 → Steps ok f1 rs as f2 → Steps ok f (r :: rs) (a :: as) f2

/-- The encoding of a value: little-endian. -/
def Item.enc : Item → List Byte
  | .u8 v => [v]
  | .u16 v => leEnc 2 v.toNat
  | .u32 v => leEnc 4 v.toNat
  | .u64 v => leEnc 8 v.toNat
  | .bytes b => b

def Item.kind : Item → Kind
  | .u8 _ => .u8
  | .u16 _ => .u16
  | .u32 _ => .u32
  | .u64 _ => .u64
  | .bytes b => .bytes b.length

end Cex.Streams
