import Verif.IntTools.Model

/-!
# Model of the block paddings CEX/PKCS7.cpp, X923.cpp, ESP.cpp, ZeroOne.cpp

`size_t` quantities that can wrap (`pos`, the mask accumulator) are `BitVec 64`; loop counters are
natural numbers, and a counter that would be decremented below zero is an out-of-range access.
-/

namespace Cex.Padding
open Cex Cex.IntTools

/-- `while (ctr != stop) { body(ctr); --ctr; }`. When `ctr` reaches 0 without meeting `stop` the
decrement wraps to `SIZE_MAX` and the next body reads out of range. -/
def downLoop {σ : Type} (stop : Nat) (f : Nat → σ → M σ) : (ctr : Nat) → σ → M σ
  | 0, s => if stop = 0 then .ok s else .error .ub
  | c + 1, s => if stop = c + 1 then .ok s else do downLoop stop f c (← f (c + 1) s)

/-- `ConditionalCopy(inp, &pos, &BLKLEN, &pos, 1)`: `pos = inp != 0 ? BLKLEN : pos`
(IntegerTools.h:2296-2305 with one element). -/
def finish (inp blklen pos : BitVec 64) : BitVec 64 := select (expandMask 6 inp) blklen pos

/-- `x >= y` on `size_t` as a byte mask: `ExpandMask<uint8_t>(x >= y)`. -/
def geMask (x y : BitVec 64) : Byte := expandMask 3 (ofBool 8 (decide (y ≤ x)))

/-! ## PKCS7 -/

/-- `PKCS7::AddPadding` (PKCS7.cpp:28-44). -/
def pkcs7Add (inp : List Byte) (off len : Nat) : M (List Byte) :=
  if inp.length < len then throw (.throws .invalidSize) else
    let code : Byte := BitVec.ofNat 8 (len - off)
    loopN (len - off) off (fun i b => wr b i code) inp

/-- Loop body PKCS7.cpp:62 / 92. `~IsEqual(..)` is promoted to `int`; after the `&` with a byte mask
only its low byte matters. -/
def pkcs7Body (inp : List Byte) (fnl : Byte) (pos : BitVec 64) (ctr : Nat) (acc : BitVec 64) : M (BitVec 64) := do
  let b ← rd inp ctr
  return acc ||| ((~~~ isEqual 3 b fnl) &&& geMask (BitVec.ofNat 64 ctr) pos).setWidth 64

/-- The common part of both `PKCS7::GetBlockLength` overloads (PKCS7.cpp:48-68, 78-98). `ctr` starts
at `BLKLEN - 2`, which wraps for a block of length 1. -/
def pkcs7Core (inp : List Byte) (stop blklen : Nat) : M (BitVec 64) := do
  if blklen = 0 then throw .ub
  let fnl ← rd inp (blklen - 1)
  if blklen = 1 then throw .ub
  let L := BitVec.ofNat 64 blklen
  let pos := L - fnl.setWidth 64
  let acc0 := expandMask 6 (ofBool 64 (decide (L < fnl.setWidth 64)))
  let acc ← downLoop stop (pkcs7Body inp fnl pos) (blklen - 2) acc0
  return finish acc L pos

/-- `PKCS7::GetBlockLength(Input)` (PKCS7.cpp:46-69). -/
def pkcs7Get (inp : List Byte) : M (BitVec 64) := pkcs7Core inp 0 inp.length

/-- `PKCS7::GetBlockLength(Input, Offset, Length)` (PKCS7.cpp:71-99). -/
def pkcs7GetAt (inp : List Byte) (off len : Nat) : M (BitVec 64) :=
  if inp.length < len then throw (.throws .invalidSize) else pkcs7Core inp off len

/-! ## X9.23 -/

/-- `X923::AddPadding` (X923.cpp:30-45); `Length - 1` wraps when `Length = 0`. -/
def x923Add (inp : List Byte) (off len : Nat) : M (List Byte) :=
  if inp.length < len then throw (.throws .invalidSize)
  else if len = 0 then throw .ub
  else do
    let b ← loopN (len - 1 - off) off (fun i b => wr b i 0) inp
    wr b (len - 1) (BitVec.ofNat 8 (len - off))

/-- Loop body X923.cpp:62 / 91. -/
def x923Body (inp : List Byte) (pos : BitVec 64) (ctr : Nat) (acc : BitVec 64) : M (BitVec 64) := do
  let b ← rd inp ctr
  return acc ||| ((~~~ isZero 3 b) &&& geMask (BitVec.ofNat 64 ctr) pos).setWidth 64

/-- Common part of both `X923::GetBlockLength` overloads (X923.cpp:49-68, 78-97). -/
def x923Core (inp : List Byte) (stop blklen : Nat) : M (BitVec 64) := do
  if blklen = 0 then throw .ub
  let fnl ← rd inp (blklen - 1)
  if blklen = 1 then throw .ub
  let L := BitVec.ofNat 64 blklen
  let acc0 := expandMask 6 (ofBool 64 (decide (L < fnl.setWidth 64)))
  let pos := L - fnl.setWidth 64
  let acc ← downLoop stop (x923Body inp pos) (blklen - 2) acc0
  return finish acc L pos

/-- `X923::GetBlockLength(Input)` (X923.cpp:47-69). -/
def x923Get (inp : List Byte) : M (BitVec 64) := x923Core inp 0 inp.length

/-- `X923::GetBlockLength(Input, Offset, Length)` (X923.cpp:71-98). -/
def x923GetAt (inp : List Byte) (off len : Nat) : M (BitVec 64) :=
  if inp.length < len then throw (.throws .invalidSize) else x923Core inp off len

/-! ## ESP -/

/-- `ESP::AddPadding` (ESP.cpp:28-45); the state is the buffer and the running pad byte. -/
def espAdd (inp : List Byte) (off len : Nat) : M (List Byte) :=
  if inp.length < len then throw (.throws .invalidSize) else do
    let s ← loopN (len - off) off (fun i (s : List Byte × Byte) => do
      let b ← wr s.1 i s.2
      return (b, s.2 + 1)) (inp, 1)
    return s.1

/-- Loop body ESP.cpp:62 / 91: compares `Input[ctr-1]` with `(uint8_t)(Input[ctr] - 1)`. -/
def espBody (inp : List Byte) (pos : BitVec 64) (ctr : Nat) (acc : BitVec 64) : M (BitVec 64) := do
  let a ← rd inp (ctr - 1)
  let b ← rd inp ctr
  return acc ||| ((~~~ isEqual 3 a (b - 1)) &&&
    expandMask 3 (ofBool 8 (decide (pos < BitVec.ofNat 64 ctr)))).setWidth 64

/-- Common part of both `ESP::GetBlockLength` overloads (ESP.cpp:49-68, 78-97). -/
def espCore (inp : List Byte) (stop blklen : Nat) : M (BitVec 64) := do
  if blklen = 0 then throw .ub
  let fnl ← rd inp (blklen - 1)
  let L := BitVec.ofNat 64 blklen
  let acc0 := expandMask 6 (ofBool 64 (decide (L < fnl.setWidth 64)))
  let pos := L - fnl.setWidth 64
  let acc ← downLoop stop (espBody inp pos) (blklen - 1) acc0
  return finish acc L pos

/-- `ESP::GetBlockLength(Input)` (ESP.cpp:47-69). -/
def espGet (inp : List Byte) : M (BitVec 64) := espCore inp 0 inp.length

/-- `ESP::GetBlockLength(Input, Offset, Length)` (ESP.cpp:71-98). -/
def espGetAt (inp : List Byte) (off len : Nat) : M (BitVec 64) :=
  if inp.length < len then throw (.throws .invalidSize) else espCore inp off len

/-! ## ZeroOne (ISO 7816-4) -/

/-- `ZeroOne::AddPadding` (ZeroOne.cpp:28-43): the fill loop runs until `i` is a multiple of `Length`. -/
def zeroOneAdd (inp : List Byte) (off len : Nat) : M (List Byte) :=
  if inp.length < len then throw (.throws .invalidSize) else do
    let b ← wr inp off 0x80
    if len = 0 then throw .ub
    let r := (off + 1) % len
    loopN (if r = 0 then 0 else len - r) (off + 1) (fun i b => wr b i 0) b

/-- Loop state of `ZeroOne::GetBlockLength`: `inp`, `seen` (bytes) and `pos`. -/
structure ZS where
  inp : Byte
  seen : Byte
  pos : BitVec 64

/-- Loop body ZeroOne.cpp:60-62 / 92-94. -/
def zeroOneBody (inp : List Byte) (ctr : Nat) (s : ZS) : M ZS := do
  let b ← rd inp (ctr - 1)
  let seen := s.seen ||| isEqual 3 b 0x80
  let pos := s.pos - (select (~~~ seen) 1 0 : Byte).setWidth 64
  return { inp := s.inp ||| ((~~~ isZero 3 b) &&& ~~~ seen), seen := seen, pos := pos }

/-- Common part of both `ZeroOne::GetBlockLength` overloads (ZeroOne.cpp:47-69, 79-101). -/
def zeroOneCore (inp : List Byte) (stop blklen : Nat) : M (BitVec 64) := do
  let L := BitVec.ofNat 64 blklen
  let s ← downLoop stop (zeroOneBody inp) blklen { inp := 0, seen := 0, pos := L - 1 }
  return finish ((s.inp ||| ~~~ s.seen).setWidth 64) L s.pos

/-- `ZeroOne::GetBlockLength(Input)` (ZeroOne.cpp:45-70). -/
def zeroOneGet (inp : List Byte) : M (BitVec 64) := zeroOneCore inp 0 inp.length

/-- `ZeroOne::GetBlockLength(Input, Offset, Length)` (ZeroOne.cpp:72-102). -/
def zeroOneGetAt (inp : List Byte) (off len : Nat) : M (BitVec 64) :=
  if inp.length < len then throw (.throws .invalidSize) else zeroOneCore inp off len

end Cex.Padding
