import Verif.Stream
import Verif.Mac.CmacModel
import Verif.Keccak.PermModel

/-!
# Model of the Keccak sponge functions (CEX/Keccak.h)

The state is its 200 bytes in memory. `P` is the permutation function called: `Keccak::Permute` or an unrolled variant.
-/

namespace Cex.Keccak
open Cex

variable (P : List Byte → M (List Byte))

/-- `Keccak::FastAbsorb` (Keccak.h:459-472), little endian branch. -/
def fastAbsorb (inp : List Byte) (io len : Nat) (st : List Byte) : M (List Byte) := xorInto inp io st 0 len

/-- One iteration of the loops over whole blocks. -/
def absorbOne (inp : List Byte) (io rate : Nat) (st : List Byte) : M (List Byte) := do
  let st ← fastAbsorb inp io rate st
  P st

/-- `while (InLength >= Rate) { FastAbsorb; Permute; InLength -= Rate; InOffset += Rate; }` with `n = InLength / Rate` iterations
(Keccak.h:220-227, 289-299, 606-612; the divisor is never zero). -/
def absorbLoop (inp : List Byte) (rate : Nat) : (n io : Nat) → List Byte → M (List Byte)
  | 0, _, st => return st
  | n + 1, io, st => do
    let st ← absorbOne P inp io rate st
    absorbLoop inp rate n (io + rate) st

/-- `Keccak::Absorb` (Keccak.h:215-241). -/
def absorb (inp : List Byte) (io len rate : Nat) (dom : Byte) (st : List Byte) : M (List Byte) := do
  let st ← absorbLoop P inp rate (len / rate) io st
  let io := io + rate * (len / rate)
  let len := len % rate
  let msg ← copy inp io (List.replicate 200 0) 0 len
  let msg ← wr msg len dom
  let b ← rd msg (rate - 1)
  let msg ← wr msg (rate - 1) (b ||| 128)
  xorInto msg 0 st 0 rate

/-- The loop that counts bytes (Keccak.h:530-532, 8611-8613); `k` is `sizeof(uint64_t) - n`. -/
def countLoop : (k : Nat) → BitVec 64 → Nat
  | 0, _ => 0
  | k + 1, v => if v = 0 then 0 else 1 + countLoop k (v >>> 8)

/-- `n` after Keccak.h:530-537, 8611-8618. -/
def encCount (v : BitVec 64) : Nat := if countLoop 8 v = 0 then 1 else countLoop 8 v

/-- `Keccak::LeftEncode` (Keccak.h:523-547). Result: the array and the returned length. -/
def leftEncode (out : List Byte) (off : Nat) (v : BitVec 64) : M (List Byte × Nat) := do
  let n := encCount v
  let out ← loopN n 1 (fun i out => wr out (off + i) ((v >>> (8 * (n - i))).setWidth 8)) out
  let out ← wr out off (BitVec.ofNat 8 n)
  return (out, n + 1)

/-- `Keccak::RightEncode` (Keccak.h:8604-8628). -/
def rightEncode (out : List Byte) (off : Nat) (v : BitVec 64) : M (List Byte × Nat) := do
  let n := encCount v
  let out ← loopN n 1 (fun i out => wr out (off + (i - 1)) ((v >>> (8 * (n - i))).setWidth 8)) out
  let out ← wr out (off + n) (BitVec.ofNat 8 n)
  return (out, n + 1)

/-- Local variables of `Customize` and `LoadKey`. -/
structure Feed where
  pad : List Byte
  off : Nat
  st : List Byte

/-- The loops that feed a string through `pad` (Keccak.h:380-391, 398-409, KMAC.cpp:290-301). -/
def feed (rate : Nat) : List Byte → Feed → M Feed
  | [], q => return q
  | b :: bs, q => do
    let q ← (if q.off = rate then do
        let st ← absorbOne P q.pad 0 rate q.st
        pure { q with off := 0, st := st }
      else pure q)
    let p ← wr q.pad q.off b
    feed rate bs { q with pad := p, off := q.off + 1 }

/-- `offset` rounded up to whole words (Keccak.h:413, KMAC.cpp:305). -/
def wordUp (n : Nat) : Nat := if n % 8 = 0 then n else n + (8 - n % 8)

/-- The end of `Customize` and `LoadKey` (Keccak.h:412-416, KMAC.cpp:304-312): clear the rest of `pad`, XOR whole words, permute. -/
def flush (q : Feed) : M (List Byte) := do
  let p ← clear q.pad q.off (200 - q.off)
  let st ← xorInto p 0 q.st 0 (wordUp q.off)
  P st

/-- `Keccak::Customize` (Keccak.h:368-417). -/
def customize (cust name : List Byte) (rate : Nat) (st : List Byte) : M (List Byte) := do
  let r ← leftEncode (List.replicate 200 0) 0 (BitVec.ofNat 64 rate)
  let s ← leftEncode r.1 r.2 (BitVec.ofNat 64 (name.length * 8))
  let q ← feed P rate name ⟨s.1, r.2 + s.2, st⟩
  let t ← leftEncode q.pad q.off (BitVec.ofNat 64 (cust.length * 8))
  let q ← feed P rate cust ⟨t.1, q.off + t.2, q.st⟩
  flush P q

/-- `Keccak::Squeeze` (Keccak.h:8432-8452). Result: state and output. -/
def squeeze (rate : Nat) : (blocks : Nat) → (st out : List Byte) → (oo : Nat) → M (List Byte × List Byte)
  | 0, st, out, _ => return (st, out)
  | n + 1, st, out, oo => do
    let st ← P st
    let out ← copy st 0 out oo rate
    squeeze rate n st out (oo + rate)

/-- The output loops: whole blocks, then a last partial one (SHAKE.cpp:324-341, KMAC.cpp:320-353, Keccak.h:440-447, 632-639).
Every variant permutes before each block and copies bytes of the state to the output. -/
def expand (rate : Nat) (st out : List Byte) (oo len : Nat) : M (List Byte × List Byte) := do
  let r ← squeeze P rate (len / rate) st out oo
  if len % rate = 0 then return r
  else do
    let st ← P r.1
    let out ← copy st 0 r.2 (oo + rate * (len / rate)) (len % rate)
    return (st, out)

/-- `Keccak::CXOFP1600` (Keccak.h:432-448). -/
def cxof (key cust name out : List Byte) (oo len rate : Nat) : M (List Byte) := do
  let st ← customize P cust name rate (List.replicate 200 0)
  let st ← absorb P key 0 key.length rate 0x04 st
  let r ← expand P rate st out oo len
  return r.2

/-- The last block of `XOFP1600` (Keccak.h:8499-8502). `Clear(msg, InLength + 1, Rate - InLength + 1)` clears bytes that are zero. -/
def xofBlock (inp : List Byte) (io len rate : Nat) : M (List Byte) := do
  let msg ← copy inp io (List.replicate 200 0) 0 len
  let msg ← wr msg len 0x1F
  let msg ← clear msg (len + 1) (rate - len + 1)
  let b ← rd msg (rate - 1)
  wr msg (rate - 1) (b ||| 128)

/-- `Keccak::XOFP1600` (Keccak.h:8483-8531): as `Absorb` with the domain of SHAKE, then squeeze; the last partial block goes through `msg` in whole words. -/
def xof (inp : List Byte) (io len : Nat) (out : List Byte) (oo olen rate : Nat) : M (List Byte) := do
  let st ← absorbLoop P inp rate (len / rate) io (List.replicate 200 0)
  let msg ← xofBlock inp (io + rate * (len / rate)) (len % rate) rate
  let st ← xorInto msg 0 st 0 rate
  let r ← squeeze P rate (olen / rate) st out oo
  if olen % rate = 0 then return r.2
  else do
    let st ← P r.1
    let msg ← copy st 0 msg 0 (wordUp (olen % rate))
    copy msg 0 r.2 (oo + rate * (olen / rate)) (olen % rate)

/-- `Keccak::Compute` (Keccak.h:346-357). -/
def compute (inp : List Byte) (io len : Nat) (out : List Byte) (oo rate : Nat) : M (List Byte) := do
  let st ← absorb P inp io len rate 0x06 (List.replicate 200 0)
  let st ← P st
  copy st 0 out oo ((200 - rate) / 2)

/-- The name used by `MACP1600` and by KMAC without `Info` (Keccak.h:565, KMAC.cpp:215). -/
def kmacName : List Byte := [0x4B, 0x4D, 0x41, 0x43]

/-- Absorbing the key (Keccak.h:575-603, `KMAC::LoadKey` KMAC.cpp:278-313). -/
def loadKey (key : List Byte) (rate : Nat) (st : List Byte) : M (List Byte) := do
  let r ← leftEncode (List.replicate 200 0) 0 (BitVec.ofNat 64 rate)
  let s ← leftEncode r.1 r.2 (BitVec.ofNat 64 (key.length * 8))
  let q ← feed P rate key ⟨s.1, r.2 + s.2, st⟩
  flush P q

end Cex.Keccak
