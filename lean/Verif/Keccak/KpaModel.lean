import Verif.Keccak.Objects

/-!
# Model of KPA (CEX/KPA.cpp, CEX/KPA.h)

Scalar build: neither CEX_HAS_AVX2 nor CEX_HAS_AVX512. `P` is `Keccak::Permute(·, RX12)`.
-/

namespace Cex.Keccak
open Cex Cex.Mac

variable (P : List Byte → M (List Byte))

/-- `KpaState` (KPA.cpp:24-56): leaf states, `Buffer`, `Position`, `Processed`, `Rate`, `IsInitialized`; and `TagSize()`. -/
structure Kpa where
  st : List (List Byte)
  buf : List Byte
  pos : Nat
  proc : BitVec 64
  rate : Nat
  init : Bool
  tag : Nat

namespace Kpa

/-- The modes KPA128, KPA256, KPA512 (Macs.h). -/
inductive Kind | k128 | k256 | k512
  deriving DecidableEq

/-- The block size given to the base class (KPA.cpp:107-109). -/
def Kind.rate : Kind → Nat | k128 => 168 | k256 => 136 | k512 => 72

/-- The tag size given to the base class (KPA.cpp:118-120): the last branch is the comparison `KbaModeType == KpaModes::KPA512` itself, which converts to 1. -/
def Kind.tagSize : Kind → Nat | k128 => 16 | k256 => 32 | k512 => 1

/-- Constructor (KPA.cpp:104-124, 41-56). -/
def new (k : Kind) : Kpa := ⟨List.replicate 8 (List.replicate 200 0), List.replicate 1600 0, 0, 0, k.rate, false, k.tagSize⟩

/-- A loop over the eight leaves. -/
def each (g : Nat → List Byte → M (List Byte)) (sts : List (List Byte)) : M (List (List Byte)) :=
  loopN 8 0 (fun i l => do
    let x ← rd l i
    let y ← g i x
    wr l i y) sts

/-- `FastAbsorbx8` and `KpaPermutex8` (KPA.cpp:563-573, 655-658). -/
def absorb8 (inp : List Byte) (io rate : Nat) (sts : List (List Byte)) : M (List (List Byte)) := do
  let s ← each (fun i st => xorInto inp (io + i * rate) st 0 rate) sts
  each (fun _ st => P st) s

/-- `Reset` (KPA.cpp:81-99, 454-458): `State[i].size()` is 25, so 25 bytes of each state are cleared. -/
def reset (s : Kpa) : M Kpa := do
  let st ← each (fun _ x => clear x 0 25) s.st
  let buf ← clear s.buf 0 s.buf.length
  return { s with st := st, buf := buf, pos := 0, proc := 0, init := false }

/-- The end of the stages 1 and 2 of `Initialize` (KPA.cpp:346-352, 377-383); `oft` is not zero there. -/
def flushRate (rate : Nat) (q : Feed) : M (List Byte) := do
  let p ← clear q.pad q.off (rate - q.off)
  absorbOne P p 0 rate q.st

/-- One of the stages 1 and 2 of `Initialize` (KPA.cpp:327-353, 357-384). The pad is taken fresh: the code clears the bytes below `Rate`, and no others are ever written or read. -/
def stage (rate : Nat) (x st : List Byte) : M (List Byte) := do
  let a ← leftEncode (List.replicate 200 0) 0 (BitVec.ofNat 64 rate)
  let b ← leftEncode a.1 a.2 (BitVec.ofNat 64 (x.length * 8))
  let q ← feed P rate x ⟨b.1, a.2 + b.2, st⟩
  flushRate P rate q

/-- `algb` for leaf `i`, in the order in which its big-endian word lies in memory (KPA.cpp:300, 438-440). -/
def algn (i : Nat) : List Byte := [0x00, BitVec.ofNat 8 (i + 1), 0x4B, 0x42, 0x41, 0xAD, 0x31, 0x32].reverse

/-- The rate for a key size (KPA.cpp:311-313). -/
def rateOf (n : Nat) : Nat := if n = 16 then 168 else if n = 32 then 136 else 72

/-- `Initialize` (KPA.cpp:274-452) without CEX_ENFORCE_LEGALKEY. The block 315-323 is dead: `Reset` has cleared the flag. -/
def «initialize» (s : Kpa) (key iv : List Byte) : M Kpa :=
  if key.length < 16 then throw (.throws .invalidKey)
  else do
    let s ← (if s.init then s.reset else pure s)
    let rate := rateOf key.length
    let t ← (if iv.length ≠ 0 then stage P rate iv (List.replicate 200 0) else pure (List.replicate 200 0))
    let t ← stage P rate key t
    let st ← each (fun i x => do
      let y ← copy t 0 x 0 200
      xorInto (algn i) 0 y 0 8) s.st
    let st ← each (fun _ x => P x) st
    return { s with st := st, pos := 0, proc := 0, rate := rate, init := true }

/-- `while (Length >= BLKLEN)` (KPA.cpp:493-500), `n = Length / BLKLEN` iterations. -/
def loop8 (inp : List Byte) (rate : Nat) : (n io : Nat) → List (List Byte) × BitVec 64 → M (List (List Byte) × BitVec 64)
  | 0, _, x => return x
  | n + 1, io, x => do
    let st ← absorb8 P inp io rate x.1
    loop8 inp rate n (io + rate * 8) (st, x.2 + BitVec.ofNat 64 (rate * 8))

/-- The partially filled buffer (KPA.cpp:475-490). -/
def first (s : Kpa) (inp : List Byte) (io len : Nat) : M (Kpa × Nat × Nat) :=
  if s.pos ≠ 0 ∧ s.pos + len ≥ s.rate * 8 then do
    let buf ← copy inp io s.buf s.pos (s.rate * 8 - s.pos)
    let st ← absorb8 P buf 0 s.rate s.st
    return ({ s with st := st, buf := buf, pos := 0, proc := s.proc + BitVec.ofNat 64 (s.rate * 8) }, io + (s.rate * 8 - s.pos), len - (s.rate * 8 - s.pos))
  else return (s, io, len)

/-- Whole blocks, then the rest is stored (KPA.cpp:493-507). -/
def rest (inp : List Byte) (r : Kpa × Nat × Nat) : M Kpa := do
  let x ← loop8 P inp r.1.rate (r.2.2 / (r.1.rate * 8)) r.2.1 (r.1.st, r.1.proc)
  if r.2.2 % (r.1.rate * 8) = 0 then return { r.1 with st := x.1, proc := x.2 }
  else do
    let buf ← copy inp (r.2.1 + r.1.rate * 8 * (r.2.2 / (r.1.rate * 8))) r.1.buf r.1.pos (r.2.2 % (r.1.rate * 8))
    return { r.1 with st := x.1, proc := x.2, buf := buf, pos := r.1.pos + r.2.2 % (r.1.rate * 8) }

/-- `Update` (KPA.cpp:460-509). -/
def update (s : Kpa) (inp : List Byte) (io len : Nat) : M Kpa :=
  if ¬ s.init then throw (.throws .notInitialized)
  else if subU inp.length io < len then throw (.throws .invalidSize)
  else if len = 0 then return s
  else do
    let r ← s.first P inp io len
    rest P inp r

/-- `HASHLEN` (KPA.cpp:193-195): rate 168 selects `KPA_LEAF_HASH512`. -/
def hashLen (rate : Nat) : Nat := if rate = 168 then 64 else if rate = 136 then 32 else 64

/-- `KpaAbsorbLeaves` (KPA.cpp:577-607). -/
def absorbLeaves (inp : List Byte) (rate len : Nat) (st : List Byte) : M (List Byte) := do
  let st ← absorbLoop P inp rate (len / rate) 0 st
  if len % rate ≠ 0 then absorbOne P inp (rate * (len / rate)) (len % rate) st else return st

/-- The last block (KPA.cpp:236-245), from a cleared buffer; `prcb` has 16 bytes. -/
def lastBuf (buf : List Byte) (rate outLen : Nat) (proc : BitVec 64) : M (List Byte) := do
  let a ← rightEncode (List.replicate 16 0) 0 (8 * BitVec.ofNat 64 outLen)
  let b ← rightEncode a.1 a.2 (8 * proc)
  let buf ← copy b.1 0 buf 0 (a.2 + b.2)
  let buf ← wr buf (a.2 + b.2) 0x41
  let x ← rd buf (rate - 1)
  wr buf (rate - 1) (x ||| 0x80)

/-- `Finalize` for a SecureVector (KPA.cpp:178-272). It writes from the start of the output. The squeezed blocks pass through `Buffer` in the code, which is cleared afterwards. -/
def finalize (s : Kpa) (out : List Byte) (oo : Nat) : M (Kpa × List Byte) :=
  if ¬ s.init then throw (.throws .notInitialized)
  else if subU out.length oo < s.tag then throw (.throws .invalidSize)
  else do
    let buf ← (if s.pos ≠ s.buf.length then clear s.buf s.pos (s.buf.length - s.pos) else pure s.buf)
    let st ← (if s.pos ≠ 0 then absorb8 P buf 0 s.rate s.st else pure s.st)
    let proc := s.proc + BitVec.ofNat 64 s.pos
    let fbuf ← loopN 8 0 (fun i fb => do
      let x ← rd st i
      copy x 0 fb (i * hashLen s.rate) (hashLen s.rate)) (List.replicate 512 0)
    let root ← absorbLeaves P fbuf s.rate (8 * hashLen s.rate) (List.replicate 200 0)
    let buf ← clear buf 0 buf.length
    let buf ← lastBuf buf s.rate out.length proc
    let root ← fastAbsorb buf 0 s.rate root
    let r ← expand P s.rate root out 0 out.length
    let buf ← clear buf 0 buf.length
    return ({ s with st := st, buf := buf, pos := 0, proc := 0 }, r.2)

/-- `Finalize` for a std::vector (KPA.cpp:168-176), for `oo ≤ out.length` (the subtraction wraps otherwise and the vector cannot be allocated). -/
def finalizeAt (s : Kpa) (out : List Byte) (oo : Nat) : M (Kpa × List Byte) := do
  let r ← s.finalize P (List.replicate (out.length - oo) 0) 0
  let o ← copy r.2 0 out oo (out.length - oo)
  return (r.1, o)

/-- `Compute` (KPA.cpp:153-166). -/
def compute (s : Kpa) (inp out : List Byte) : M (Kpa × List Byte) :=
  if ¬ s.init then throw (.throws .notInitialized)
  else if out.length < s.tag then throw (.throws .invalidSize)
  else do
    let s ← s.update P inp 0 inp.length
    s.finalizeAt P out 0

end Kpa

end Cex.Keccak
