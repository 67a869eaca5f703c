import Verif.Streams.Model
import Verif.Modes.Model
import Verif.Padding.Model

/-!
# Model of the cipher stream (CEX/CipherStream.cpp)

The mode and the padding are parameters: `Eng` is the part of `ICipherMode` that is called, `Pad` that of `IPadding`. Progress events (CipherStream.cpp:345-381) are left out.
-/

namespace Cex.CStream
open Cex Cex.Kdf Cex.Streams

/-- An initialized cipher mode: `BlockSize`, `IsParallel`, `ParallelBlockSize`, `Transform`, and `EncryptBlock` or `DecryptBlock`. -/
structure Eng (σ : Type) where
  blk : Nat
  par : Bool
  prl : Nat
  transform : σ → List Byte → Nat → List Byte → Nat → Nat → M (σ × List Byte)
  block : σ → List Byte → Nat → List Byte → Nat → M (σ × List Byte)

/-- A padding: `AddPadding(Input, Offset, Length)` and `GetBlockLength(Input)`. -/
structure Pad where
  add : List Byte → Nat → Nat → M (List Byte)
  get : List Byte → M (BitVec 64)

/-- `while (plen != to) { body; plen += step; }`, starting with `plen = start`. A loop that misses its end goes on over the end of the arrays. -/
def loopTo {σ : Type} (step start to : Nat) (body : Nat → σ → M σ) (s : σ) : M σ :=
  if start ≤ to ∧ step ≠ 0 ∧ (to - start) % step = 0 then loopN ((to - start) / step) 0 (fun k => body (start + k * step)) s else .error .ub

/-- `PRCLEN` (CipherStream.cpp:185, 278); `fwd` is "counter mode or encryption". -/
def prcLen (fwd : Bool) (n prl : Nat) : Nat := if n % prl ≠ 0 ∨ fwd = true then n / prl * prl else n / prl * prl - prl

/-- `ALNLEN` (CipherStream.cpp:199, 294). -/
def alnLen (fwd : Bool) (n blk : Nat) : Nat := if fwd = true then n / blk * blk else if n < blk then 0 else n / blk * blk - blk

variable {σ : Type}

/-- The first two loops of the array version (CipherStream.cpp:175-211). Returns the state, the output and `plen`. -/
def arrayBody (e : Eng σ) (fwd : Bool) (s : σ) (inp : List Byte) (io : Nat) (out : List Byte) (oo : Nat) : M ((σ × List Byte) × Nat) := do
  let n := inp.length - io
  let prc := if e.par = true ∧ e.prl < n then prcLen fwd n e.prl else 0
  let st ← (if e.par = true ∧ e.prl < n then loopTo e.prl 0 prc (fun k (s, o) => e.transform s inp (io + k) o (oo + k) e.prl) (s, out) else pure (s, out))
  let st ← (if e.blk < n then loopTo e.blk prc (alnLen fwd n e.blk) (fun k (s, o) => e.transform s inp (io + k) o (oo + k) e.blk) st else pure st)
  return (st, if e.blk < n then alnLen fwd n e.blk else prc)

/-- `BlockTransform` on arrays (CipherStream.cpp:173-260), called by `Write` (162-169). -/
def writeArray (e : Eng σ) (p : Pad) (ctr enc : Bool) (s : σ) (inp : List Byte) (io : Nat) (out : List Byte) (oo : Nat) : M (σ × List Byte) :=
  if inp.length < io then .error .ub else do
    let n := inp.length - io
    let aln := alnLen (ctr || enc) n e.blk
    let ((s, out), plen) ← arrayBody e (ctr || enc) s inp io out oo
    if aln = n then return (s, out)
    else if ctr then
      let x ← copy inp (io + plen) (List.replicate e.blk 0) 0 (n - aln)
      let (s, y) ← e.transform s x 0 (List.replicate e.blk 0) 0 (n - aln)
      let out ← copy y 0 out (oo + plen) (n - aln)
      return (s, out)
    else if enc then
      let x ← copy inp (io + plen) (List.replicate e.blk 0) 0 (n - aln)
      let x ← (if n - aln ≠ e.blk then p.add x (n - aln) x.length else pure x)
      let out := if out.length ≠ plen + e.blk then resize out (plen + e.blk) else out
      e.block s x 0 out (oo + plen)
    else
      let (s, y) ← e.block s inp (io + plen) (List.replicate e.blk 0) 0
      let f ← p.get y
      let out ← copy y 0 out (oo + plen) f.toNat
      return (s, if out.length ≠ plen + f.toNat then resize out (plen + f.toNat) else out)

/-- The variables of the loops of the stream version. -/
structure Run (σ : Type) where
  s : σ
  inp : List Byte
  otp : List Byte
  ins : MemStream
  outs : MemStream

/-- One turn of a loop of the stream version (CipherStream.cpp:284-287, 302-305). A short read would make the loop miss its end. -/
def turn (e : Eng σ) (step : Nat) (r : Run σ) : M (Run σ) := do
  let (inp, pread, ins) ← r.ins.read r.inp 0 step
  let (s, otp) ← e.transform r.s inp 0 r.otp 0 pread
  let outs ← r.outs.write otp 0 pread
  if pread = step then return ⟨s, inp, otp, ins, outs⟩ else .error .diverges

/-- The first two loops of the stream version (CipherStream.cpp:265-311). -/
def streamBody (e : Eng σ) (fwd : Bool) (s : σ) (ins outs : MemStream) (n : Nat) : M (Run σ) := do
  let prc := if e.par = true ∧ e.prl < n then prcLen fwd n e.prl else 0
  let r ← (if e.par = true ∧ e.prl < n then
      loopTo e.prl 0 prc (fun _ r => turn e e.prl r) ⟨s, List.replicate e.prl 0, List.replicate e.prl 0, ins, outs⟩
    else pure ⟨s, [], [], ins, outs⟩)
  let r := { r with inp := resize r.inp e.blk, otp := resize r.otp e.blk }
  if e.blk < n then loopTo e.blk prc (alnLen fwd n e.blk) (fun _ r => turn e e.blk r) r else return r

/-- What is left after the loops of the stream version (CipherStream.cpp:312-342); `n` is `INPSZE`. -/
def streamTail (e : Eng σ) (p : Pad) (ctr enc : Bool) (n aln : Nat) (r : Run σ) : M (σ × MemStream × MemStream) := do
  if aln = n then return (r.s, r.ins, r.outs)
  else if ctr then
    let otp ← clear r.otp 0 r.otp.length
    let inp ← clear r.inp 0 r.inp.length
    let (inp, pread, ins) ← r.ins.read inp 0 (n - aln)
    let (s, otp) ← e.transform r.s inp 0 otp 0 pread
    let outs ← r.outs.write otp 0 pread
    return (s, ins, outs)
  else if enc then
    let (inp, pread, ins) ← r.ins.read r.inp 0 (n - aln)
    let inp ← (if n - aln ≠ e.blk then p.add inp pread inp.length else pure inp)
    let (s, otp) ← e.block r.s inp 0 r.otp 0
    let outs ← r.outs.write otp 0 e.blk
    return (s, ins, outs)
  else
    let (inp, _, ins) ← r.ins.read r.inp 0 e.blk
    let (s, otp) ← e.block r.s inp 0 r.otp 0
    let f ← p.get otp
    let outs ← r.outs.write otp 0 f.toNat
    return (s, ins, outs)

/-- `BlockTransform` on streams (CipherStream.cpp:262-343), called by `Write` (147-160; `SetLength` only reserves). -/
def writeStream (e : Eng σ) (p : Pad) (ctr enc : Bool) (s : σ) (ins outs : MemStream) : M (σ × MemStream × MemStream) := do
  let r ← streamBody e (ctr || enc) s ins outs (sub64 ins.data.length ins.pos)
  streamTail e p ctr enc (sub64 ins.data.length ins.pos) (alnLen (ctr || enc) (sub64 ins.data.length ins.pos) e.blk) r

end Cex.CStream
