import Verif.Modes.Model

/-!
# Model of the stream ciphers' keystream engine

ChaChaP20, CSX512, TSX256/512/1024, RCS and RWS share one shape: a block function maps a counter to a
block of keystream, `Generate` fills an array with consecutive blocks, `Process` spreads the array over
tasks and XORs the message. The engine is written once over a `Core`; the ciphers differ in the counter
(two words, or a byte array of which 16 bytes count), in the block function and in how `Process` cuts
the message. The wide loops of the SIMD builds are the parameter `W` (0 = scalar build): the layout of
the counter array handed to the SIMD kernel is abstracted to the list of its counters.
-/

namespace Cex.SCipher
open Cex Cex.Par Cex.IntTools Cex.Modes

/-- What a cipher supplies: the counter type, the block size, `inc` = `LeIncrementW(Counter)` or
`LeIncrement(Counter, 16)`, `jump c n` = `LeIncreaseW(Nonce, thdCtr, n)` or
`LeIncrease8(Nonce, thdc, (uint32_t)n)`, a task's counter before that call, the block function for one
counter and the SIMD kernel for several. -/
structure Core where
  κ : Type
  B : Nat
  inc : κ → M κ
  jump : κ → Nat → M κ
  blank : κ
  block : κ → List Byte
  wide : List κ → List Byte

/-- The unrolled gathering of `W` counters (ChaChaP20.cpp:528-575, 591-614, 630-641; CSX512.cpp:520-543,
557-568; TSX256.cpp:416-439, 459-470; RCS.cpp:668-671, 689-704, 722-729). -/
def gather (C : Core) (W : Nat) (c : C.κ) : M (C.κ × List C.κ) :=
  loopN W 0 (fun _ s => do
    let c ← C.inc s.1
    return (c, s.2 ++ [s.1])) (c, [])

/-- `Generate` (ChaChaP20.cpp:510-673, CSX512.cpp:507-602, TSX256.cpp:397-505, RCS.cpp:646-754,
RWS.cpp:581-717) as a list of actions on the counter and the output array. -/
def genActs (C : Core) (W : Nat) (oo len : Nat) : List (Act C.κ) :=
  let g := if W ≠ 0 ∧ C.B * W ≤ len then len / (C.B * W) else 0
  forActs 0 g (fun j ctr out => do
    let s ← gather C W ctr
    let out ← blit out (oo + j * (C.B * W)) (C.wide s.2)
    return (s.1, out)) ++
  forActs (g * W) (len / C.B - g * W) (fun j ctr out => do
    let out ← blit out (oo + j * C.B) (C.block ctr)
    let ctr ← C.inc ctr
    return (ctr, out)) ++
  (if len % C.B = 0 then [] else
    [fun ctr out => do
      let otp ← blit (List.replicate C.B 0) 0 (C.block ctr)
      let ctr ← C.inc ctr
      let out ← copy otp 0 out (oo + (len - len % C.B)) (len % C.B)
      return (ctr, out)])

/-- The sequential branch of `Process` (ChaChaP20.cpp:699-716, CSX512.cpp:637-654, TSX256.cpp:513-530) and
`ProcessSequential` (RCS.cpp:870-892, RWS.cpp:803-825). -/
def sequential (C : Core) (W : Nat) (nonce : C.κ) (inp : List Byte) (io : Nat) (out : List Byte) (oo len : Nat) :
    M (C.κ × List Byte) := do
  let aln := len - len % C.B
  let s ← runActs (genActs C W oo len) nonce out
  let out ← (if aln ≠ 0 then xorInto inp io s.2 oo aln else pure s.2)
  let out ← (if aln ≠ len then xorLoop inp io out oo aln (len - aln) else pure out)
  return (s.1, out)

/-- One task (ChaChaP20.cpp:726-742, CSX512.cpp:664-680, TSX256.cpp:540-556, RCS.cpp:831-848). -/
def thread (C : Core) (W : Nat) (nonce : C.κ) (inp : List Byte) (io oo cnk : Nat) (i : Nat) : Thread C.κ :=
  ⟨(fun _ out => do
      let thdc ← C.jump nonce ((cnk / C.B) * i)
      return (thdc, out)) ::
    genActs C W (oo + i * cnk) cnk ++
    [fun ctr out => do
      let out ← xorInto inp (io + i * cnk) out (oo + i * cnk) cnk
      return (ctr, out)], C.blank⟩

/-- Subtraction of `size_t` values. -/
def wsub (a b : Nat) : Nat := if b ≤ a then a - b else 2 ^ 64 - (b - a)

/-- `PRCLEN` of ChaChaP20 and CSX512 (ChaChaP20.cpp:695, CSX512.cpp:633): clipped only when *both* arrays
are too short. -/
def prcLen (inp : List Byte) (io : Nat) (out : List Byte) (oo len : Nat) : Nat :=
  if wsub inp.length io ≤ len ∧ wsub out.length oo ≤ len then min (wsub inp.length io) (wsub out.length oo) else len

/-- The parallel profile as the ciphers see it (C19 models its computation): `ParallelMinimumSize` is
what ChaChaP20, CSX512 and TSX compare the length with. -/
structure Prof extends Profile where
  minSize : Nat

/-- The parts of `Process` that differ between the ciphers that cut the whole message into
`ParallelMaxDegree` chunks. -/
inductive Whole
  | csx | tsx
deriving DecidableEq

/-- The work after the tasks. ChaChaP20.cpp:747-757 and CSX512.cpp:685-695 generate the keystream of the
remainder at `RNDLEN`, **not** at `OutOffset + RNDLEN`; TSX256.cpp:561-574 moves the offset first. -/
def remainder (C : Core) (k : Whole) (W : Nat) (nonce : C.κ) (inp : List Byte) (io : Nat) (out : List Byte) (oo len aln : Nat) :
    M (C.κ × List Byte) :=
  if aln < len then
    match k with
    | .csx => do
      if aln = 0 then throw .ub
      let s ← runActs (genActs C W aln (len % aln)) nonce out
      let out ← xorLoop inp (io + aln) s.2 (oo + aln) 0 (len % aln)
      return (s.1, out)
    | .tsx => do
      let s ← runActs (genActs C W (oo + aln) (len - aln)) nonce out
      let out ← xorLoop inp (io + aln) s.2 (oo + aln) 0 (len - aln)
      return (s.1, out)
  else return (nonce, out)

/-- `Process` once `PRCLEN` is known (ChaChaP20.cpp:697-758, CSX512.cpp:635-696, TSX256.cpp:511-575). -/
def processWhole (C : Core) (k : Whole) (W : Nat) (p : Prof) (sched : List Nat) (nonce : C.κ) (inp : List Byte) (io : Nat)
    (out : List Byte) (oo len : Nat) : M (C.κ × List Byte) :=
  if p.isParallel = false ∨ len < p.minSize then sequential C W nonce inp io out oo len
  else do
    if p.degree = 0 then throw .ub
    let cnk := (len / C.B / p.degree) * C.B
    let aln := cnk * p.degree
    let t ← runSched sched (thread C W nonce inp io oo cnk) out
    remainder C k W (t.1 (p.degree - 1)).loc inp io t.2 oo len aln

/-- `Process` of ChaChaP20 and CSX512 (ChaChaP20.cpp:693-759, CSX512.cpp:631-697), and of TSX256/512/1024
(TSX256.cpp:507-576). -/
def process (C : Core) (k : Whole) (W : Nat) (p : Prof) (sched : List Nat) (nonce : C.κ) (inp : List Byte) (io : Nat)
    (out : List Byte) (oo len : Nat) : M (C.κ × List Byte) :=
  match k with
  | .csx => processWhole C .csx W p sched nonce inp io out oo (prcLen inp io out oo len)
  | .tsx => processWhole C .tsx W p sched nonce inp io out oo len

/-- `ProcessParallel` of RCS and RWS (RCS.cpp:824-868, RWS.cpp:756-801). -/
def parallelBlock (C : Core) (W : Nat) (p : Prof) (sched : List Nat) (nonce : C.κ) (inp : List Byte) (io : Nat)
    (out : List Byte) (oo len : Nat) : M (C.κ × List Byte) := do
  if p.degree = 0 then throw .ub
  let outlen := if wsub out.length oo < len then wsub out.length oo else len
  let cnk := p.blockSize / p.degree
  let aln := cnk * p.degree
  let t ← runSched sched (thread C W nonce inp io oo cnk) out
  remainder C .tsx W (t.1 (p.degree - 1)).loc inp io t.2 oo outlen aln

/-- `Process` of RCS and RWS (RCS.cpp:795-822, RWS.cpp:727-754): `ParallelBlockSize` bytes at a time. -/
def processBlocks (C : Core) (W : Nat) (p : Prof) (scheds : Nat → List Nat) (nonce : C.κ) (inp : List Byte) (io : Nat)
    (out : List Byte) (oo len : Nat) : M (C.κ × List Byte) :=
  if p.isParallel ∧ p.blockSize ≤ len then do
    if p.blockSize = 0 then throw .ub
    let cnt := len / p.blockSize
    let s ← loopN cnt 0 (fun i s =>
      parallelBlock C W p (scheds i) s.1 inp (io + i * p.blockSize) s.2 (oo + i * p.blockSize) p.blockSize) (nonce, out)
    let rmd := len - p.blockSize * cnt
    if rmd ≠ 0 then
      sequential C W s.1 inp (io + p.blockSize * cnt) s.2 (oo + p.blockSize * cnt) rmd
    else return s
  else sequential C W nonce inp io out oo len

/-! ## Counters -/

/-- `LeIncrementW` on a counter of two words (IntegerTools.h:2118-2129). -/
def incPair {w : Nat} (c : BitVec w × BitVec w) : BitVec w × BitVec w :=
  if c.1 + 1 = 0 then (c.1 + 1, c.2 + 1) else (c.1 + 1, c.2)

/-- `LeIncreaseW(Input, Output, Length)` (IntegerTools.h:2161-2174); the cast `(T)Length` drops bits above
the word size. -/
def jumpPair {w : Nat} (c : BitVec w × BitVec w) (n : Nat) : BitVec w × BitVec w :=
  let x := c.1 + BitVec.ofNat w n
  if x < c.1 then (x, c.2 + 1) else (x, c.2)

/-- The core of ChaChaP20 (`w = 32`), CSX512 and TSX (`w = 64`). -/
def pairCore (w B : Nat) (block : BitVec w × BitVec w → List Byte) (wide : List (BitVec w × BitVec w) → List Byte) : Core :=
  ⟨BitVec w × BitVec w, B, fun c => .ok (incPair c), fun c n => .ok (jumpPair c n), (0, 0), block, wide⟩

/-- The core of RCS (`B = 32`) and RWS (`B = 64`). -/
def byteCore (B : Nat) (block : List Byte → List Byte) (wide : List (List Byte) → List Byte) : Core :=
  ⟨List Byte, B, fun c => leIncrementLen c 16, fun c n => leIncrease8 4 c (List.replicate B 0) 0 (BitVec.ofNat 32 n),
    List.replicate B 0, block, wide⟩

end Cex.SCipher
