import Verif.Par
import Verif.IntTools.Model

/-!
# Model of the block cipher modes ECB, CBC, CFB, OFB, CTR, ICM (CEX/*.cpp)

`Input` and `Output` are distinct arrays. The block cipher is a parameter: a pair of functions on
16-byte blocks. The wide SIMD calls (`Transform512/1024/2048`) are modelled as the block function
applied to each of `W` consecutive blocks; `W = 0` is the build without SIMD.
`BLOCK_SIZE = 16` in every mode.
-/

namespace Cex.Modes
open Cex Cex.Par Cex.IntTools

/-- A keyed block cipher (IBlockCipher): encryption and decryption of one 16-byte block. -/
structure Cipher where
  enc : List Byte → List Byte
  dec : List Byte → List Byte

/-- The part of `ParallelOptions` the modes consult: `IsParallel()`, `ParallelBlockSize()`,
`ParallelMaxDegree()`. -/
structure Profile where
  isParallel : Bool
  blockSize : Nat
  degree : Nat

/-- `EncryptBlock/DecryptBlock/Transform(Input, InOffset, Output, OutOffset)` of the block cipher. -/
def cipherBlock (f : List Byte → List Byte) (inp : List Byte) (io : Nat) (out : List Byte) (oo : Nat) : M (List Byte) := do
  let b ← slice inp io 16
  blit out oo (f b)

/-- Apply `f` to `n` consecutive 16-byte blocks of `x`. -/
def mapBlocks (f : List Byte → List Byte) : (n : Nat) → List Byte → List Byte
  | 0, _ => []
  | n + 1, x => f (x.take 16) ++ mapBlocks f n (x.drop 16)

/-- `Transform512/1024/2048` with `W` = 4, 8, 16 blocks. -/
def cipherWide (f : List Byte → List Byte) (W : Nat) (inp : List Byte) (io : Nat) (out : List Byte) (oo : Nat) :
    M (List Byte) := do
  let b ← slice inp io (16 * W)
  blit out oo (mapBlocks f W b)

/-! ## ECB -/

/-- `ECB::Generate` (ECB.cpp:263-352): wide groups when more than `thr` blocks are asked for (AVX512
Rijndael: W = 4, thr = 4; AVX512 Serpent: 16, 15; AVX2: 8, 7; AVX: 4, 3), then single blocks. -/
def ecbGenActs (W thr : Nat) (f : List Byte → List Byte) (inp : List Byte) (io oo n : Nat) : List (Act Unit) :=
  let g := if W ≠ 0 ∧ thr < n then n / W else 0
  forActs 0 g (fun k _ out => do
    let out ← cipherWide f W inp (io + k * (16 * W)) out (oo + k * (16 * W))
    return ((), out)) ++
  forActs (g * W) (n - g * W) (fun k _ out => do
    let out ← cipherBlock f inp (io + k * 16) out (oo + k * 16)
    return ((), out))

/-- `ECB::ProcessParallel` (ECB.cpp:378-387) under the schedule `sched`. -/
def ecbParallel (W thr : Nat) (p : Profile) (f : List Byte → List Byte) (sched : List Nat)
    (inp : List Byte) (io : Nat) (out : List Byte) (oo : Nat) : M (List Byte) := do
  if p.degree = 0 then throw .ub
  let seg := p.blockSize / p.degree
  let cnt := seg / 16
  let r ← runSched sched (fun i => ⟨ecbGenActs W thr f inp (io + i * seg) (oo + i * seg) cnt, ()⟩) out
  return r.2

/-- `ECB::ProcessSequential` (ECB.cpp:389-398). -/
def ecbSequential (f : List Byte → List Byte) (inp : List Byte) (io : Nat) (out : List Byte) (oo len : Nat) :
    M (List Byte) :=
  loopN (len / 16) 0 (fun i out => cipherBlock f inp (io + i * 16) out (oo + i * 16)) out

/-- `ECB::Transform` (ECB.cpp:213-243); `scheds i` is the schedule of the `i`-th parallel call.
`Length / PRLBLK` with `PRLBLK = 0` is undefined. -/
def ecbTransform (W thr : Nat) (p : Profile) (f : List Byte → List Byte) (scheds : Nat → List Nat)
    (inp : List Byte) (io : Nat) (out : List Byte) (oo len : Nat) : M (List Byte) :=
  if p.isParallel ∧ p.blockSize ≤ len then do
    if p.blockSize = 0 then throw .ub
    let cnt := len / p.blockSize
    let out ← loopN cnt 0 (fun i out =>
      ecbParallel W thr p f (scheds i) inp (io + i * p.blockSize) out (oo + i * p.blockSize)) out
    let rmd := len - p.blockSize * cnt
    if rmd ≠ 0 then ecbSequential f inp (io + p.blockSize * cnt) out (oo + p.blockSize * cnt) rmd else return out
  else ecbSequential f inp io out oo len

/-! ## CBC -/

/-- `CBC::Initialize` (CBC.cpp:187-214), the IV part. -/
def cbcInit (iv : List Byte) : M (List Byte) :=
  if iv.length ≠ 16 then throw (.throws .invalidNonce) else copy iv 0 (List.replicate 16 0) 0 16

/-- `CBC::Encrypt128` (CBC.cpp:397-404); the private state is the IV register. -/
def cbcEncBlock (c : Cipher) (inp : List Byte) (io oo : Nat) : Act (List Byte) := fun iv out => do
  let iv ← xorInto inp io iv 0 16
  let out ← cipherBlock c.enc iv 0 out oo
  let iv ← copy out oo iv 0 16
  return (iv, out)

/-- `CBC::Decrypt128` (CBC.cpp:235-244); also one iteration of the scalar loop of `DecryptSegment`
(CBC.cpp:386-389) with the thread's `Iv`. -/
def cbcDecBlock (c : Cipher) (inp : List Byte) (io oo : Nat) : Act (List Byte) := fun iv out => do
  let tmpv ← slice inp io 16
  let out ← cipherBlock c.dec inp io out oo
  let out ← xorInto iv 0 out oo 16
  let iv ← copy tmpv 0 iv 0 16
  return (iv, out)

/-- State of the wide loop of `DecryptSegment`: the thread's `Iv` and the scratch arrays `tmpv`, `tmpn`. -/
structure CbcWide where
  iv : List Byte
  tmpv : List Byte
  tmpn : List Byte

/-- One iteration of the wide loop of `CBC::DecryptSegment` (CBC.cpp:297-313, 331-346, 363-374) at
`InOffset = io`, `OutOffset = oo`: remember the next chaining blocks, transform `W` blocks, XOR. -/
def cbcDecWide (c : Cipher) (W : Nat) (inp : List Byte) (io oo : Nat) : Act CbcWide := fun s out => do
  let inpoft := io + (16 * W - 16)
  let tmpn ← copy inp inpoft s.tmpn 0 (if 16 * W ≤ inp.length - inpoft then 16 * W else inp.length - inpoft)
  let out ← cipherWide c.dec W inp io out oo
  let out ← xorInto s.tmpv 0 out oo (16 * W)
  let tmpv ← copy tmpn 0 s.tmpv 0 (16 * W)
  return ({ iv := s.iv, tmpv := tmpv, tmpn := tmpn }, out)

/-- An action on a part of a larger private state. -/
def liftAct {L K : Type} (get : K → L) (set : L → K → K) (a : Act L) : Act K := fun s out => do
  let r ← a (get s) out
  return (set r.1 s, r.2)

/-- `CBC::DecryptSegment` (CBC.cpp:276-395) with the wide loop taken when at least `W` blocks are
asked for (AVX512: W = 16, AVX2: 8, AVX: 4). -/
def cbcSegActs (c : Cipher) (W : Nat) (inp : List Byte) (io oo n : Nat) : List (Act CbcWide) :=
  let g := if W ≠ 0 ∧ W - 1 < n then n / W else 0
  (if g = 0 then [] else
    [fun s out => do
      -- build wide iv
      let tmpv ← copy s.iv 0 (List.replicate (16 * W) 0) 0 16
      let tmpv ← copy inp io tmpv 16 (16 * W - 16)
      return ({ iv := s.iv, tmpv := tmpv, tmpn := List.replicate (16 * W) 0 }, out)] ++
    forActs 0 g (fun k => cbcDecWide c W inp (io + k * (16 * W)) (oo + k * (16 * W))) ++
    [fun s out => do
      let iv ← copy s.tmpn 0 s.iv 0 16
      return ({ s with iv := iv }, out)]) ++
  forActs (g * W) (n - g * W) (fun k =>
    liftAct CbcWide.iv (fun v s => { s with iv := v }) (cbcDecBlock c inp (io + k * 16) (oo + k * 16)))

/-- One task of `CBC::DecryptParallel` (CBC.cpp:252-271): the starting chaining block is the previous
ciphertext block, or the mode's IV for the first task. -/
def cbcThread (c : Cipher) (W : Nat) (inp : List Byte) (io oo seg : Nat) (iv : List Byte) (i : Nat) : Thread CbcWide :=
  ⟨(fun _ out => do
      let thdv ← if i ≠ 0 then copy inp (io + i * seg - 16) (List.replicate 16 0) 0 16
        else copy iv 0 (List.replicate 16 0) 0 16
      return (⟨thdv, [], []⟩, out)) ::
    cbcSegActs c W inp (io + i * seg) (oo + i * seg) (seg / 16), ⟨List.replicate 16 0, [], []⟩⟩

/-- `CBC::DecryptParallel` (CBC.cpp:246-274): `tmpv` is written by the last task only, with its final
chaining block. -/
def cbcParallel (c : Cipher) (W : Nat) (p : Profile) (sched : List Nat) (inp : List Byte) (io oo : Nat)
    (iv : List Byte) (out : List Byte) : M (List Byte × List Byte) := do
  if p.degree = 0 then throw .ub
  let seg := p.blockSize / p.degree
  let r ← runSched sched (cbcThread c W inp io oo seg iv) out
  let iv ← copy (r.1 (p.degree - 1)).loc.iv 0 iv 0 16
  return (iv, r.2)

/-- `CBC::Process` (CBC.cpp:406-450). -/
def cbcProcess (c : Cipher) (W : Nat) (p : Profile) (scheds : Nat → List Nat) (encryption : Bool)
    (iv : List Byte) (inp : List Byte) (io : Nat) (out : List Byte) (oo len : Nat) : M (List Byte × List Byte) :=
  let bctr := len / 16
  if encryption then
    runActs (forActs 0 bctr (fun i => cbcEncBlock c inp (i * 16 + io) (i * 16 + oo))) iv out
  else if p.isParallel ∧ p.blockSize ≤ len then do
    if p.blockSize = 0 then throw .ub
    let cnt := len / p.blockSize
    let s ← loopN cnt 0 (fun i s =>
      cbcParallel c W p (scheds i) inp (i * p.blockSize + io) (i * p.blockSize + oo) s.1 s.2) (iv, out)
    let prc := (p.blockSize / 16) * cnt
    runActs (forActs 0 (bctr - prc) (fun i => cbcDecBlock c inp ((i + prc) * 16 + io) ((i + prc) * 16 + oo))) s.1 s.2
  else
    runActs (forActs 0 bctr (fun i => cbcDecBlock c inp (i * 16 + io) (i * 16 + oo))) iv out

/-! ## CFB -/

/-- `MemoryTools::Copy` within one array: `memcpy` between overlapping ranges is undefined; with
`memmove = true` the library's `memcpy` is assumed to behave like `memmove`. -/
def copyWithin (memmove : Bool) (b : List Byte) (so dof len : Nat) : M (List Byte) :=
  if len ≠ 0 ∧ memmove = false ∧ so < dof + len ∧ dof < so + len then throw .ub else copy b so b dof len

/-- `CFB::Initialize` (CFB.cpp:185-215), the IV part: the nonce is right-aligned in the register;
`BLOCK_SIZE - IVSize` wraps for a longer nonce. -/
def cfbInit (reg : List Byte) (iv : List Byte) : M (List Byte) :=
  if iv.length < 1 then throw (.throws .invalidNonce)
  else if 16 < iv.length then throw .ub
  else do
    let reg ← copy iv 0 reg (16 - iv.length) iv.length
    clear reg 0 (16 - iv.length)

/-- Left shift of the register (CFB.cpp:245-248, 300-303, 335-338). `RegisterSize > 16` wraps. -/
def cfbShift (mm : Bool) (r : Nat) (reg : List Byte) : M (List Byte) :=
  if 16 < r then throw .ub
  else if 0 < 16 - r then copyWithin mm reg r 0 (16 - r) else return reg

/-- The byte loop `Output[OutOffset + i] ^= Input[InOffset + i]`, `i < n`. -/
def xorLoop (inp : List Byte) (io : Nat) (out : List Byte) (oo start n : Nat) : M (List Byte) :=
  loopN n start (fun i out => do
    let x ← rd out (oo + i)
    let y ← rd inp (io + i)
    wr out (oo + i) (x ^^^ y)) out

/-- `CFB::Encrypt128` (CFB.cpp:319-342); private state = register. -/
def cfbEncBlock (mm : Bool) (c : Cipher) (r : Nat) (inp : List Byte) (io oo : Nat) : Act (List Byte) := fun reg out => do
  let tmpr ← cipherBlock c.enc reg 0 (List.replicate 16 0) 0
  let out ← copy tmpr 0 out oo r
  let out ← xorLoop inp io out oo 0 r
  let reg ← cfbShift mm r reg
  let reg ← copy out oo reg (16 - r) r
  return (reg, out)

/-- `CFB::Decrypt128` (CFB.cpp:236-258). -/
def cfbDecBlock (mm : Bool) (c : Cipher) (r : Nat) (inp : List Byte) (io oo : Nat) : Act (List Byte) := fun reg out => do
  let tmpr ← cipherBlock c.enc reg 0 (List.replicate 16 0) 0
  let out ← copy tmpr 0 out oo r
  let reg ← cfbShift mm r reg
  let reg ← copy inp io reg (16 - r) r
  let out ← xorLoop inp io out oo 0 r
  return (reg, out)

/-- One iteration of `CFB::DecryptSegment` (CFB.cpp:295-316): as `Decrypt128`, but the encrypted
register goes to the output directly, 16 bytes of it. -/
def cfbSegBlock (mm : Bool) (c : Cipher) (r : Nat) (inp : List Byte) (io oo : Nat) : Act (List Byte) := fun reg out => do
  let out ← cipherBlock c.enc reg 0 out oo
  let reg ← cfbShift mm r reg
  let reg ← copy inp io reg (16 - r) r
  let out ← xorLoop inp io out oo 0 r
  return (reg, out)

/-- One task of `CFB::DecryptParallel` (CFB.cpp:266-285). -/
def cfbThread (mm : Bool) (c : Cipher) (r : Nat) (inp : List Byte) (io oo seg : Nat) (reg : List Byte) (i : Nat) :
    Thread (List Byte) :=
  ⟨(fun _ out => do
      let thdv ← if i ≠ 0 then copy inp (io + i * seg - r) (List.replicate 16 0) 0 r
        else copy reg 0 (List.replicate 16 0) 0 r
      return (thdv, out)) ::
    forActs 0 (seg / 16) (fun k => cfbSegBlock mm c r inp (io + i * seg + k * 16) (oo + i * seg + k * 16)),
    List.replicate 16 0⟩

/-- `CFB::DecryptParallel` (CFB.cpp:260-288). -/
def cfbParallel (mm : Bool) (c : Cipher) (r : Nat) (p : Profile) (sched : List Nat) (inp : List Byte) (io oo : Nat)
    (reg : List Byte) (out : List Byte) : M (List Byte × List Byte) := do
  if p.degree = 0 then throw .ub
  let seg := p.blockSize / p.degree
  let t ← runSched sched (cfbThread mm c r inp io oo seg reg) out
  let reg ← copy (t.1 (p.degree - 1)).loc 0 reg 0 r
  return (reg, t.2)

/-- `CFB::Process` (CFB.cpp:344-387). `Length / RegisterSize` with `RegisterSize = 0` is undefined. -/
def cfbProcess (mm : Bool) (c : Cipher) (r : Nat) (p : Profile) (scheds : Nat → List Nat) (encryption : Bool)
    (reg : List Byte) (inp : List Byte) (io : Nat) (out : List Byte) (oo len : Nat) : M (List Byte × List Byte) :=
  if r = 0 then throw .ub else
  let bctr := len / r
  if encryption then
    runActs (forActs 0 bctr (fun i => cfbEncBlock mm c r inp (i * r + io) (i * r + oo))) reg out
  else if p.isParallel ∧ p.blockSize ≤ len ∧ r = 16 then do
    if p.blockSize = 0 then throw .ub
    let cnt := len / p.blockSize
    let s ← loopN cnt 0 (fun i s =>
      cfbParallel mm c r p (scheds i) inp (i * p.blockSize + io) (i * p.blockSize + oo) s.1 s.2) (reg, out)
    let prc := (p.blockSize / 16) * cnt
    runActs (forActs 0 (bctr - prc) (fun i => cfbDecBlock mm c r inp ((i + prc) * 16 + io) ((i + prc) * 16 + oo))) s.1 s.2
  else
    runActs (forActs 0 bctr (fun i => cfbDecBlock mm c r inp (i * r + io) (i * r + oo))) reg out

/-! ## OFB -/

/-- `OFB::Encrypt128` (OFB.cpp:221-238); private state = IV register. -/
def ofbBlock (c : Cipher) (inp : List Byte) (io oo : Nat) : Act (List Byte) := fun iv out => do
  let buf ← cipherBlock c.enc iv 0 (List.replicate 16 0) 0
  let out ← loopN 16 0 (fun i out => do
    let x ← rd buf i
    let y ← rd inp (io + i)
    wr out (oo + i) (x ^^^ y)) out
  let iv ← copy buf 0 iv 0 16
  return (iv, out)

/-- `OFB::Transform` (OFB.cpp:199-219). -/
def ofbTransform (c : Cipher) (iv : List Byte) (inp : List Byte) (io : Nat) (out : List Byte) (oo len : Nat) :
    M (List Byte × List Byte) :=
  if len % 16 ≠ 0 then throw (.throws .invalidSize)
  else runActs (forActs 0 (len / 16) (fun i => ofbBlock c inp (i * 16 + io) (i * 16 + oo))) iv out

/-! ## CTR and ICM -/

/-- The two counter modes: CTR counts big-endian, ICM little-endian. -/
inductive Kind
  | ctr
  | icm
  deriving DecidableEq

/-- `IntegerTools::BeIncrement8` (CTR) / `LeIncrement` (ICM) of a whole counter. -/
def Kind.inc : Kind → List Byte → M (List Byte)
  | .ctr, c => beIncrement8 c
  | .icm, c => leIncrement c

/-- Thread counter: CTR casts the offset to 32 bits (CTR.cpp:400), ICM passes a `size_t` (ICM.cpp:408). -/
def Kind.jump (k : Kind) (nonce : List Byte) (n : Nat) : M (List Byte) :=
  match k with
  | .ctr => beIncrease8 4 nonce (List.replicate 16 0) 0 (BitVec.ofNat 32 n)
  | .icm => leIncrease8 8 nonce (List.replicate 16 0) 0 (BitVec.ofNat 64 n)

/-- The staggered counters of the wide path: `W` times copy the counter to `tmpc`, then increment. -/
def stagger (k : Kind) (W : Nat) (ctr : List Byte) : M (List Byte × List Byte) :=
  loopN W 0 (fun j s => do
    let tmpc ← copy s.1 0 s.2 (j * 16) 16
    let ctr ← k.inc s.1
    return (ctr, tmpc)) (ctr, List.replicate (16 * W) 0)

/-- `CTR::Generate` (CTR.cpp:265-385) / `ICM::Generate` (ICM.cpp:267-393) as a list of actions on the
counter and the output array: wide groups, single blocks, and a last partial block. -/
def genActs (k : Kind) (W : Nat) (enc : List Byte → List Byte) (oo len : Nat) : List (Act (List Byte)) :=
  let g := if W ≠ 0 ∧ 16 * W ≤ len then len / (16 * W) else 0
  forActs 0 g (fun j ctr out => do
    let s ← stagger k W ctr
    let out ← cipherWide enc W s.2 0 out (oo + j * (16 * W))
    return (s.1, out)) ++
  forActs (g * W) (len / 16 - g * W) (fun j ctr out => do
    let out ← cipherBlock enc ctr 0 out (oo + j * 16)
    let ctr ← k.inc ctr
    return (ctr, out)) ++
  (if len % 16 = 0 then [] else
    [fun ctr out => do
      let otp ← cipherBlock enc ctr 0 (List.replicate 16 0) 0
      let ctr ← k.inc ctr
      let out ← copy otp 0 out (oo + (len - len % 16)) (len % 16)
      return (ctr, out)])

/-- `CTR::ProcessSequential` (CTR.cpp:434-456) / `ICM::ProcessSequential` (ICM.cpp:439-461). -/
def ctrSequential (k : Kind) (W : Nat) (c : Cipher) (nonce : List Byte) (inp : List Byte) (io : Nat)
    (out : List Byte) (oo len : Nat) : M (List Byte × List Byte) := do
  let aln := len - len % 16
  let s ← runActs (genActs k W c.enc oo len) nonce out
  let out ← (if aln ≠ 0 then xorInto inp io s.2 oo aln else pure s.2)
  let out ← (if aln ≠ len then xorLoop inp io out oo aln (len - aln) else pure out)
  return (s.1, out)

/-- One task of `ProcessParallel` (CTR.cpp:395-412, ICM.cpp:403-420). -/
def ctrThread (k : Kind) (W : Nat) (c : Cipher) (nonce : List Byte) (inp : List Byte) (io oo cnk : Nat) (i : Nat) :
    Thread (List Byte) :=
  ⟨(fun _ out => do
      let thdc ← k.jump nonce ((cnk / 16) * i)
      return (thdc, out)) ::
    genActs k W c.enc (oo + i * cnk) cnk ++
    [fun ctr out => do
      let out ← xorInto inp (io + i * cnk) out (oo + i * cnk) cnk
      return (ctr, out)], List.replicate 16 0⟩

/-- `CTR::ProcessParallel` (CTR.cpp:387-432) / `ICM::ProcessParallel` (ICM.cpp:395-437). The final part
after the tasks (`ALNLEN < OUTLEN`) differs: ICM ignores the offsets and takes
`(Output.size() - OutOffset) % ALNLEN` bytes. -/
def ctrParallel (k : Kind) (W : Nat) (c : Cipher) (p : Profile) (sched : List Nat) (nonce : List Byte)
    (inp : List Byte) (io : Nat) (out : List Byte) (oo len : Nat) : M (List Byte × List Byte) := do
  if p.degree = 0 then throw .ub
  let outlen := if out.length - oo < len then out.length - oo else len
  let cnk := p.blockSize / p.degree
  let aln := cnk * p.degree
  let t ← runSched sched (ctrThread k W c nonce inp io oo cnk) out
  let nonce ← copy (t.1 (p.degree - 1)).loc 0 nonce 0 16
  if aln < outlen then
    match k with
    | .ctr =>
      let s ← runActs (genActs k W c.enc (oo + aln) (outlen - aln)) nonce t.2
      let out ← xorLoop inp (io + aln) s.2 (oo + aln) 0 (outlen - aln)
      return (s.1, out)
    | .icm =>
      if aln = 0 then throw .ub
      let s ← runActs (genActs k W c.enc aln ((out.length - oo) % aln)) nonce t.2
      let out ← xorLoop inp 0 s.2 0 aln (outlen - aln)
      return (s.1, out)
  else return (nonce, t.2)

/-- `CTR::Transform` (CTR.cpp:221-251) / `ICM::Transform` (ICM.cpp:221-251). -/
def ctrTransform (k : Kind) (W : Nat) (c : Cipher) (p : Profile) (scheds : Nat → List Nat) (nonce : List Byte)
    (inp : List Byte) (io : Nat) (out : List Byte) (oo len : Nat) : M (List Byte × List Byte) :=
  if p.isParallel ∧ p.blockSize ≤ len then do
    if p.blockSize = 0 then throw .ub
    let cnt := len / p.blockSize
    let s ← loopN cnt 0 (fun i s =>
      ctrParallel k W c p (scheds i) s.1 inp (io + i * p.blockSize) s.2 (oo + i * p.blockSize) p.blockSize) (nonce, out)
    let rmd := len - p.blockSize * cnt
    if rmd ≠ 0 then
      ctrSequential k W c s.1 inp (io + p.blockSize * cnt) s.2 (oo + p.blockSize * cnt) rmd
    else return s
  else ctrSequential k W c nonce inp io out oo len

/-- `CTR::EncryptBlock/DecryptBlock` (CTR.cpp:155-180, 255-263) / ICM (ICM.cpp:155-180, 255-265). -/
def ctrBlock (k : Kind) (c : Cipher) (inp : List Byte) (io oo : Nat) : Act (List Byte) := fun nonce out => do
  let out ← cipherBlock c.enc nonce 0 out oo
  let nonce ← k.inc nonce
  let out ← xorInto inp io out oo 16
  return (nonce, out)

end Cex.Modes
