import Verif.Blake.Tables
import Verif.IntTools.Model
import Verif.Options.Model
import Verif.Mac.CmacModel

/-!
# Model of the BLAKE2 digests (CEX/Blake256.cpp, CEX/Blake512.cpp, CEX/Blake.h, CEX/BlakeParams.h)

The two classes are the same code up to the word size and a few lines; `Core` collects the differences. With `w` the word
size in bits, the rate is `2 * w` bytes and the digest is `w` bytes. Line numbers are those of Blake256.cpp unless said
otherwise. `ParallelFor` runs one task per leaf; a task reads the shared input and writes only its own leaf state, so it is
modelled as a loop over the leaves. Not modelled: the AVX2 permutations; `size_t` overflow of `m_msgLength + Length`.
-/

namespace Cex.Blake
open Cex Cex.IntTools Cex.Mac

variable {w : Nat}

/-! ## The permutation -/

/-- `(x >> r) | (x << (w - r))`. -/
def rotr (x : BitVec w) (r : Nat) : BitVec w := (x >>> r) ||| (x <<< (w - r))

/-- The four rotation distances. -/
structure Rots where
  r1 : Nat
  r2 : Nat
  r3 : Nat
  r4 : Nat

/-- One group of twelve statements (Blake.h:164-175, 326-337, 2337-2348, 2499-2510). -/
def gStep (p : Rots) (m : List (BitVec w)) (a b c d x y : Nat) (R : List (BitVec w)) : M (List (BitVec w)) := do
  let R ← wr R a ((← rd R a) + ((← rd R b) + (← rd m x)))
  let R ← wr R d ((← rd R d) ^^^ (← rd R a))
  let R ← wr R d (rotr (← rd R d) p.r1)
  let R ← wr R c ((← rd R c) + (← rd R d))
  let R ← wr R b ((← rd R b) ^^^ (← rd R c))
  let R ← wr R b (rotr (← rd R b) p.r2)
  let R ← wr R a ((← rd R a) + ((← rd R b) + (← rd m y)))
  let R ← wr R d ((← rd R d) ^^^ (← rd R a))
  let R ← wr R d (rotr (← rd R d) p.r3)
  let R ← wr R c ((← rd R c) + (← rd R d))
  let R ← wr R b ((← rd R b) ^^^ (← rd R c))
  wr R b (rotr (← rd R b) p.r4)

/-- A group of the compact form, with the message indices from the schedule. -/
def gSched (p : Rots) (sigma : List Nat) (m : List (BitVec w)) (a b c d k : Nat) (R : List (BitVec w)) : M (List (BitVec w)) := do
  let x ← rd sigma k
  let y ← rd sigma (k + 1)
  gStep p m a b c d x y R

/-- The loop body of the compact form (Blake.h:163-266, 2336-2439). -/
def roundC (p : Rots) (sigma : List Nat) (m : List (BitVec w)) (i : Nat) (R : List (BitVec w)) : M (List (BitVec w)) := do
  let R ← gSched p sigma m 0 4 8 12 (i * 16) R
  let R ← gSched p sigma m 1 5 9 13 (i * 16 + 2) R
  let R ← gSched p sigma m 2 6 10 14 (i * 16 + 4) R
  let R ← gSched p sigma m 3 7 11 15 (i * 16 + 6) R
  let R ← gSched p sigma m 0 5 10 15 (i * 16 + 8) R
  let R ← gSched p sigma m 1 6 11 12 (i * 16 + 10) R
  let R ← gSched p sigma m 2 7 8 13 (i * 16 + 12) R
  gSched p sigma m 3 4 9 14 (i * 16 + 14) R

/-- The sixteen message words (`LeBytesToUL512`, `LeBytesToULL1024`, IntegerTools.h:1762-1789, 1854-1866; Blake.h:292-307, 2465-2480). -/
def load (getw : List Byte → Nat → M (BitVec w)) (inp : List Byte) (io : Nat) : M (List (BitVec w)) :=
  (List.range 16).mapM fun i => getw inp (io + i * (w / 8))

/-- `State[i] ^= R[i] ^ R[i + 8]` (Blake.h:269-276, 1375-1382). -/
def fold8 (h R : List (BitVec w)) : M (List (BitVec w)) :=
  (List.range 8).mapM fun i => do return (← rd h i) ^^^ ((← rd R i) ^^^ (← rd R (i + 8)))

/-- `PermuteR10P512C`, `PermuteR12P1024C` (Blake.h:137-277, 2310-2450). -/
def permuteC (getw : List Byte → Nat → M (BitVec w)) (p : Rots) (rounds : Nat) (sigma : List Nat) (inp : List Byte) (io : Nat) (h iv : List (BitVec w)) :
    M (List (BitVec w)) := do
  let m ← load getw inp io
  let R ← loopN rounds 0 (roundC p sigma m) (h ++ iv)
  fold8 h R

/-- `PermuteR10P512U`, `PermuteR12P1024U` (Blake.h:290-1383, 2463-3766). -/
def permuteU (getw : List Byte → Nat → M (BitVec w)) (p : Rots) (groups : List (Nat × Nat × Nat × Nat × Nat × Nat)) (inp : List Byte) (io : Nat) (h iv : List (BitVec w)) :
    M (List (BitVec w)) := do
  let m ← load getw inp io
  let R ← groups.foldlM (fun R g => gStep p m g.1 g.2.1 g.2.2.1 g.2.2.2.1 g.2.2.2.2.1 g.2.2.2.2.2 R) (h ++ iv)
  fold8 h R

/-! ## The parameters -/

/-- `BlakeParams` (BlakeParams.h:36-50). -/
structure Params where
  outputSize : Byte
  keyLen : Byte
  fanOut : Byte
  maxDepth : Byte
  leafSize : BitVec 32
  nodeOffset : Byte
  nodeDepth : Byte
  innerLen : Byte
  reserved : Byte
  dst : List Byte
deriving DecidableEq

/-- `DistributionCodeMax` (BlakeParams.cpp:147-150). -/
def codeMax (outputSize : Byte) : Nat := if outputSize = 32 then 12 else 40

/-- The constructor with a tree depth (BlakeParams.cpp:23-46). -/
def Params.new (outputSize depth fanOut leaf inner : Byte) : M Params :=
  if outputSize ≠ 32 ∧ outputSize ≠ 64 then throw (.throws .illegalOperation)
  else if (fanOut > 1 ∧ inner = 0) ∨ (fanOut = 1 ∧ inner ≠ 0) then throw (.throws .illegalOperation)
  else return ⟨outputSize, 0, fanOut, depth, leaf.setWidth 32, 0, 0, inner, 0, List.replicate (codeMax outputSize) 0⟩

/-- `GetConfig<uint32_t>` (BlakeParams.h:202-218). -/
def getConfig32 (p : Params) (cfg : List (BitVec 32)) : M (List (BitVec 32)) := do
  let cfg ← wr cfg 0 (p.outputSize.setWidth 32 ||| (p.keyLen.setWidth 32 <<< 8) ||| (p.fanOut.setWidth 32 <<< 16) ||| (p.maxDepth.setWidth 32 <<< 24))
  let cfg ← wr cfg 1 p.leafSize
  let cfg ← wr cfg 2 (p.nodeOffset.setWidth 32)
  let cfg ← wr cfg 3 ((← rd cfg 3) ||| (p.nodeDepth.setWidth 32 <<< 16) ||| (p.innerLen.setWidth 32 <<< 24))
  let cfg ← wr cfg 4 (p.reserved.setWidth 32)
  loopN (cfg.length - 5) 5 (fun i c => do wr c i (← leBytesTo32 p.dst ((i - 5) * 4))) cfg

/-- `GetConfig<uint64_t>` (BlakeParams.h:185-201). -/
def getConfig64 (p : Params) (cfg : List (BitVec 64)) : M (List (BitVec 64)) := do
  let cfg ← wr cfg 0 (p.outputSize.setWidth 64 ||| (p.keyLen.setWidth 64 <<< 8) ||| (p.fanOut.setWidth 64 <<< 16) ||| (p.maxDepth.setWidth 64 <<< 24) |||
    (p.leafSize.setWidth 64 <<< 32))
  let cfg ← wr cfg 1 (p.nodeOffset.setWidth 64)
  let cfg ← wr cfg 2 (p.nodeDepth.setWidth 64 ||| (p.innerLen.setWidth 64 <<< 8) ||| (p.reserved.setWidth 64 <<< 16))
  loopN (cfg.length - 3) 3 (fun i c => do wr c i (← leBytesTo64 p.dst ((i - 3) * 8))) cfg

/-! ## The classes -/

/-- What differs between the two classes. `perm` is the compression function selected at compile time. -/
structure Core (w : Nat) where
  iv : List (BitVec w)
  perm : List Byte → Nat → List (BitVec w) → List (BitVec w) → M (List (BitVec w))
  config : Params → List (BitVec w) → M (List (BitVec w))
  getw : List Byte → Nat → M (BitVec w)
  putw : BitVec w → List Byte → Nat → M (List Byte)
  minKey : Nat
  maxKey : Nat
  salt : Nat
  rootAt : Nat → Nat
  finalMin : Nat → Nat → Nat

/-- BLAKE2s. `CEX_DIGEST_COMPACT` selects the compact permutation (571-575); key sizes 294, salt and info sizes 304, 315. -/
def core256 (compact : Bool) : Core 32 where
  iv := iv256
  perm := if compact then permuteC leBytesTo32 ⟨16, 12, 8, 7⟩ 10 sigma256 else permuteU leBytesTo32 ⟨16, 12, 8, 7⟩ unrolled256
  config := getConfig32
  getw := leBytesTo32
  putw := le32ToBytes
  minKey := 16
  maxKey := 32
  salt := 8
  rootAt oo := oo
  finalMin fan _ := fan * 64

/-- BLAKE2b (Blake512.cpp:572-576, 296, 305, 316). In tree mode the output goes to offset 0 (Blake512.cpp:273), and `Finalize`
uses the minimum size of the profile (189-199). -/
def core512 (compact : Bool) : Core 64 where
  iv := iv512
  perm := if compact then permuteC leBytesTo64 ⟨32, 24, 16, 63⟩ 12 sigma512 else permuteU leBytesTo64 ⟨32, 24, 16, 63⟩ unrolled512
  config := getConfig64
  getw := leBytesTo64
  putw := le64ToBytes
  minKey := 32
  maxKey := 64
  salt := 16
  rootAt _ := 0
  finalMin _ min := min

/-- `Blake2sState` (15-38), `Blake2bState`. -/
structure St (w : Nat) where
  F : BitVec w × BitVec w
  H : List (BitVec w)
  T : BitVec w × BitVec w
deriving DecidableEq

/-- `IntegerTools::LeIncreaseW(T, T, Length)` (IntegerTools.h:2161-2174) with the same array as input and output: the sum is
stored before the comparison `Output[0] < Input[0]` reads both. (The `memcpy` of the array to itself is taken as a no-op.) -/
def incr (t : BitVec w × BitVec w) (n : Nat) : BitVec w × BitVec w :=
  let o := t.1 + BitVec.ofNat w n
  if o < o then (o, t.2 + 1) else (o, t.2)

namespace Core

/-- `l[i] ^ x` in place. -/
def xorAt (l : List (BitVec w)) (i : Nat) (x : BitVec w) : M (List (BitVec w)) := do wr l i ((← rd l i) ^^^ x)

/-- `Permute` (556-577). -/
def permute (C : Core w) (inp : List Byte) (io : Nat) (s : St w) : M (St w) := do
  let iv ← xorAt C.iv 4 s.T.1
  let iv ← xorAt iv 5 s.T.2
  let iv ← xorAt iv 6 s.F.1
  let iv ← xorAt iv 7 s.F.2
  let h ← C.perm inp io s.H iv
  return { s with H := h }

/-- `LeIncreaseW` of a rate and `Permute`, as they occur together. -/
def absorb (C : Core w) (inp : List Byte) (io : Nat) (s : St w) : M (St w) := C.permute inp io { s with T := incr s.T (2 * w) }

/-- `MemoryTools::XOR256(Config, 0, State.H, 0)`, `XOR512` (MemoryTools.h:1461-1533). -/
def xorConfig (cfg h : List (BitVec w)) : M (List (BitVec w)) :=
  (List.range 8).mapM fun i => do return (← rd h i) ^^^ (← rd cfg i)

/-- `LoadState` (546-554): the state and the configuration array. -/
def loadState (C : Core w) (p : Params) (cfg : List (BitVec w)) : M (List (BitVec w) × St w) := do
  let cfg ← C.config p cfg
  let h ← xorConfig cfg C.iv
  return (cfg, ⟨(0, 0), h, (0, 0)⟩)

/-- `LeUL256ToBlock`, `LeULL512ToBlock` (IntegerTools.h:1436-1455, 1492-1511). -/
def put (C : Core w) (h : List (BitVec w)) (out : List Byte) (oo : Nat) : M (List Byte) :=
  loopN 8 0 (fun i out => do C.putw (← rd h i) out (oo + i * (w / 8))) out

end Core

/-- The members of the class; `min` is `m_parallelProfile.ParallelMinimumSize()`. -/
structure Obj (w : Nat) where
  dgt : List (St w)
  buf : List Byte
  len : Nat
  par : Params
  min : Nat
deriving DecidableEq

namespace Obj

/-- `CONFIG_SIZE` zero words (Blake256.h:94). -/
def cfg0 : List (BitVec w) := List.replicate 8 0

/-- `m_treeParams.FanOut()`. -/
def fan (o : Obj w) : Nat := o.par.fanOut.toNat

/-- The loop loading the leaf states (331-336, 384-388): the states and the configuration array. -/
def loadLeaves (C : Core w) (o : Obj w) (cfg : List (BitVec w)) : M (List (BitVec w) × Obj w) :=
  loopN o.fan 0 (fun i r => do
    let x ← C.loadState { o.par with nodeOffset := BitVec.ofNat 8 i } r.1
    let dgt ← wr r.2.dgt i x.2
    return (x.1, { r.2 with dgt := dgt })) (cfg, o)

/-- `Reset` (377-400). -/
def reset (C : Core w) (o : Obj w) : M (Obj w) := do
  let o ← (if o.fan > 1 then do
      let r ← o.loadLeaves C cfg0
      pure { r.2 with par := { r.2.par with nodeOffset := 0 } }
    else do
      let o := { o with par := { o.par with nodeOffset := 0 } }
      let x ← C.loadState o.par cfg0
      let dgt ← wr o.dgt 0 x.2
      pure { o with dgt := dgt })
  let buf ← clear o.buf 0 o.buf.length
  return { o with buf := buf, len := 0 }

/-- The constructor `Blake256(false)` (42-62); the minimum size of the profile is not used by a sequential object. -/
def newSeq (C : Core w) (min : Nat) : M (Obj w) := do
  let p ← Params.new (BitVec.ofNat 8 w) 1 1 0 0
  reset C ⟨[⟨(0, 0), List.replicate 8 0, (0, 0)⟩], List.replicate (2 * w) 0, 0, p, min⟩

/-- Fill the buffer and compress it, sequential (510-523). Result: object, offset, length. -/
def fillSeq (C : Core w) (o : Obj w) (inp : List Byte) (io len : Nat) : M (Obj w × Nat × Nat) :=
  if o.len + len > 2 * w then do
    let rmd := subU (2 * w) o.len
    let buf ← (if rmd ≠ 0 then copy inp io o.buf o.len rmd else pure o.buf)
    let s ← C.absorb buf 0 (← rd o.dgt 0)
    let dgt ← wr o.dgt 0 s
    return ({ o with buf := buf, dgt := dgt, len := 0 }, io + rmd, subU len rmd)
  else return (o, io, len)

/-- The block loop, sequential (526-532). -/
def loopSeq (C : Core w) (inp : List Byte) (io len : Nat) (o : Obj w) : M (Obj w × Nat × Nat) :=
  if 0 < w ∧ 2 * w < len then do
    let s ← C.absorb inp io (← rd o.dgt 0)
    let dgt ← wr o.dgt 0 s
    loopSeq C inp (io + 2 * w) (len - 2 * w) { o with dgt := dgt }
  else return (o, io, len)
termination_by len
decreasing_by omega

/-- Store the rest (536-540). -/
def store (inp : List Byte) (r : Obj w × Nat × Nat) : M (Obj w) :=
  if r.2.2 ≠ 0 then do
    let buf ← copy inp r.2.1 r.1.buf r.1.len r.2.2
    return { r.1 with buf := buf, len := r.1.len + r.2.2 }
  else return r.1

/-- All leaves, each from its own state (the bodies of the `ParallelFor` calls). -/
def leaves (o : Obj w) (f : Nat → St w → M (St w)) : M (Obj w) := do
  let dgt ← (List.range o.fan).mapM (fun i => do f i (← rd o.dgt i))
  return { o with dgt := dgt ++ o.dgt.drop o.fan }

/-- `ProcessLeaf` (579-588): the counter is not increased. A length that is not a positive multiple of the minimum size wraps
around and reads past the end of any array. -/
def processLeaf (C : Core w) (o : Obj w) (inp : List Byte) (io len : Nat) (s : St w) : M (St w) :=
  if o.min = 0 then throw .diverges
  else if len = 0 ∨ len % o.min ≠ 0 then throw .ub
  else loopN (len / o.min) 0 (fun k s => C.permute inp (io + k * o.min) s) s

/-- A large input in tree mode (437-479). Result: object, offset, length and `tlen`. -/
def largeTree (C : Core w) (o : Obj w) (inp : List Byte) (io len : Nat) : M (Obj w × Nat × Nat × Nat) :=
  let tlen := len + o.len
  let prlmin := o.buf.length + subU o.min (2 * w)
  if tlen > prlmin then do
    let rmd := subU o.buf.length o.len
    let buf ← (if rmd ≠ 0 then copy inp io o.buf o.len rmd else pure o.buf)
    let len := subU len rmd
    let io := io + rmd
    let tlen := subU tlen o.buf.length
    let o' ← { o with buf := buf, len := 0 }.leaves (fun i s => C.absorb buf (i * (2 * w)) s)
    if len > prlmin then
      let plen := subU len o.min
      let plen := plen - plen % o.min
      let o' ← o'.leaves (fun i s => o'.processLeaf C inp (io + i * (2 * w)) plen s)
      return (o', io + plen, len - plen, subU tlen plen)
    else return (o', io, len, tlen)
  else return (o, io, len, tlen)

/-- The buffer overflows (482-506). -/
def shiftTree (C : Core w) (inp : List Byte) (r : Obj w × Nat × Nat × Nat) : M (Obj w × Nat × Nat) :=
  let o := r.1
  if r.2.2.2 > o.buf.length then do
    let rmd := subU o.buf.length o.len
    let buf ← (if rmd ≠ 0 then copy inp r.2.1 o.buf o.len rmd else pure o.buf)
    let o' ← { o with buf := buf }.leaves (fun i s => C.absorb buf (i * (2 * w)) s)
    let half := buf.length / 2
    let buf' ← copy buf half buf 0 half
    return ({ o' with buf := buf', len := subU buf.length o.min }, r.2.1 + rmd, subU r.2.2.1 rmd)
  else return (o, r.2.1, r.2.2.1)

/-- `Update(Input, InOffset, Length)` (422-542). -/
def update (C : Core w) (o : Obj w) (inp : List Byte) (io len : Nat) : M (Obj w) :=
  if len ≠ 0 then
    if o.fan > 1 then do
      let r ← o.largeTree C inp io len
      let r ← shiftTree C inp r
      store inp r
    else do
      let r ← o.fillSeq C inp io len
      let r ← loopSeq C inp r.2.1 r.2.2 r.1
      store inp r
  else return o

/-- The finalisation flags `0xFFFFFFFFUL`, `0xFFFFFFFFFFFFFFFFULL`. -/
def flag : BitVec w := BitVec.allOnes w

/-- `Finalize`, sequential (276-286), without the final `Reset`. -/
def finalSeq (C : Core w) (o : Obj w) (out : List Byte) (oo : Nat) : M (Obj w × List Byte) := do
  let padlen := subU o.buf.length o.len
  let buf ← (if padlen > 0 then clear o.buf o.len padlen else pure o.buf)
  let s ← rd o.dgt 0
  let s ← C.permute buf 0 { s with F := (flag, s.F.2), T := incr s.T o.len }
  let dgt ← wr o.dgt 0 s
  let out ← C.put s.H out oo
  return ({ o with buf := buf, dgt := dgt }, out)

/-- The unaligned blocks in tree mode (187-205): the object and `pblock`, `none` for the initial all-ones value. -/
def finalTail (C : Core w) (o : Obj w) : M (Obj w × Option Nat) :=
  let minprl := C.finalMin o.fan o.min
  if o.len > minprl then do
    let bcnt := if o.len % (2 * w) ≠ 0 then (o.len - minprl) / (2 * w) + 1 else (o.len - minprl) / (2 * w)
    let o ← loopN bcnt 0 (fun i (o : Obj w) => do
      let s ← C.absorb o.buf (i * (2 * w)) (← rd o.dgt i)
      let dgt ← wr o.dgt i s
      let buf ← copy o.buf (minprl + i * (2 * w)) o.buf (i * (2 * w)) (2 * w)
      return { o with dgt := dgt, buf := buf, len := subU o.len (2 * w) }) o
    return (o, if o.len % (2 * w) ≠ 0 then some (subU bcnt 1) else none)
  else return (o, none)

/-- The last block of leaf `i` (210-240). -/
def finalLeaf (C : Core w) (pblock : Option Nat) (i : Nat) (r : Obj w × List Byte) : M (Obj w × List Byte) := do
  let o := r.1
  let s ← rd o.dgt i
  let s : St w := { s with F := (flag, if i = subU o.fan 1 then flag else s.F.2) }
  let x ← (if pblock = some i then do
      let blen := o.len % (2 * w)
      let buf ← clear o.buf (i * (2 * w) + blen) (2 * w - blen)
      pure (buf, blen, (o.len + (2 * w - blen)) % 2 ^ 64)
    else if o.len < 2 * w then do
      let buf ← clear o.buf (i * (2 * w) + o.len) (2 * w - o.len)
      pure (buf, o.len, o.len)
    else pure (o.buf, 2 * w, o.len))
  let s ← C.permute x.1 (i * (2 * w)) { s with T := incr s.T x.2.1 }
  let dgt ← wr o.dgt i s
  let codes ← C.put s.H r.2 (i * w)
  return ({ o with dgt := dgt, buf := x.1, len := subU x.2.2 (2 * w) }, codes)

/-- The root node (244-272). -/
def finalRoot (C : Core w) (o : Obj w) (codes out : List Byte) (oo : Nat) : M (Obj w × List Byte) := do
  let o := { o with len := 0 }
  let x ← C.loadState { o.par with nodeDepth := 1, nodeOffset := 0, maxDepth := 2 } cfg0
  let dgt ← wr o.dgt 0 x.2
  let o := { o with dgt := dgt }
  let o ← loopN o.fan 0 (fun i o => update C o codes (i * w) w) o
  let lim := subU codes.length (2 * w)
  let o ← loopN ((lim + (2 * w - 1)) / (2 * w)) 0 (fun k (o : Obj w) => do
    let s ← C.absorb o.buf (k * (2 * w)) (← rd o.dgt 0)
    let dgt ← wr o.dgt 0 s
    return { o with dgt := dgt }) o
  let s ← rd o.dgt 0
  let s ← C.absorb o.buf (subU o.len (2 * w)) { s with F := (flag, flag) }
  let dgt ← wr o.dgt 0 s
  let out ← C.put s.H out (C.rootAt oo)
  return ({ o with dgt := dgt }, out)

/-- `Finalize`, tree mode (178-272), without the final `Reset`. -/
def finalTree (C : Core w) (o : Obj w) (out : List Byte) (oo : Nat) : M (Obj w × List Byte) := do
  let buf ← clear o.buf o.len (subU o.buf.length o.len)
  let r ← finalTail C { o with buf := buf }
  let r ← loopN o.fan 0 (finalLeaf C r.2) (r.1, List.replicate (o.fan * w) 0)
  finalRoot C r.1 r.2 out oo

/-- `Finalize` (164-290). -/
def finalize (C : Core w) (o : Obj w) (out : List Byte) (oo : Nat) : M (Obj w × List Byte) :=
  if subU out.length oo < w then throw (.throws .invalidSize)
  else do
    let r ← (if o.fan > 1 then o.finalTree C out oo else o.finalSeq C out oo)
    let o ← r.1.reset C
    return (o, r.2)

/-- `Compute` (153-162). -/
def compute (C : Core w) (o : Obj w) (inp out : List Byte) : M (Obj w × List Byte) :=
  if out.length < w then throw (.throws .invalidSize)
  else do
    let o ← o.update C inp 0 inp.length
    o.finalize C out 0

/-- The salt and info words of the configuration (299-322). -/
def saltConfig (C : Core w) (iv info : List Byte) : M (List (BitVec w)) := do
  let cfg : List (BitVec w) ← (if iv.length ≠ 0 then
      if iv.length ≠ C.salt then throw (.throws .invalidNonce)
      else do
        let c ← wr cfg0 4 (← C.getw iv 0)
        wr c 5 (← C.getw iv (w / 8))
    else pure cfg0)
  if info.length ≠ 0 then
    if info.length ≠ C.salt then throw (.throws .invalidInfo)
    else do
      let c ← wr cfg 6 (← C.getw info 0)
      wr c 7 (← C.getw info (w / 8))
  else pure cfg

/-- `Initialize(MacKey)` (292-346). -/
def initKey (C : Core w) (o : Obj w) (key iv info : List Byte) : M (Obj w) :=
  if key.length < C.minKey ∨ key.length > C.maxKey then throw (.throws .invalidKey)
  else do
    let cfg ← saltConfig C iv info
    let mkey ← copy key 0 (List.replicate (2 * w) 0) 0 (Nat.min key.length (2 * w))
    let o : Obj w := { o with par := { o.par with keyLen := BitVec.ofNat 8 key.length } }
    if o.fan > 1 then do
      let buf ← loopN o.fan 0 (fun i b => copy mkey 0 b (i * (2 * w)) mkey.length) o.buf
      let r ← { o with buf := buf }.loadLeaves C cfg
      return { r.2 with len := o.min, par := { r.2.par with nodeOffset := 0 } }
    else do
      let buf ← copy mkey 0 o.buf 0 mkey.length
      let x ← C.loadState o.par cfg
      let dgt ← wr o.dgt 0 x.2
      return { o with buf := buf, len := 2 * w, dgt := dgt }

end Obj

end Cex.Blake
