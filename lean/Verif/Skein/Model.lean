import Verif.IntTools.Model
import Verif.Options.Model
import Verif.Mac.CmacModel
import Verif.Threefish.SkeinProgs

/-!
# Model of the Skein digests (CEX/Skein256.cpp, CEX/Skein512.cpp, CEX/Skein1024.cpp, CEX/SkeinUbiTweak.h, CEX/SkeinParams.cpp)

The three classes are the same code up to the number `n` of state words and one constructor line; `Core` collects the differences. Rate
and digest have `8 * n` bytes. Line numbers are those of Skein512.cpp unless said otherwise. `ParallelFor` runs one task per leaf; a task reads
the shared input and writes only its own leaf state, so it is modelled as a loop over the leaves. Not modelled: `CEX_DIGEST_COMPACT` (the compact
permutations compute the same, C73), `size_t` overflow of `m_msgLength + Length`, and writing to the profile through `ParallelProfile()`.
-/

namespace Cex.Skein
open Cex Cex.IntTools Cex.Mac

abbrev W := BitVec 64

/-! ## SkeinUbiTweak.h -/

/-- `T1_FINAL`, `T1_FIRST` (SkeinUbiTweak.h:75-76). -/
def tFinal : W := 1 <<< 63
def tFirst : W := 1 <<< 62

/-- `IsFinalBlock(Tweak, true)` (SkeinUbiTweak.h:134-138). -/
def setFinal (T : W × W) : W × W := (T.1, (T.2 &&& ~~~tFinal) ||| tFinal)

/-- `IsFirstBlock(Tweak, Value)` (SkeinUbiTweak.h:158-162). -/
def setFirst (T : W × W) (b : Bool) : W × W := (T.1, (T.2 &&& ~~~tFirst) ||| (if b then tFirst else 0))

/-- `IsFirstBlock(Tweak)` (SkeinUbiTweak.h:146-149). -/
def isFirst (T : W × W) : Bool := T.2 &&& tFirst ≠ 0

/-- `StartNewBlockType(Tweak, Value)` (SkeinUbiTweak.h:214-219, 111-114). -/
def startNew (type : Nat) : W × W := setFirst (0, BitVec.ofNat 64 type <<< 56) true

/-- `SkeinUbiType` (SkeinUbiTweak.h:41, 61, 65). -/
def ubiConfig : Nat := 4
def ubiMessage : Nat := 48
def ubiOut : Nat := 63

/-! ## SkeinParams -/

/-- `SkeinParams` (SkeinParams.h:58-70). -/
structure Params where
  schema : List Byte
  version : BitVec 16
  reserved1 : BitVec 16
  outputSize : W
  leafSize : Byte
  treeDepth : Byte
  fanOut : Byte
  reserved2 : Byte
  reserved3 : BitVec 32
  dst : List Byte
deriving DecidableEq

/-- `SkeinParams(OutputSize, LeafSize, Fanout)` (SkeinParams.cpp:27-53); `DistributionCodeMax` is the output size less 24 (144-147). -/
def Params.new (outputSize : Nat) (leaf fan : Byte) : M Params :=
  if outputSize ≠ 32 ∧ outputSize ≠ 64 ∧ outputSize ≠ 128 then throw (.throws .illegalOperation)
  else if (fan > 0 ∧ leaf = 0) ∨ (fan = 0 ∧ leaf ≠ 0) then throw (.throws .illegalOperation)
  else return ⟨[83, 72, 65, 51], 1, 0, BitVec.ofNat 64 outputSize, leaf, 0, fan, 0, 0, List.replicate (outputSize - 24) 0⟩

/-- `GetConfig` (SkeinParams.cpp:161-186). -/
def Params.getConfig (p : Params) : M (List W) := do
  let c : List W := List.replicate (p.outputSize.toNat / 8) 0
  let sch ← leBytesTo32 p.schema 0
  let c ← wr c 0 (sch.setWidth 64 ||| (p.version.setWidth 64 <<< 32) ||| (p.reserved1.setWidth 64 <<< 48))
  let c ← wr c 1 (p.outputSize * 8)
  let c ← wr c 2 ((← rd c 2) ||| p.leafSize.setWidth 64 ||| (p.fanOut.setWidth 64 <<< 8) ||| (p.treeDepth.setWidth 64 <<< 16) |||
    (p.reserved2.setWidth 64 <<< 24) ||| (p.reserved3.setWidth 64 <<< 32))
  loopN (c.length - 3) 3 (fun i c => do wr c i (← leBytesTo64 p.dst ((i - 3) * 8))) c

/-! ## The classes -/

/-- What differs between the classes: the number of words, the permutation (key, tweak, message) and whether the constructor from parameters
makes the buffer as large as all leaves need (Skein256.cpp:70) or one rate long (Skein512.cpp:71, Skein1024.cpp:71). -/
structure Core where
  n : Nat
  perm : List W → W × W → List W → M (List W)
  wide : Bool

def core256 : Core := ⟨4, Threefish.skein256.run, true⟩
def core512 : Core := ⟨8, Threefish.skein512.run, false⟩
def core1024 : Core := ⟨16, Threefish.skein1024.run, false⟩

/-- `Skein512State` (14-45). -/
structure St where
  S : List W
  V : List W
  T : W × W
deriving DecidableEq

namespace Core

/-- The rate and the digest size in bytes (Skein.h). -/
def rate (C : Core) : Nat := 8 * C.n

/-- A new state is zero (22-29). -/
def st0 (C : Core) : St := ⟨List.replicate C.n 0, List.replicate C.n 0, (0, 0)⟩

/-- `Increase` (35-38). -/
def increase (T : W × W) (len : Nat) : W × W := (T.1 + BitVec.ofNat 64 len, T.2)

/-- `Permute` (429-440). -/
def permute (C : Core) (msg : List W) (s : St) : M St := do
  let S ← C.perm s.S s.T msg
  return { s with S := S }

/-- `MemoryTools::XOR512` on word arrays (MemoryTools.h:1501-1533), and `XOR256`, `XOR1024`. -/
def xorW (C : Core) (inp out : List W) : M (List W) := (List.range C.n).mapM fun i => do return (← rd out i) ^^^ (← rd inp i)

/-- `LeBytesToULL512` (IntegerTools.h:1826-1852), and for 256 and 1024 bits. -/
def load (C : Core) (inp : List Byte) (io : Nat) : M (List W) := (List.range C.n).mapM fun i => leBytesTo64 inp (io + i * 8)

/-- `LeULL512ToBlock` (IntegerTools.h:1492-1511), and for 256 and 1024 bits. -/
def put (C : Core) (h : List W) (out : List Byte) (oo : Nat) : M (List Byte) :=
  loopN C.n 0 (fun i out => do le64ToBytes (← rd h i) out (oo + i * 8)) out

/-- The first lines of `LoadState` and of the loop of `Initialize` (398-400, 419-421). -/
def cfgTweak : W × W := increase (setFinal (startNew ubiConfig)) 32

/-- `LoadState` (416-427). -/
def loadState (C : Core) (cfg : List W) (s : St) : M St := do
  let s ← C.permute cfg { s with T := cfgTweak }
  let V ← C.xorW cfg s.S
  return { s with V := V }

/-- `ProcessBlock` (442-460). -/
def processBlock (C : Core) (inp : List Byte) (io len : Nat) (s : St) : M St := do
  let s : St := { s with T := increase s.T len }
  let msg ← C.load inp io
  let s ← C.permute msg s
  let S ← C.xorW msg s.S
  return { s with S := S, T := if isFirst s.T then setFirst s.T false else s.T }

/-- `MSGRMD` (172, 368). -/
def chunk (C : Core) (len : Nat) : Nat := if len ≥ C.rate then C.rate else len

theorem chunk_pos (C : Core) {len : Nat} (h : len ≠ 0 ∧ 0 < C.n) : len - C.chunk len < len := by
  rw [chunk]
  split
  · rw [rate] at *; omega
  · omega

/-- The block loop of `HashFinal` (366-373). -/
def finalBlocks (C : Core) (inp : List Byte) (io len : Nat) (s : St) : M St :=
  if len ≠ 0 ∧ 0 < C.n then do
    let rmd := C.chunk len
    let s ← C.processBlock inp io rmd s
    finalBlocks C inp (io + rmd) (len - rmd) s
  else return s
termination_by len
decreasing_by exact C.chunk_pos (by assumption)

/-- `HashFinal` (359-384). -/
def hashFinal (C : Core) (inp : List Byte) (io len : Nat) (s : St) : M St := do
  let s : St := { s with T := setFinal s.T }
  let s ← (if len ≠ 0 then C.finalBlocks inp io len s else C.processBlock inp io 0 s)
  C.processBlock (List.replicate C.rate 0) 0 8 { s with T := setFinal (startNew ubiOut) }

/-- `cfg{ tmp[0], … }` (389, 183). -/
def config (C : Core) (p : Params) : M (List W) := do
  let tmp ← p.getConfig
  (List.range C.n).mapM fun i => rd tmp i

/-- A state ready for the message (238-239, 411-412). -/
def restart (s : St) : St := { s with S := s.V, T := startNew ubiMessage }

/-- The loop over the other leaves in `Initialize` (394-406). -/
def initLeaf (C : Core) (cfg : List W) (i : Nat) (d : List St) : M (List St) := do
  let s ← rd d i
  let prev ← rd d (i - 1)
  let s ← C.permute prev.V { s with T := cfgTweak }
  let V ← C.xorW cfg s.S
  wr d i { s with V := V }

/-- `Initialize` (386-414). -/
def init (C : Core) (d : List St) (p : Params) : M (List St) := do
  let cfg ← C.config p
  let s ← C.loadState cfg (← rd d 0)
  let d ← wr d 0 s
  let d ← loopN (d.length - 1) 1 (C.initLeaf cfg) d
  return d.map restart

end Core

/-- The members of the class. -/
structure Obj where
  dgt : List St
  buf : List Byte
  len : Nat
  prof : Options.Opts
  par : Params
deriving DecidableEq

namespace Obj

/-- `Skein512(Parallel)` (49-64); the processor counts and the cache size are those of the machine. -/
def new (C : Core) (parallel : Bool) (phys virt l1 : Nat) : M Obj := do
  let prof ← Options.construct 1 C.rate false 2048 false 8 phys virt l1 (some parallel)
  let par ← (if parallel then Params.new C.rate (BitVec.ofNat 8 C.rate) 8 else Params.new C.rate 0 0)
  let n := if parallel then 8 else 1
  let dgt ← C.init (List.replicate n C.st0) par
  return ⟨dgt, List.replicate (n * C.rate) 0, 0, prof, par⟩

/-- `Skein512(Params)` (66-77). -/
def newParams (C : Core) (p : Params) (phys virt l1 : Nat) : M Obj := do
  let fan := p.fanOut.toNat
  if fan = 0 ∨ fan > 64 then throw (.throws .illegalOperation)
  let prof ← Options.construct 1 C.rate false 2048 false fan phys virt l1 (some (fan > 1))
  let dgt ← C.init (List.replicate fan C.st0) p
  return ⟨dgt, List.replicate (if C.wide then fan * C.rate else C.rate) 0, 0, prof, p⟩

/-- `Reset` (231-245). -/
def reset (o : Obj) : M Obj := do
  let buf ← clear o.buf 0 o.buf.length
  return { o with dgt := o.dgt.map Core.restart, buf := buf, len := 0 }

/-- `ParallelMaxDegree` (214-229); the message length stays. -/
def setMaxDegree (C : Core) (o : Obj) (degree : Nat) : M Obj := do
  if degree = 0 ∨ degree % 2 ≠ 0 ∨ degree > 64 then throw (.throws .notSupported)
  let prof ← Options.setMaxDegree 1 degree o.prof
  let par ← Params.new C.rate (BitVec.ofNat 8 C.rate) (BitVec.ofNat 8 degree)
  let dgt ← C.init (List.replicate degree C.st0) par
  return { o with dgt := dgt, buf := List.replicate (degree * C.rate) 0, prof := prof, par := par }

/-- All tasks of a `ParallelFor`, each on its own leaf. -/
def leaves (o : Obj) (f : Nat → St → M St) : M Obj := do
  let dgt ← (List.range o.prof.degree).mapM (fun i => do f i (← rd o.dgt i))
  return { o with dgt := dgt ++ o.dgt.drop o.prof.degree }

/-- `ProcessLeaf` (462-472). A length that is not a positive multiple of the minimum size wraps around and reads past the end of any
array. -/
def processLeaf (C : Core) (min : Nat) (inp : List Byte) (io len : Nat) (s : St) : M St :=
  if min = 0 then throw .diverges
  else if len = 0 ∨ len % min ≠ 0 then throw .ub
  else loopN (len / min) 0 (fun k s => C.processBlock inp (io + k * min) C.rate s) s

/-- Fill the buffer and process it, tree mode (275-293). Result: object, offset, length. -/
def fillTree (C : Core) (o : Obj) (inp : List Byte) (io len : Nat) : M (Obj × Nat × Nat) :=
  if o.len ≠ 0 ∧ len + o.len ≥ o.buf.length then do
    let rmd := subU o.buf.length o.len
    let buf ← (if rmd ≠ 0 then copy inp io o.buf o.len rmd else pure o.buf)
    let o' ← { o with buf := buf, len := 0 }.leaves (fun i s => C.processBlock buf (i * C.rate) C.rate s)
    return (o', io + rmd, subU len rmd)
  else return (o, io, len)

/-- Process a multiple of `unit` bytes directly (295-308 and 310-321). -/
def direct (C : Core) (inp : List Byte) (unit : Nat) (r : Obj × Nat × Nat) : M (Obj × Nat × Nat) :=
  if r.2.2 ≥ unit then
    if unit = 0 then throw .ub
    else do
      let prc := r.2.2 - r.2.2 % unit
      let o ← r.1.leaves (fun i s => processLeaf C r.1.prof.min inp (r.2.1 + i * C.rate) prc s)
      return (o, r.2.1 + prc, r.2.2 - prc)
  else return r

/-- Fill the buffer and process it, sequential (325-337). -/
def fillSeq (C : Core) (o : Obj) (inp : List Byte) (io len : Nat) : M (Obj × Nat × Nat) :=
  if o.len ≠ 0 ∧ o.len + len > C.rate then do
    let rmd := subU C.rate o.len
    let buf ← (if rmd ≠ 0 then copy inp io o.buf o.len rmd else pure o.buf)
    let s ← C.processBlock buf 0 C.rate (← rd o.dgt 0)
    let dgt ← wr o.dgt 0 s
    return ({ o with buf := buf, dgt := dgt, len := 0 }, io + rmd, subU len rmd)
  else return (o, io, len)

/-- The block loop, sequential (340-345). -/
def loopSeq (C : Core) (inp : List Byte) (io len : Nat) (o : Obj) : M (Obj × Nat × Nat) :=
  if 0 < C.n ∧ C.rate < len then do
    let s ← C.processBlock inp io C.rate (← rd o.dgt 0)
    let dgt ← wr o.dgt 0 s
    loopSeq C inp (io + C.rate) (len - C.rate) { o with dgt := dgt }
  else return (o, io, len)
termination_by len
decreasing_by simp only [Core.rate] at *; omega

/-- Store the rest (348-353). -/
def store (inp : List Byte) (r : Obj × Nat × Nat) : M Obj :=
  if r.2.2 ≠ 0 then do
    let buf ← copy inp r.2.1 r.1.buf r.1.len r.2.2
    return { r.1 with buf := buf, len := r.1.len + r.2.2 }
  else return r.1

/-- `Update(Input, InOffset, Length)` (267-355). -/
def update (C : Core) (o : Obj) (inp : List Byte) (io len : Nat) : M Obj :=
  if len ≠ 0 then
    if o.prof.isParallel then do
      let r ← o.fillTree C inp io len
      let r ← direct C inp r.1.prof.prl r
      let r ← direct C inp r.1.prof.min r
      store inp r
    else do
      let r ← o.fillSeq C inp io len
      let r ← loopSeq C inp r.2.1 r.2.2 r.1
      store inp r
  else return o

/-- `Finalize`, sequential (200-209), without the final `Reset`. The check of Skein512.cpp:200 before the `Clear` is missing in Skein256.cpp:200;
with a full buffer the call clears nothing there. -/
def finalSeq (C : Core) (o : Obj) (out : List Byte) (oo : Nat) : M (Obj × List Byte) := do
  let buf ← clear o.buf o.len (subU o.buf.length o.len)
  let s ← C.hashFinal buf 0 o.len (← rd o.dgt 0)
  let dgt ← wr o.dgt 0 s
  let out ← C.put s.S out oo
  return ({ o with buf := buf, dgt := dgt }, out)

/-- The loop over the blocks in the buffer, tree mode (170-177). -/
def finalLeaves (C : Core) (len bctr : Nat) (o : Obj) : M Obj :=
  if len ≠ 0 ∧ 0 < C.n then do
    let rmd := C.chunk len
    let s ← C.hashFinal o.buf (bctr * C.rate) rmd (← rd o.dgt bctr)
    let dgt ← wr o.dgt bctr s
    finalLeaves C (len - rmd) (bctr + 1) { o with dgt := dgt }
  else return o
termination_by len
decreasing_by exact C.chunk_pos (by assumption)

/-- `Finalize`, tree mode (157-198), without the final `Reset`. -/
def finalTree (C : Core) (o : Obj) (out : List Byte) (oo : Nat) : M (Obj × List Byte) := do
  let buf ← (if o.len < o.buf.length then clear o.buf o.len (o.buf.length - o.len) else pure o.buf)
  let o ← finalLeaves C o.len 0 { o with buf := buf, len := 0 }
  let cfg ← C.config (← Params.new C.rate 0 0)
  let root ← C.loadState cfg C.st0
  let buf ← loopN o.dgt.length 0 (fun i b => do C.put (← rd o.dgt i).S b (i * C.rate)) o.buf
  let root ← C.hashFinal buf 0 (o.dgt.length * C.rate) root
  let out ← C.put root.S out oo
  return ({ o with buf := buf, len := o.dgt.length * C.rate }, out)

/-- `Finalize` (147-212). -/
def finalize (C : Core) (o : Obj) (out : List Byte) (oo : Nat) : M (Obj × List Byte) :=
  if subU out.length oo < C.rate then throw (.throws .invalidSize)
  else do
    let r ← (if o.prof.isParallel then o.finalTree C out oo else o.finalSeq C out oo)
    let o ← r.1.reset
    return (o, r.2)

/-- `Compute` (136-145). -/
def compute (C : Core) (o : Obj) (inp out : List Byte) : M (Obj × List Byte) :=
  if out.length < C.rate then throw (.throws .invalidSize)
  else do
    let o ← o.update C inp 0 inp.length
    o.finalize C out 0

end Obj

end Cex.Skein
