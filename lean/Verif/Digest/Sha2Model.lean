import Verif.Digest.Sha2Perm
import Verif.Mac.CmacModel

/-!
# Model of the SHA-2 digests (CEX/SHA2256.cpp, CEX/SHA2512.cpp)

The two classes are the same code up to the word size, the byte counter and three lines; `Core` collects the
differences. With `w` the word size in bits, the rate is `2 * w` bytes and the digest is `w` bytes. `ParallelFor` runs
one task per leaf; a task reads the shared input and writes only its own leaf state, so it is modelled as a loop over
the leaves. SHA-NI and SIMD compression are not modelled.
-/

namespace Cex.Digest
open Cex Cex.Digest.Fips Cex.IntTools

variable {w : Nat}

/-- The byte counter: `T` of `SHA2256State` (first component only), `T[0]`, `T[1]` of `SHA2512State`. -/
abbrev Ctr := BitVec 64 × BitVec 64

/-- `SHA2256State` (SHA2256.cpp:17-44), `SHA2512State` (SHA2512.cpp:14-48). -/
structure St (w : Nat) where
  H : V8 w
  T : Ctr
deriving DecidableEq

/-- What differs between the two classes. `perm` is the compression function selected at compile time. -/
structure Core (w : Nat) where
  iv : V8 w
  perm : List Byte → Nat → V8 w → M (V8 w)
  inc : Ctr → Nat → Ctr
  putLen : BitVec 64 → Ctr → List Byte → Nat → M (List Byte)
  clearAt : Nat → Nat
  putw : BitVec w → List Byte → Nat → M (List Byte)
  rootCmp : Nat → Bool

/-- SHA2-256. `CEX_DIGEST_COMPACT` selects the compact permutation (SHA2256.cpp:409-413). `Increase`
SHA2256.cpp:34-37; length field SHA2256.cpp:394-395; `Clear(Input, 0, …)` SHA2256.cpp:390; root comparison
SHA2256.cpp:192. -/
def core256 (compact : Bool) : Core 32 where
  iv := iv256
  perm := if compact then ops256.permuteC 8 else ops256.permuteU
  inc t n := (t.1 + BitVec.ofNat 64 n, t.2)
  putLen bitLen _ b io := do
    let b ← be32ToBytes ((bitLen >>> 32).setWidth 32) b (io + 56)
    be32ToBytes (bitLen.setWidth 32) b (io + 60)
  clearAt _ := 0
  putw := be32ToBytes
  rootCmp n := decide (n > 64)

/-- SHA2-512. `Increase` SHA2512.cpp:31-40; length field SHA2512.cpp:394-395 (it uses the value of `T[1]` at that
time); `Clear(Input, InOffset, …)` SHA2512.cpp:390; root comparison SHA2512.cpp:195. -/
def core512 (compact : Bool) : Core 64 where
  iv := iv512
  perm := if compact then ops512.permuteC 10 else ops512.permuteU
  inc t n :=
    let t0 := t.1 + BitVec.ofNat 64 n
    if t0 > 0x1FFFFFFFFFFFFFFF#64 then (t0 &&& 0x1FFFFFFFFFFFFFFF#64, t.2 + (t0 >>> 61)) else (t0, t.2)
  putLen bitLen t b io := do
    let b ← be64ToBytes t.2 b (io + 112)
    be64ToBytes bitLen b (io + 120)
  clearAt io := io
  putw := be64ToBytes
  rootCmp n := decide (n ≥ 128)

namespace Core

/-- `SHA2256State::Reset` (SHA2256.cpp:39-43), `SHA2512State::Reset` (SHA2512.cpp:42-47). -/
def st0 (C : Core w) : St w := ⟨C.iv, (0, 0)⟩

/-- `Permute` (SHA2256.cpp:399-417, SHA2512.cpp:399-408). -/
def permute (C : Core w) (inp : List Byte) (io : Nat) (s : St w) : M (St w) := do
  let h ← C.perm inp io s.H
  return ⟨h, C.inc s.T (2 * w)⟩

/-- A complete last block is compressed first (SHA2256.cpp:372-376, SHA2512.cpp:372-376). -/
def final1 (C : Core w) (b : List Byte) (io len : Nat) (s : St w) : M (St w × Nat) :=
  if len = 2 * w then do
    let s ← C.permute b io s
    return (s, 0)
  else return (s, len)

/-- The padding byte and the zeros (SHA2256.cpp:378-385, SHA2512.cpp:378-385). -/
def final2 (b : List Byte) (io len r : Nat) : M (List Byte) := do
  let b ← wr b (io + len) 0x80
  if len + 1 < r then clear b (io + (len + 1)) (r - (len + 1)) else return b

/-- No room for the length field (SHA2256.cpp:387-391, SHA2512.cpp:387-391). -/
def final3 (C : Core w) (b : List Byte) (io len : Nat) (s : St w) : M (List Byte × St w) :=
  if len + 1 > 2 * w - w / 4 then do
    let s ← C.permute b io s
    let b ← clear b (C.clearAt io) (2 * w)
    return (b, s)
  else return (b, s)

/-- `HashFinal` (SHA2256.cpp:367-397, SHA2512.cpp:367-397). -/
def hashFinal (C : Core w) (b : List Byte) (io len : Nat) (s : St w) : M (List Byte × St w) := do
  let s : St w := { s with T := C.inc s.T len }
  let bitLen := s.T.1 <<< 3
  let r ← C.final1 b io len s
  let b ← final2 b io r.2 (2 * w)
  let r ← C.final3 b io r.2 r.1
  let b ← C.putLen bitLen r.2.T r.1 io
  let s ← C.permute b io r.2
  return (b, s)

/-- `BeUL256ToBlock`, `BeULL512ToBlock` (IntegerTools.h:733-750, 761-778). -/
def put (C : Core w) (v : V8 w) (out : List Byte) (oo : Nat) : M (List Byte) := do
  let out ← C.putw v.a out oo
  let out ← C.putw v.b out (oo + w / 8)
  let out ← C.putw v.c out (oo + 2 * (w / 8))
  let out ← C.putw v.d out (oo + 3 * (w / 8))
  let out ← C.putw v.e out (oo + 4 * (w / 8))
  let out ← C.putw v.f out (oo + 5 * (w / 8))
  let out ← C.putw v.g out (oo + 6 * (w / 8))
  C.putw v.h out (oo + 7 * (w / 8))

end Core

/-- The members used for hashing, and the parallel profile: `IsParallel()`, `ParallelMaxDegree()`,
`ParallelMinimumSize()`, `ParallelBlockSize()`, and the parameter block of each leaf (`params` in `Reset`). -/
structure Obj (w : Nat) where
  dgt : List (St w)
  buf : List Byte
  len : Nat
  par : Bool
  degree : Nat
  minSize : Nat
  blockSize : Nat
  params : Nat → List Byte

namespace Obj

/-- One leaf in `Reset` (SHA2256.cpp:241-251, SHA2512.cpp:243-253). -/
def leaf0 (C : Core w) (o : Obj w) (i : Nat) : M (St w) :=
  if o.par then C.permute (o.params i) 0 C.st0 else return C.st0

/-- `Reset` (SHA2256.cpp:231-252, SHA2512.cpp:234-254). -/
def reset (C : Core w) (o : Obj w) : M (Obj w) := do
  let n := if o.par then o.degree else 1
  let dgt ← (List.range n).mapM (o.leaf0 C)
  return { o with dgt := dgt, buf := List.replicate (n * (2 * w)) 0, len := 0 }

/-- The constructor `SHA2256(false)`/`SHA2512(false)` (SHA2256.cpp:48-63, SHA2512.cpp:52-66): sequential. -/
def seq0 : Obj w := ⟨[], [], 0, false, 0, 0, 0, fun _ => []⟩

/-- Fill the buffer and compress it, sequential (SHA2256.cpp:333-345). Result: object, offset, length. -/
def fillSeq (C : Core w) (o : Obj w) (inp : List Byte) (io len : Nat) : M (Obj w × Nat × Nat) :=
  if o.len ≠ 0 ∧ o.len + len ≥ 2 * w then do
    let buf ← copy inp io o.buf o.len (2 * w - o.len)
    let s ← rd o.dgt 0
    let s ← C.permute buf 0 s
    let dgt ← wr o.dgt 0 s
    return ({ o with buf := buf, dgt := dgt, len := 0 }, io + (2 * w - o.len), len - (2 * w - o.len))
  else return (o, io, len)

/-- The block loop, sequential (SHA2256.cpp:348-353). -/
def loopSeq (C : Core w) (inp : List Byte) (io len : Nat) (o : Obj w) : M (Obj w × Nat × Nat) :=
  if 0 < w ∧ 2 * w ≤ len then do
    let s ← rd o.dgt 0
    let s ← C.permute inp io s
    let dgt ← wr o.dgt 0 s
    loopSeq C inp (io + 2 * w) (len - 2 * w) { o with dgt := dgt }
  else return (o, io, len)
termination_by len
decreasing_by omega

/-- All leaves, each from its own state (the bodies of the `ParallelFor` calls). -/
def leaves (o : Obj w) (f : Nat → St w → M (St w)) : M (Obj w) := do
  let dgt ← (List.range o.degree).mapM (fun i => do let s ← rd o.dgt i; f i s)
  return { o with dgt := dgt ++ o.dgt.drop o.degree }

/-- `ProcessLeaf` (SHA2256.cpp:419-428, SHA2512.cpp:410-419); the length is a positive multiple of the minimum size. -/
def processLeaf (C : Core w) (o : Obj w) (inp : List Byte) (io len : Nat) (s : St w) : M (St w) :=
  if o.minSize = 0 ∨ len < o.minSize then throw .diverges
  else loopN (len / o.minSize) 0 (fun k s => C.permute inp (io + k * o.minSize) s) s

/-- Fill the buffer and compress it, parallel (SHA2256.cpp:282-301). -/
def fillPar (C : Core w) (o : Obj w) (inp : List Byte) (io len : Nat) : M (Obj w × Nat × Nat) :=
  if o.len ≠ 0 ∧ len + o.len ≥ o.buf.length then do
    let buf ← copy inp io o.buf o.len (o.buf.length - o.len)
    let o' ← { o with buf := buf }.leaves (fun i s => C.permute buf (i * (2 * w)) s)
    return ({ o' with len := 0 }, io + (o.buf.length - o.len), len - (o.buf.length - o.len))
  else return (o, io, len)

/-- A run of stripes of size `m` (SHA2256.cpp:303-316 with the parallel block size, 318-329 with the minimum size). -/
def stripes (C : Core w) (m : Nat) (inp : List Byte) (r : Obj w × Nat × Nat) : M (Obj w × Nat × Nat) :=
  if r.2.2 ≥ m then
    if m = 0 then throw .ub
    else do
      let n := r.2.2 - r.2.2 % m
      let o ← r.1.leaves (fun i s => r.1.processLeaf C inp (r.2.1 + i * (2 * w)) n s)
      return (o, r.2.1 + n, r.2.2 - n)
  else return r

/-- Store the rest (SHA2256.cpp:357-361). -/
def store (inp : List Byte) (r : Obj w × Nat × Nat) : M (Obj w) :=
  if r.2.2 ≠ 0 then do
    let buf ← copy inp r.2.1 r.1.buf r.1.len r.2.2
    return { r.1 with buf := buf, len := r.1.len + r.2.2 }
  else return r.1

/-- `Update` (SHA2256.cpp:274-363, SHA2512.cpp:276-363). -/
def update (C : Core w) (o : Obj w) (inp : List Byte) (io len : Nat) : M (Obj w) :=
  if len = 0 then return o
  else if o.par then do
    let r ← o.fillPar C inp io len
    let r ← stripes C o.blockSize inp r
    let r ← stripes C o.minSize inp r
    store inp r
  else do
    let r ← o.fillSeq C inp io len
    let r ← loopSeq C inp r.2.1 r.2.2 r.1
    store inp r

/-- Finish the leaves that have bytes in the buffer (SHA2256.cpp:166-177): leaf `i` gets the bytes from `i * rate`. -/
def finishLeaves (C : Core w) (o : Obj w) : M (Obj w) :=
  loopN ((o.len + (2 * w - 1)) / (2 * w)) 0 (fun i o' => do
    let s ← rd o'.dgt i
    let r ← C.hashFinal o'.buf (i * (2 * w)) (if o.len - i * (2 * w) ≥ 2 * w then 2 * w else o.len - i * (2 * w)) s
    let dgt ← wr o'.dgt i r.2
    return { o' with buf := r.1, dgt := dgt }) o

/-- Write the leaf states to the buffer (SHA2256.cpp:184-188). -/
def rootInput (C : Core w) (o : Obj w) : M (List Byte) :=
  loopN o.dgt.length 0 (fun i buf => do let s ← rd o.dgt i; C.put s.H buf (i * (2 * w))) o.buf

/-- The root hash over the buffer with `n` counted bytes (SHA2256.cpp:180-181, 190-206). -/
def root (C : Core w) (buf : List Byte) (n : Nat) : M (List Byte × St w) :=
  if C.rootCmp n then do
    let s ← loopN ((n - n % (2 * w)) / (2 * w)) 0 (fun i s => C.permute buf (i * (2 * w)) s) C.st0
    C.hashFinal buf (n - n % (2 * w)) (n % (2 * w)) s
  else C.hashFinal buf 0 n C.st0

/-- `Finalize`, parallel part (SHA2256.cpp:157-208, SHA2512.cpp:160-211): the root state. -/
def finalPar (C : Core w) (o : Obj w) : M (St w) := do
  let buf ← (if o.len < o.buf.length then clear o.buf o.len (o.buf.length - o.len) else return o.buf)
  let o ← finishLeaves C { o with buf := buf }
  let buf ← rootInput C o
  let r ← root C buf (o.dgt.length * w)
  return r.2

/-- `Finalize`, sequential part (SHA2256.cpp:209-214). -/
def finalSeq (C : Core w) (o : Obj w) : M (St w) := do
  let s ← rd o.dgt 0
  let r ← C.hashFinal o.buf 0 o.len s
  return r.2

/-- `Finalize` (SHA2256.cpp:146-217, SHA2512.cpp:149-220). -/
def finalize (C : Core w) (o : Obj w) (out : List Byte) (oo : Nat) : M (Obj w × List Byte) :=
  if Mac.subU out.length oo < w then throw (.throws .invalidSize)
  else do
    let s ← (if o.par then o.finalPar C else o.finalSeq C)
    let out ← C.put s.H out oo
    let o ← o.reset C
    return (o, out)

/-- `Compute` (SHA2256.cpp:135-144, SHA2512.cpp:138-147). -/
def compute (C : Core w) (o : Obj w) (inp out : List Byte) : M (Obj w × List Byte) :=
  if out.length < w then throw (.throws .invalidSize)
  else do
    let o ← o.update C inp 0 inp.length
    o.finalize C out 0

end Obj
end Cex.Digest
