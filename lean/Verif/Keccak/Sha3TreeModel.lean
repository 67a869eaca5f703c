import Verif.Keccak.Objects
import Verif.Options.Model
import Verif.IntTools.Model

/-!
# Model of the parallel mode of SHA3 (CEX/SHA3256.cpp, CEX/SHA3512.cpp) and of its parameters (CEX/KeccakParams.cpp)

The two digests have the same text but for the names. `r` is `KECCAKnnn_RATE_SIZE` (136, 72), `d` is `KECCAKnnn_DIGEST_SIZE` (32, 64), `P` the permutation. Only the branches
with `IsParallel()` are here; the others are in `Objects.lean`. The tasks of `ParallelFor` work on different states and are run one after the other.
-/

namespace Cex.Keccak
open Cex Cex.Mac Cex.Options Cex.IntTools

variable (P : List Byte → M (List Byte))

/-- `KeccakParams` (KeccakParams.h:55-62). -/
structure KParams where
  node : BitVec 32
  ver : BitVec 16
  out : BitVec 64
  leaf : BitVec 32
  depth : Byte
  fan : Byte
  rsv : BitVec 32
  code : List Byte
  deriving DecidableEq

namespace KParams

/-- `DistributionCodeMax` (KeccakParams.cpp:92-106). -/
def codeMaxOf (out : BitVec 64) : Nat := if out = 32 then 112 else 48
def codeMax (p : KParams) : Nat := codeMaxOf p.out

/-- `ToBytes` (KeccakParams.cpp:199-213): the fields are written to adjacent places of a zeroed vector of `24 + DistributionCodeMax()` bytes; a longer distribution code is written
behind its end. -/
def toBytes (p : KParams) : M (List Byte) :=
  if p.code.length > p.codeMax then throw .ub
  else return leRep 4 p.node ++ leRep 2 p.ver ++ leRep 8 p.out ++ leRep 4 p.leaf ++ [p.depth] ++ [p.fan] ++ leRep 4 p.rsv ++ (p.code ++ List.replicate (p.codeMax - p.code.length) 0)

/-- The constructor from an array (KeccakParams.cpp:45-68). -/
def fromBytes (a : List Byte) : M KParams := do
  let node ← leBytesTo32 a 0
  let ver ← leBytesTo16 a 4
  let out ← leBytesTo64 a 6
  let leaf ← leBytesTo32 a 14
  let depth ← rd a 18
  let fan ← rd a 19
  let rsv ← leBytesTo32 a 20
  let code ← copy a 24 (List.replicate (codeMaxOf out) 0) 0 (codeMaxOf out)
  return ⟨node, ver, out, leaf, depth, fan, rsv, code⟩

/-- The constructor from sizes (KeccakParams.cpp:24-43). -/
def ofSizes (out : BitVec 64) (leaf : BitVec 32) (fan : Byte) : M KParams :=
  if out ≠ 32 ∧ out ≠ 64 ∧ out ≠ 128 then throw (.throws .illegalOperation)
  else if (0 < fan ∧ leaf = 0) ∨ (fan = 0 ∧ leaf ≠ 0) then throw (.throws .illegalOperation)
  else return ⟨0, 1, out, leaf, 0, fan, 0, List.replicate (codeMaxOf out) 0⟩

/-- `result += n` for an `int` operand; signed overflow is undefined. -/
def addInt (a : BitVec 32) (n : Nat) : M (BitVec 32) :=
  if a.toInt + n < 2 ^ 31 then return a + BitVec.ofNat 32 n else throw .ub

/-- `GetHashCode` (KeccakParams.cpp:165-182). The terms with `uint32_t` and `uint64_t` members are computed modulo a power of two and converted to `int32_t`; those with the
smaller members are `int`. -/
def hashCode (p : KParams) : M (BitVec 32) := do
  let h := BitVec.ofNat 32 (31 * p.ver.toNat) + 31 * p.node + 31 * p.leaf + (31 * p.out).setWidth 32
  let h ← addInt h (31 * p.depth.toNat)
  let h ← addInt h (31 * p.fan.toNat)
  let h := h + 31 * p.rsv
  p.code.foldlM (fun h b => addInt h (31 * b.toNat)) h

/-- `Equals` (KeccakParams.cpp:153-163). -/
def equals (p q : KParams) : M Bool := do
  let a ← p.hashCode
  let b ← q.hashCode
  return a = b

end KParams

/-- The members of the digest: `m_dgtState`, `m_msgBuffer`, `m_msgLength`, `m_parallelProfile`, `m_treeParams`. -/
structure Tree where
  dgt : List (List Byte)
  buf : List Byte
  len : Nat
  opts : Opts
  par : KParams

namespace Tree

/-- A loop over `D` states. -/
def leaves (D : Nat) (g : Nat → List Byte → M (List Byte)) (l : List (List Byte)) : M (List (List Byte)) :=
  loopN D 0 (fun i l => do
    let x ← rd l i
    let y ← g i x
    wr l i y) l

/-- A leaf after `Reset` (SHA3256.cpp:231-239): `m_treeParams` with the number of the leaf is absorbed; `FastAbsorb` reads `r` bytes. -/
def leaf0 (r : Nat) (o : Tree) (i : Nat) (st : List Byte) : M (List Byte) := do
  let st ← clear st 0 st.length
  if o.opts.isParallel then do
    let b ← { o.par with node := BitVec.ofNat 32 i }.toBytes
    absorbOne P b 0 r st
  else return st

/-- `Reset` (SHA3256.cpp:222-241). The node offset that it leaves in `m_treeParams` is overwritten before each use and not kept. -/
def reset (r : Nat) (o : Tree) : M Tree := do
  let buf ← clear o.buf 0 o.buf.length
  let dgt ← leaves o.dgt.length (o.leaf0 P r) o.dgt
  return { o with buf := buf, dgt := dgt, len := 0 }

/-- The constructor with `Parallel = true` (SHA3256.cpp:37-52): eight states, whatever the machine; the profile takes the number of processors (`phys`, `virt`) and the cache size. -/
def new (r d : Nat) (phys virt l1 : Nat) : M Tree := do
  let o ← construct 1 r false 2048 false 8 phys virt l1 (some true)
  let p ← KParams.ofSizes (BitVec.ofNat 64 d) (BitVec.ofNat 8 r |>.setWidth 32) (BitVec.ofNat 8 o.degree)
  reset P r ⟨List.replicate 8 (List.replicate 200 0), List.replicate (8 * r) 0, 0, o, p⟩

/-- The constructor from parameters with a fan-out above one (SHA3256.cpp:54-66). -/
def ofParams (r : Nat) (p : KParams) (phys virt l1 : Nat) : M Tree :=
  if p.fan = 0 ∨ 64 < p.fan.toNat then throw (.throws .illegalOperation)
  else do
    let o ← construct 1 r false 2048 false p.fan.toNat phys virt l1 (some (decide (1 < p.fan.toNat)))
    reset P r ⟨List.replicate p.fan.toNat (List.replicate 200 0), List.replicate (p.fan.toNat * r) 0, 0, o, p⟩

/-- `ParallelMaxDegree` (SHA3256.cpp:210-220). -/
def maxDegree (r : Nat) (o : Tree) (n : Nat) : M Tree :=
  if n = 0 ∨ n % 2 ≠ 0 ∨ 64 < n then throw (.throws .notSupported)
  else do
    let opts ← setMaxDegree 1 n o.opts
    reset P r { o with opts := opts }

/-- `ProcessLeaf` (SHA3256.cpp:374-384); the length is a positive multiple of the minimum size. -/
def processLeaf (r : Nat) (o : Tree) (inp : List Byte) (io len : Nat) (st : List Byte) : M (List Byte) :=
  if o.opts.min = 0 ∨ len < o.opts.min then throw .diverges
  else loopN (len / o.opts.min) 0 (fun k st => absorbOne P inp (io + k * o.opts.min) r st) st

/-- The full buffer (SHA3256.cpp:273-291). -/
def fill (r : Nat) (o : Tree) (inp : List Byte) (io len : Nat) : M (Tree × Nat × Nat) :=
  if o.len ≠ 0 ∧ len + o.len ≥ o.buf.length then do
    let buf ← copy inp io o.buf o.len (o.buf.length - o.len)
    let dgt ← leaves o.opts.degree (fun i st => absorbOne P buf (i * r) r st) o.dgt
    return ({ o with buf := buf, dgt := dgt, len := 0 }, io + (o.buf.length - o.len), len - (o.buf.length - o.len))
  else return (o, io, len)

/-- Rows in multiples of `m` bytes (SHA3256.cpp:293-305 with the parallel block size, 307-318 with the minimum size). -/
def rows (r m : Nat) (inp : List Byte) (q : Tree × Nat × Nat) : M (Tree × Nat × Nat) :=
  if q.2.2 ≥ m then
    if m = 0 then throw .ub
    else do
      let n := q.2.2 - q.2.2 % m
      let dgt ← leaves q.1.opts.degree (fun i st => q.1.processLeaf P r inp (q.2.1 + i * r) n st) q.1.dgt
      return ({ q.1 with dgt := dgt }, q.2.1 + n, q.2.2 - n)
  else return q

/-- The rest (SHA3256.cpp:348-353). -/
def store (inp : List Byte) (q : Tree × Nat × Nat) : M Tree :=
  if q.2.2 ≠ 0 then do
    let buf ← copy inp q.2.1 q.1.buf q.1.len q.2.2
    return { q.1 with buf := buf, len := q.1.len + q.2.2 }
  else return q.1

/-- `Update` (SHA3256.cpp:263-355). -/
def update (r : Nat) (o : Tree) (inp : List Byte) (io len : Nat) : M Tree :=
  if len = 0 then return o
  else do
    let q ← o.fill P r inp io len
    let q ← rows P r o.opts.prl inp q
    let q ← rows P r o.opts.min inp q
    store inp q

/-- `HashFinal` (SHA3256.cpp:368-372). -/
def hashFinal (r : Nat) (inp : List Byte) (io len : Nat) (st : List Byte) : M (List Byte) := do
  let st ← absorb P inp io len r 0x06 st
  P st

/-- The leaves that have bytes in the buffer (SHA3256.cpp:154-165). -/
def close (r : Nat) (buf : List Byte) (len : Nat) (dgt : List (List Byte)) : M (List (List Byte)) :=
  leaves ((len + (r - 1)) / r) (fun i st => hashFinal P r buf (i * r) (if len - i * r ≥ r then r else len - i * r) st) dgt

/-- The leaf values in the buffer (SHA3256.cpp:171-175). -/
def rootInput (d : Nat) (dgt : List (List Byte)) (buf : List Byte) : M (List Byte) :=
  loopN dgt.length 0 (fun i buf => do let st ← rd dgt i; copy st 0 buf (i * d) d) buf

/-- The root over `n` bytes of the buffer (SHA3256.cpp:167-168, 177-195). -/
def root (r : Nat) (buf : List Byte) (n : Nat) : M (List Byte) :=
  if n > r then do
    let st ← absorbLoop P buf r (n / r) 0 (List.replicate 200 0)
    hashFinal P r buf (r * (n / r)) (n % r) st
  else hashFinal P r buf 0 n (List.replicate 200 0)

/-- `Finalize` (SHA3256.cpp:133-197, 207). -/
def finalize (r d : Nat) (o : Tree) (out : List Byte) (oo : Nat) : M (Tree × List Byte) :=
  if subU out.length oo < d then throw (.throws .invalidSize)
  else do
    let buf ← (if o.len < o.buf.length then clear o.buf o.len (o.buf.length - o.len) else pure o.buf)
    let dgt ← close P r buf o.len o.dgt
    let buf ← rootInput d dgt buf
    let st ← root P r buf (dgt.length * d)
    let out ← copy st 0 out oo d
    let o ← reset P r { o with dgt := dgt, buf := buf }
    return (o, out)

/-- `Compute` (SHA3256.cpp:122-131). -/
def compute (r d : Nat) (o : Tree) (inp out : List Byte) : M (Tree × List Byte) :=
  if out.length < d then throw (.throws .invalidSize)
  else do
    let o ← o.update P r inp 0 inp.length
    o.finalize P r d out 0

end Tree
end Cex.Keccak
