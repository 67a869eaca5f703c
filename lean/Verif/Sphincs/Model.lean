import Verif.Keccak.Model
import Verif.IntTools.Model

/-!
# The SPHINCS+ engine (CEX/SPXBase.h, CEX/SPXBase.cpp)

`P` is the Keccak permutation, `ulong` the number of bits of `unsigned long` (64 on Linux and macOS, 32 on Windows).
Values of type `uint32_t` and `size_t` that stay below 2^32 (indices, heights, offsets) are natural numbers; the words of an
address and the tree index are machine words. Where a function works in a vector passed for scratch use only (`Buffer`, `Mask`),
the model has a local one of the same length. The random generator is replaced by the bytes it delivers.
-/

namespace Cex.Sphincs
open Cex Cex.IntTools Cex.Keccak

/-- A parameter set (SPXBase.h:49-156). `sigSize` is `SPX_SIGNATURE_SIZE`; `SPX_BYTES` is computed. -/
structure Params where
  n : Nat
  fullHeight : Nat
  d : Nat
  forsHeight : Nat
  forsTrees : Nat
  rate : Nat
  sigSize : Nat

/-- `ParamsS1P128` (SPXBase.h:49-72). -/
def s1p128 : Params := ⟨16, 63, 7, 12, 14, 136, 7856⟩
/-- `ParamsS3P192` (SPXBase.h:77-100). -/
def s3p192 : Params := ⟨24, 63, 7, 14, 17, 136, 16224⟩
/-- `ParamsS5P256` (SPXBase.h:105-128). -/
def s5p256 : Params := ⟨32, 64, 8, 14, 22, 136, 29792⟩
/-- `ParamsS6P512` (SPXBase.h:133-156). -/
def s6p512 : Params := ⟨64, 64, 8, 14, 30, 72, 100032⟩

/-- `SPX_WOTS_LEN` (SPXBase.h:63-65; recomputed in 573, 595, 620, 637). -/
def Params.wotsLen (pr : Params) : Nat := 8 * pr.n / 4 + 3
/-- `SPX_WOTS_BYTES` (SPXBase.h:66). -/
def Params.wotsBytes (pr : Params) : Nat := pr.wotsLen * pr.n
/-- `SPX_TREE_HEIGHT` (SPXBase.h:67). -/
def Params.treeHeight (pr : Params) : Nat := pr.fullHeight / pr.d
/-- `SPX_FORS_MSG_BYTES` (SPXBase.h:68, 415). -/
def Params.forsMsgBytes (pr : Params) : Nat := (pr.forsHeight * pr.forsTrees + 7) / 8
/-- `SPX_FORS_BYTES` (SPXBase.h:69). -/
def Params.forsBytes (pr : Params) : Nat := (pr.forsHeight + 1) * pr.forsTrees * pr.n
/-- `SPX_BYTES` (SPXBase.h:70). -/
def Params.bytes (pr : Params) : Nat := pr.n + pr.forsBytes + pr.d * pr.wotsBytes + pr.fullHeight * pr.n

/-! ## Addresses -/

/-- `std::array<uint32_t, 8>`: the eight words of an address. -/
structure Addr where
  w0 : BitVec 32 := 0
  w1 : BitVec 32 := 0
  w2 : BitVec 32 := 0
  w3 : BitVec 32 := 0
  w4 : BitVec 32 := 0
  w5 : BitVec 32 := 0
  w6 : BitVec 32 := 0
  w7 : BitVec 32 := 0

/-- `CopyKeypairAddress` (SPXBase.cpp:7-14). -/
def copyKeypair (i o : Addr) : Addr := { o with w0 := i.w0, w1 := i.w1, w2 := i.w2, w3 := i.w3, w5 := i.w5 }
/-- `CopySubtreeAddress` (SPXBase.cpp:16-22). -/
def copySubtree (i o : Addr) : Addr := { o with w0 := i.w0, w1 := i.w1, w2 := i.w2, w3 := i.w3 }
/-- `SetChainAddress` and `SetTreeHeight` (SPXBase.cpp:24-27, 51-54). -/
def setChain (a : Addr) (v : Nat) : Addr := { a with w6 := BitVec.ofNat 32 v }
/-- `SetHashAddress` and `SetTreeIndex` (SPXBase.cpp:29-32, 56-59). -/
def setHash (a : Addr) (v : Nat) : Addr := { a with w7 := BitVec.ofNat 32 v }
/-- `SetKeypairAddress` (SPXBase.cpp:34-37). -/
def setKeypair (a : Addr) (v : Nat) : Addr := { a with w5 := BitVec.ofNat 32 v }
/-- `SetLayerAddress` (SPXBase.cpp:39-42). -/
def setLayer (a : Addr) (v : Nat) : Addr := { a with w0 := BitVec.ofNat 32 v }
/-- `SetTreeAddress` (SPXBase.cpp:44-49). -/
def setTree (a : Addr) (t : BitVec 64) : Addr := { a with w1 := 0, w2 := (t >>> 32).setWidth 32, w3 := t.setWidth 32 }
/-- `SetType` (SPXBase.cpp:61-64). -/
def setType (a : Addr) (v : Nat) : Addr := { a with w4 := BitVec.ofNat 32 v }

/-- The words in order. -/
def Addr.words (a : Addr) : List (BitVec 32) := [a.w0, a.w1, a.w2, a.w3, a.w4, a.w5, a.w6, a.w7]

/-- `AddressToBytes` (SPXBase.cpp:81-89). -/
def addressToBytes (out : List Byte) (off : Nat) (a : Addr) : M (List Byte) :=
  loopN 8 0 (fun i out => do
    let w ← rd a.words i
    be32ToBytes w out (off + i * 4)) out

/-- `UllToBytes` (SPXBase.cpp:66-79), from the last byte to the first. -/
def ullToBytes (out : List Byte) (off : Nat) (v : BitVec 64) : (len : Nat) → M (List Byte)
  | 0 => .ok out
  | i + 1 => do
    let out ← wr out (off + i) (v.setWidth 8)
    ullToBytes out off (v >>> 8) i

/-- `BytesToUll` (SPXBase.cpp:91-104). -/
def bytesToUll (inp : List Byte) (off len : Nat) : M (BitVec 64) :=
  loopN len 0 (fun i v => do
    let b ← rd inp (off + i)
    return v ||| (b.setWidth 64 <<< (8 * (len - 1 - i)))) 0

variable (P : List Byte → M (List Byte)) (pr : Params)

/-- `PrfAddress` (SPXBase.cpp:106-113): always with the rate of SHAKE-256. -/
def prfAddress (out : List Byte) (off : Nat) (key : List Byte) (a : Addr) : M (List Byte) := do
  let buf ← copy key 0 (List.replicate (pr.n + 32) 0) 0 pr.n
  let buf ← addressToBytes buf pr.n a
  xof P buf 0 buf.length out off pr.n 136

/-- `THash` (SPXBase.h:202-227 and 524-542): `bufLen` and `maskLen` are the lengths of the buffers that are passed. The first form clears its
buffers and hashes copies `k` of their beginnings, the second hashes in place; the bytes hashed are the same. -/
def thash (out : List Byte) (oo : Nat) (inp : List Byte) (io blocks : Nat) (seed : List Byte) (a : Addr) (bufLen maskLen : Nat) : M (List Byte) := do
  let buf ← copy seed 0 (List.replicate bufLen 0) 0 pr.n
  let buf ← addressToBytes buf pr.n a
  let mask ← xof P buf 0 (pr.n + 32) (List.replicate maskLen 0) 0 (blocks * pr.n) pr.rate
  let buf ← loopN (blocks * pr.n) 0 (fun i buf => do
    let x ← rd inp (io + i)
    let y ← rd mask i
    wr buf (pr.n + 32 + i) (x ^^^ y)) buf
  xof P buf 0 (pr.n + 32 + blocks * pr.n) out oo pr.n pr.rate

/-! ## The one-time signature -/

/-- `BaseW` (SPXBase.h:466-495): the state is `Output`, `OutOffset`, `total`, `bits`, `inoff`. -/
def baseW (out : List Nat) (off len : Nat) (inp : List Byte) : M (List Nat) := do
  let r ← loopN len 0 (fun _ (st : List Nat × Nat × Byte × Nat × Nat) => do
    let (out, off, total, bits, inoff) := st
    let (total, bits, inoff) ← (if bits = 0 then do
        let t ← rd inp inoff
        return (t, 8, inoff + 1)
      else return (total, bits, inoff) : M (Byte × Nat × Nat))
    let bits := bits - 4
    let out ← wr out off ((total >>> bits).toNat &&& 15)
    return (out, off + 1, total, bits, inoff)) (out, off, 0, 0, 0)
  return r.1

/-- `WotsChecksum` (SPXBase.h:544-567). The digits are at most 15, so that the terms of the sum are not negative. -/
def wotsChecksum (base : List Nat) : M (List Nat) := do
  let csum ← loopN (8 * pr.n / 4) 0 (fun i c => do
    let d ← rd base i
    return c + (15 - d)) 0
  let cb ← ullToBytes (List.replicate ((3 * 4 + 7) / 8) 0) 0 (BitVec.ofNat 64 csum <<< (8 - 3 * 4 % 8)) ((3 * 4 + 7) / 8)
  baseW base (8 * pr.n / 4) 3 cb

/-- `ChainLengths` (SPXBase.h:497-504) on a vector of `WOTSLEN` zeros (621, 638). -/
def chainLengths (msg : List Byte) : M (List Nat) := do
  let l ← baseW (List.replicate pr.wotsLen 0) 0 (8 * pr.n / 4) msg
  wotsChecksum pr l

/-- `GenChain` (SPXBase.h:506-522): `Output` and the address. -/
def genChain (out : List Byte) (oo : Nat) (inp : List Byte) (io start steps : Nat) (seed : List Byte) (a : Addr) : M (List Byte × Addr) := do
  let out ← copy inp io out oo pr.n
  loopN (min (start + steps) 16 - start) start (fun idx st => do
    let a := setHash st.2 idx
    let out ← thash P pr st.1 oo st.1 oo 1 seed a (pr.n + 32 + 1 * pr.n) (1 * pr.n)
    return (out, a)) (out, a)

/-- `WotsGenSk` (SPXBase.h:607-614). -/
def wotsGenSk (key : List Byte) (off : Nat) (seed : List Byte) (a : Addr) : M (List Byte × Addr) := do
  let a := setHash a 0
  let key ← prfAddress P pr key off seed a
  return (key, a)

/-- `WotsGenPk` (SPXBase.h:592-605). -/
def wotsGenPk (pk skSeed pkSeed : List Byte) (a : Addr) : M (List Byte × Addr) :=
  loopN pr.wotsLen 0 (fun i st => do
    let a := setChain st.2 i
    let r ← wotsGenSk P pr st.1 (i * pr.n) skSeed a
    genChain P pr r.1 (i * pr.n) r.1 (i * pr.n) 0 15 pkSeed r.2) (pk, a)

/-- `WotsSign` (SPXBase.h:633-649). -/
def wotsSign (sig : List Byte) (off : Nat) (msg skSeed pkSeed : List Byte) (a : Addr) : M (List Byte × Addr) := do
  let ls ← chainLengths pr msg
  loopN pr.wotsLen 0 (fun i st => do
    let a := setChain st.2 i
    let r ← wotsGenSk P pr st.1 (off + i * pr.n) skSeed a
    let l ← rd ls i
    genChain P pr r.1 (off + i * pr.n) r.1 (off + i * pr.n) 0 l pkSeed r.2) (sig, a)

/-- `WotsPkFromSig` (SPXBase.h:616-631). -/
def wotsPkFromSig (pk sig : List Byte) (off : Nat) (msg pkSeed : List Byte) (a : Addr) : M (List Byte × Addr) := do
  let ls ← chainLengths pr msg
  loopN pr.wotsLen 0 (fun i st => do
    let a := setChain st.2 i
    let l ← rd ls i
    genChain P pr st.1 (i * pr.n) sig (off + i * pr.n) l (15 - l) pkSeed a) (pk, a)

/-- `WotsGenLeaf` (SPXBase.h:569-590) into `leaf` at 0. -/
def wotsGenLeaf (skSeed pkSeed : List Byte) (leaf : List Byte) (idx : Nat) (tree : Addr) : M (List Byte) := do
  let wotsaddr := setType {} 0
  let wotspkaddr := setType {} 1
  let wotsaddr := copySubtree tree wotsaddr
  let wotsaddr := setKeypair wotsaddr idx
  let r ← wotsGenPk P pr (List.replicate pr.wotsBytes 0) skSeed pkSeed wotsaddr
  let wotspkaddr := copyKeypair r.2 wotspkaddr
  thash P pr leaf 0 r.1 0 pr.wotsLen pkSeed wotspkaddr (pr.n + 32 + pr.wotsLen * pr.n) (pr.wotsLen * pr.n)

/-! ## Trees -/

/-- The variables of a tree computation. -/
structure TreeState where
  auth : List Byte
  addr : Addr
  stack : List Byte
  heights : List Nat
  leaf : List Byte

/-- The inner loop (SPXBase.h:678-697, 730-749); the first argument is `offset`. -/
def mergeLoop (seed : List Byte) (authOff leafIdx idxOff idx : Nat) : Nat → TreeState → M (Nat × TreeState)
  | o + 2, s => do
    let h1 ← rd s.heights (o + 1)
    let h0 ← rd s.heights o
    if h1 = h0 then do
      let treeidx := idx >>> (h1 + 1)
      let a := setHash (setChain s.addr (h1 + 1)) (treeidx + (idxOff >>> (h1 + 1)))
      let stack ← thash P pr s.stack (o * pr.n) s.stack (o * pr.n) 2 seed a (pr.n + 32 + 2 * pr.n) (2 * pr.n)
      let heights ← wr s.heights o (h0 + 1)
      let auth ← (if (leafIdx >>> (h0 + 1)) ^^^ 1 = treeidx then copy stack (o * pr.n) s.auth (authOff + pr.n * (h0 + 1)) pr.n else .ok s.auth : M (List Byte))
      mergeLoop seed authOff leafIdx idxOff idx (o + 1) { s with auth := auth, addr := a, stack := stack, heights := heights }
    else return (o + 2, s)
  | o, s => return (o, s)

/-- `ForsTreeHash` and `WotsTreeHash` (SPXBase.h:651-701, 703-753): the same but for the height and the function that makes leaves. -/
def treeHash (genLeaf : List Byte → Nat → Addr → M (List Byte)) (height : Nat) (root : List Byte) (rootOff : Nat) (auth : List Byte) (authOff : Nat)
    (seed : List Byte) (leafIdx idxOff : Nat) (a : Addr) (stack : List Byte) (heights : List Nat) : M (List Byte × TreeState) := do
  let r ← loopN (2 ^ height) 0 (fun idx (st : Nat × TreeState) => do
    let (offset, s) := st
    let leaf ← genLeaf s.leaf (idx + idxOff) s.addr
    let stack ← copy leaf 0 s.stack (offset * pr.n) pr.n
    let heights ← wr s.heights offset 0
    let auth ← (if leafIdx ^^^ 1 = idx then copy stack (offset * pr.n) s.auth authOff pr.n else .ok s.auth : M (List Byte))
    mergeLoop P pr seed authOff leafIdx idxOff idx (offset + 1) ⟨auth, s.addr, stack, heights, leaf⟩)
    (0, ⟨auth, a, stack, heights, List.replicate pr.n 0⟩)
  let root ← copy r.2.stack 0 root rootOff pr.n
  return (root, r.2)

/-- `ComputeRoot` (SPXBase.h:231-287): `Root` and the address. -/
def computeRoot (root : List Byte) (rootOff : Nat) (leaf : List Byte) (leafIdx idxOff : Nat) (auth : List Byte) (authOff height : Nat) (seed : List Byte) (a : Addr) :
    M (List Byte × Addr) := do
  let buf ← (if leafIdx &&& 1 = 1 then do
      let b ← copy leaf 0 (List.replicate (pr.n * 2) 0) pr.n pr.n
      copy auth authOff b 0 pr.n
    else do
      let b ← copy leaf 0 (List.replicate (pr.n * 2) 0) 0 pr.n
      copy auth authOff b pr.n pr.n : M (List Byte))
  let r ← loopN (height - 1) 0 (fun i (st : List Byte × Nat × Nat × Nat × Addr) => do
    let (buf, l, o, ao, a) := st
    let l := l >>> 1
    let o := o >>> 1
    let a := setHash (setChain a (i + 1)) (l + o)
    let buf ← (if l &&& 1 ≠ 0 then do
        let b ← thash P pr buf pr.n buf 0 2 seed a (pr.n + 32 + pr.n * 2) (pr.n * 2)
        copy auth ao b 0 pr.n
      else do
        let b ← thash P pr buf 0 buf 0 2 seed a (pr.n + 32 + pr.n * 2) (pr.n * 2)
        copy auth ao b pr.n pr.n : M (List Byte))
    return (buf, l, o, ao + pr.n, a)) (buf, leafIdx, idxOff, authOff + pr.n, a)
  let (buf, l, o, _, a) := r
  let a := setHash (setChain a height) ((l >>> 1) + (o >>> 1))
  let root ← thash P pr root rootOff buf 0 2 seed a (pr.n + 32 + pr.n * 2) (pr.n * 2)
  return (root, a)

/-! ## The few-time signature -/

/-- `MessageToIndices` (SPXBase.h:439-462). -/
def messageToIndices (ind : List Nat) (msg : List Byte) : M (List Nat) := do
  let r ← loopN pr.forsTrees 0 (fun i (st : List Nat × Nat) => do
    let ind ← wr st.1 i 0
    loopN pr.forsHeight 0 (fun j (st : List Nat × Nat) => do
      let b ← rd msg (st.2 >>> 3)
      let v ← rd st.1 i
      let ind ← wr st.1 i (v ^^^ (((b.toNat >>> (st.2 &&& 7)) &&& 1) <<< j))
      return (ind, st.2 + 1)) (ind, st.2)) (ind, 0)
  return r.1

/-- `ForsSkToLeaf` (SPXBase.h:390-397). -/
def forsSkToLeaf (leaf sk : List Byte) (off : Nat) (seed : List Byte) (a : Addr) : M (List Byte) :=
  thash P pr leaf 0 sk off 1 seed a (pr.n + 32 + 1 * pr.n) pr.n

/-- `ForsGenLeaf` (SPXBase.h:289-301) into `leaf` at 0. -/
def forsGenLeaf (skSeed pkSeed : List Byte) (leaf : List Byte) (idx : Nat) (tree : Addr) : M (List Byte) := do
  let a := copyKeypair tree {}
  let a := setType a 3
  let a := setHash a idx
  let leaf ← prfAddress P pr leaf 0 skSeed a
  forsSkToLeaf P pr leaf leaf 0 pkSeed a

/-- The variables of the loop in `ForsSign`. -/
structure ForsState where
  sig : List Byte
  roots : List Byte
  stack : List Byte
  heights : List Nat
  addr : Addr

/-- `ForsSign` (SPXBase.h:349-388): `Signature` and `PublicKey`. -/
def forsSign (sig : List Byte) (off : Nat) (pk msg skSeed pkSeed : List Byte) (fa : Addr) : M (List Byte × List Byte) := do
  let treeaddr := setType (copyKeypair fa {}) 3
  let pkaddr := setType (copyKeypair fa {}) 4
  let ind ← messageToIndices pr (List.replicate pr.forsTrees 0) msg
  let r ← loopN pr.forsTrees 0 (fun i (st : Nat × ForsState) => do
    let (idxsm, st) := st
    let idxoff := i * 2 ^ pr.forsHeight
    let x ← rd ind i
    let a := setHash (setChain st.addr 0) (x + idxoff)
    let sig ← prfAddress P pr st.sig idxsm skSeed a
    let idxsm := idxsm + pr.n
    let t ← treeHash P pr (forsGenLeaf P pr skSeed pkSeed) pr.forsHeight st.roots (pr.n * i) sig idxsm pkSeed x idxoff a st.stack st.heights
    return (idxsm + pr.n * pr.forsHeight, ⟨t.2.auth, t.1, t.2.stack, t.2.heights, t.2.addr⟩))
    (off, ⟨sig, List.replicate (pr.forsTrees * pr.n) 0, List.replicate ((pr.forsHeight + 1) * pr.n) 0, List.replicate (pr.forsHeight + 1) 0, treeaddr⟩)
  let pk ← thash P pr pk 0 r.2.roots 0 pr.forsTrees pkSeed pkaddr (pr.n + 32 + pr.forsTrees * pr.n) (pr.forsTrees * pr.n)
  return (r.2.sig, pk)

/-- `ForsPkFromSig` (SPXBase.h:309-347) into `pk` at 0. -/
def forsPkFromSig (pk sig : List Byte) (off : Nat) (msg pkSeed : List Byte) (fa : Addr) : M (List Byte) := do
  let treeaddr := setType (copyKeypair fa {}) 3
  let pkaddr := setType (copyKeypair fa {}) 4
  let ind ← messageToIndices pr (List.replicate (pr.forsTrees * pr.n) 0) msg
  let r ← loopN pr.forsTrees 0 (fun i (st : List Byte × Nat × List Byte × Addr) => do
    let (roots, idxsig, leaf, a) := st
    let idxoff := i * 2 ^ pr.forsHeight
    let x ← rd ind i
    let a := setHash (setChain a 0) (x + idxoff)
    let leaf ← forsSkToLeaf P pr leaf sig idxsig pkSeed a
    let idxsig := idxsig + pr.n
    let t ← computeRoot P pr roots (pr.n * i) leaf x idxoff sig idxsig pr.forsHeight pkSeed a
    return (t.1, idxsig + pr.n * pr.forsHeight, leaf, t.2)) (List.replicate (pr.forsTrees * pr.n) 0, off, List.replicate pr.n 0, treeaddr)
  thash P pr pk 0 r.1 0 pr.forsTrees pkSeed pkaddr (pr.n + 32 + pr.forsTrees * pr.n) (pr.forsTrees * pr.n)

/-! ## The scheme -/

/-- `GenMessageRandom` (SPXBase.h:399-409). -/
def genMessageRandom (skPrf optRnd msg : List Byte) (len : Nat) : M (List Byte) := do
  let msg ← copy skPrf 0 msg (pr.bytes - 2 * pr.n) pr.n
  let msg ← copy optRnd 0 msg (pr.bytes - pr.n) pr.n
  let k ← copy msg (pr.bytes - 2 * pr.n) (List.replicate (len + 2 * pr.n) 0) 0 (len + 2 * pr.n)
  xof P k 0 k.length msg 0 pr.n pr.rate

/-- `(~0UL) >> (32 - LEAFBITS)` (SPXBase.h:436): a mask of `ulong` bits, shifted by a distance meant for 32 bits. -/
def leafMask (ulong bits : Nat) : Nat := (2 ^ ulong - 1) >>> (32 - bits)

/-- What `HashMessage` delivers besides the message buffer. -/
structure Selected where
  digest : List Byte
  tree : BitVec 64
  leaf : Nat

/-- `HashMessage` (SPXBase.h:411-437): `rand` is the first argument's contents (in `Sign` the message buffer itself). -/
def hashMessage (ulong : Nat) (rand pk msg : List Byte) (len : Nat) : M (Selected × List Byte) := do
  let treeBits := pr.treeHeight * (pr.d - 1)
  let treeBytes := (treeBits + 7) / 8
  let leafBits := pr.treeHeight
  let leafBytes := (leafBits + 7) / 8
  let dgst := pr.forsMsgBytes + treeBytes + leafBytes
  let msg ← copy rand 0 msg (pr.bytes - pr.n - 2 * pr.n) pr.n
  let msg ← copy pk 0 msg (pr.bytes - 2 * pr.n) (2 * pr.n)
  let k ← copy msg (pr.bytes - pr.n - 2 * pr.n) (List.replicate (len + pr.n + 2 * pr.n) 0) 0 (len + pr.n + 2 * pr.n)
  let buf ← xof P k 0 k.length (List.replicate dgst 0) 0 dgst pr.rate
  let digest ← copy buf 0 (List.replicate pr.forsMsgBytes 0) 0 pr.forsMsgBytes
  let tree ← bytesToUll buf pr.forsMsgBytes treeBytes
  let leaf ← bytesToUll buf (pr.forsMsgBytes + treeBytes) leafBytes
  return (⟨digest, tree &&& (BitVec.allOnes 64 >>> (64 - treeBits)), (leaf.toNat % 2 ^ 32 &&& leafMask ulong leafBits) % 2 ^ 32⟩, msg)

/-- `Generate` (SPXBase.h:757-786): `stmp` are the `3 * SPX_N` bytes of the generator; the public and the private key. -/
def generate (stmp : List Byte) (pk sk : List Byte) : M (List Byte × List Byte) := do
  let top := setType (setLayer {} (pr.d - 1)) 2
  let sk ← copy stmp 0 sk 0 stmp.length
  let pk ← copy stmp (2 * pr.n) pk 0 pr.n
  let skseed ← copy stmp 0 (List.replicate pr.n 0) 0 pr.n
  let pkseed ← copy stmp (2 * pr.n) (List.replicate pr.n 0) 0 pr.n
  let t ← treeHash P pr (wotsGenLeaf P pr skseed pkseed) pr.treeHeight (List.replicate pr.n 0) 0 (List.replicate (pr.treeHeight * pr.n) 0) 0 pkseed 0 0 top
    (List.replicate ((pr.treeHeight + 1) * pr.n) 0) (List.replicate (pr.treeHeight + 1) 0)
  let pk ← copy t.1 0 pk pr.n pr.n
  let sk ← copy t.1 0 sk (3 * pr.n) pr.n
  return (pk, sk)

/-- `std::vector::resize`: bytes that stay keep their values. -/
def resize (x : List Byte) (n : Nat) : List Byte := x.take n ++ List.replicate (n - x.length) 0

/-- The variables of the loop over the layers in `Sign`. -/
structure SignState where
  sig : List Byte
  idxsm : Nat
  root : List Byte
  treeaddr : Addr
  wotsaddr : Addr
  tree : BitVec 64
  leaf : Nat
  stack : List Byte
  heights : List Nat

/-- The body of the loop over the layers (SPXBase.h:840-854). -/
def signLayer (skSeed pk : List Byte) (idx : Nat) (s : SignState) : M SignState := do
  let treeaddr := setTree (setLayer s.treeaddr idx) s.tree
  let wotsaddr := setKeypair (copySubtree treeaddr s.wotsaddr) s.leaf
  let w ← wotsSign P pr s.sig s.idxsm s.root skSeed pk wotsaddr
  let idxsm := s.idxsm + pr.wotsBytes
  let t ← treeHash P pr (wotsGenLeaf P pr skSeed pk) pr.treeHeight s.root 0 w.1 idxsm pk s.leaf 0 treeaddr s.stack s.heights
  return ⟨t.2.auth, idxsm + pr.treeHeight * pr.n, t.1, t.2.addr, w.2, s.tree >>> pr.treeHeight,
    (s.tree &&& BitVec.ofNat 64 (2 ^ pr.treeHeight - 1)).toNat % 2 ^ 32, t.2.stack, t.2.heights⟩

/-- `Sign` (SPXBase.h:788-858): `sig` is what the caller's vector held, `optrand` the bytes of the generator. -/
def sign (ulong : Nat) (sig msg sk optrand : List Byte) : M (List Byte) := do
  let skseed ← copy sk 0 (List.replicate pr.n 0) 0 pr.n
  let skprf ← copy sk pr.n (List.replicate pr.n 0) 0 pr.n
  let pk ← copy sk (2 * pr.n) (List.replicate (2 * pr.n) 0) 0 (2 * pr.n)
  let sig := resize sig (msg.length + pr.sigSize)
  let len := msg.length % 2 ^ 32
  let sig ← loopN len 0 (fun i sig => do
    let b ← rd msg (len - i - 1)
    wr sig (pr.bytes + (len - i) - 1) b) sig
  let sig ← genMessageRandom P pr skprf optrand sig msg.length
  let h ← hashMessage P pr ulong sig pk sig msg.length
  let wotsaddr := setKeypair (setTree (setType {} 0) h.1.tree) h.1.leaf
  let f ← forsSign P pr h.2 pr.n (List.replicate pr.n 0) h.1.digest skseed pk wotsaddr
  let r ← loopN pr.d 0 (signLayer P pr skseed pk)
    ⟨f.1, pr.n + pr.forsBytes, f.2, setType {} 2, wotsaddr, h.1.tree, h.1.leaf, List.replicate ((pr.forsHeight + 1) * pr.n) 0, List.replicate (pr.forsHeight + 1) 0⟩
  return r.sig

/-- The variables of the loop over the layers in `Verify`. -/
structure VerifyState where
  idxsig : Nat
  root : List Byte
  leaf : List Byte
  wotspk : List Byte
  treeaddr : Addr
  wotsaddr : Addr
  wotspkaddr : Addr
  tree : BitVec 64
  idxleaf : Nat

/-- The body of the loop over the layers (SPXBase.h:914-929). -/
def verifyLayer (sig pkseed : List Byte) (idx : Nat) (s : VerifyState) : M VerifyState := do
  let treeaddr := setTree (setLayer s.treeaddr idx) s.tree
  let wotsaddr := setKeypair (copySubtree treeaddr s.wotsaddr) s.idxleaf
  let wotspkaddr := copyKeypair wotsaddr s.wotspkaddr
  let w ← wotsPkFromSig P pr s.wotspk sig s.idxsig s.root pkseed wotsaddr
  let idxsig := s.idxsig + pr.wotsBytes
  let leaf ← thash P pr s.leaf 0 w.1 0 pr.wotsLen pkseed wotspkaddr (pr.n + 32 + pr.wotsLen * pr.n) (pr.wotsLen * pr.n)
  let t ← computeRoot P pr s.root 0 leaf s.idxleaf 0 sig idxsig pr.treeHeight pkseed treeaddr
  return ⟨idxsig + pr.treeHeight * pr.n, t.1, leaf, w.1, t.2, w.2, wotspkaddr, s.tree >>> pr.treeHeight,
    (s.tree &&& BitVec.ofNat 64 (2 ^ pr.treeHeight - 1)).toNat % 2 ^ 32⟩

/-- The part of `Verify` for signatures that are long enough (SPXBase.h:881-932): `root`, `pkroot` and `tmsg`. -/
def verifyRoot (ulong : Nat) (sm pub : List Byte) : M (List Byte × List Byte × List Byte) := do
  let msgLen := sm.length - pr.bytes
  let pkroot ← copy pub pr.n (List.replicate pr.n 0) 0 pr.n
  let pkseed ← copy pub 0 (List.replicate pr.n 0) 0 pr.n
  let tmsg ← copy sm pr.bytes (List.replicate sm.length 0) pr.bytes msgLen
  let sig ← copy sm 0 (List.replicate pr.bytes 0) 0 pr.bytes
  let h ← hashMessage P pr ulong sig pub tmsg msgLen
  let wotsaddr := setKeypair (setTree (setType {} 0) h.1.tree) h.1.leaf
  let root ← forsPkFromSig P pr (List.replicate pr.n 0) sm pr.n h.1.digest pkseed wotsaddr
  let r ← loopN pr.d 0 (verifyLayer P pr sig pkseed)
    ⟨pr.n + pr.forsBytes, root, List.replicate pr.n 0, List.replicate pr.wotsBytes 0, setType {} 2, wotsaddr, setType {} 1, h.1.tree, h.1.leaf⟩
  return (r.root, pkroot, h.2)

/-- `Message.resize(MSGLEN)` and the copy (SPXBase.h:944-945); `std::vector::resize` throws beyond `max_size()`, which is at most 2^63 - 1 bytes.
The exception is not one of the library's own; it is listed as `invalidSize`. -/
def deliver (old tmsg : List Byte) (bytes msgLen : Nat) : M (List Byte) :=
  if 2 ^ 63 ≤ msgLen then .error (.throws .invalidSize)
  else copy tmsg bytes (resize old msgLen) 0 msgLen

/-- `Verify` (SPXBase.h:860-948): the answer and the message; `old` is what the caller's message vector held. `MSGLEN` is computed
before the length is checked, in 64 bits. -/
def verify (ulong : Nat) (old sm pub : List Byte) : M (Bool × List Byte) := do
  let msgLen := (sm.length + (2 ^ 64 - pr.bytes)) % 2 ^ 64
  if pr.bytes ≤ sm.length then do
    let r ← verifyRoot P pr ulong sm pub
    let (root, pkroot, tmsg) := r
    if root = pkroot then do
      let m ← deliver old tmsg pr.bytes msgLen
      return (true, m)
    else do
      let tmsg ← clear tmsg 0 tmsg.length
      let m ← deliver old tmsg pr.bytes msgLen
      return (false, m)
  else do
    let m ← deliver old (List.replicate sm.length 0) pr.bytes msgLen
    return (false, m)

end Cex.Sphincs
