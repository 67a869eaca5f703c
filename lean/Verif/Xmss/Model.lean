import Verif.Sphincs.Model
import Verif.Digest.Sha2Static
import Verif.Xmss.Spec

/-!
# The XMSS engine (CEX/XmssCore.h, CEX/XmssCore.cpp, CEX/XmssUtils.cpp)

`P` is the Keccak permutation. Values of type `uint32_t` and `size_t` that stay below 2^32 (indices of leaves, heights, offsets) are natural numbers;
the words of an address and the index of a signature are machine words. A local vector that is overwritten completely before each use
(`tmpa`, `ctr`, `idx32`) is a fresh one in the model. The random generator is replaced by the bytes it delivers. Functions whose text is that of the
SPHINCS+ engine are taken from `Verif/Sphincs/Model.lean` and named where they are used.
-/

namespace Cex.Xmss
open Cex Cex.IntTools Cex.Keccak
open Cex.Sphincs (Addr ullToBytes bytesToUll baseW resize)

/-- `XMSS_SHA2_256`, `XMSS_SHA2_512`, `XMSS_SHAKE_128`, `XMSS_SHAKE_256` (XmssCore.h:29-32). -/
inductive HashFunction
  | sha2256
  | sha2512
  | shake128
  | shake256

/-- `XmssParams` (XmssCore.h:36-58): the fields the parsers set; the others are computed below. `WotsW` is 16 in every set. -/
structure Params where
  hash : HashFunction
  n : Nat
  fullHeight : Nat
  d : Nat

/-- `TreeHeight` (XmssCore.cpp:577). -/
def Params.treeHeight (pr : Params) : Nat := pr.fullHeight / pr.d
/-- `WotsLen1` (XmssCore.cpp:589). -/
def Params.wotsLen1 (pr : Params) : Nat := pr.n * 8 / 4
/-- `WotsLen` (XmssCore.cpp:607). -/
def Params.wotsLen (pr : Params) : Nat := pr.wotsLen1 + 3
/-- `WotsSignatureSize` (XmssCore.cpp:608). -/
def Params.wotsBytes (pr : Params) : Nat := pr.wotsLen * pr.n
/-- `IndexSize` (XmssCore.cpp:610-620). -/
def Params.indexSize (pr : Params) : Nat := if pr.d = 1 then 4 else (pr.fullHeight + 7) / 8
/-- `SignatureSize` (XmssCore.cpp:622-625). -/
def Params.sigSize (pr : Params) : Nat := pr.indexSize + pr.n + pr.wotsBytes * pr.d + pr.fullHeight * pr.n
/-- `PublicKeySize` (XmssCore.cpp:627). -/
def Params.pkSize (pr : Params) : Nat := 2 * pr.n
/-- `SecretKeySize` (XmssCore.cpp:628, 1236-1239). -/
def Params.skSize (pr : Params) : Nat := pr.indexSize + 4 * pr.n

/-- `XmssParseOid` (XmssCore.cpp:214-328): `none` where it returns -1. -/
def parseXmss (oid : Nat) : Option Params := do
  let h ← (match oid with
    | 1 | 2 | 3 => some .sha2256
    | 4 | 5 | 6 => some .sha2512
    | 7 | 8 | 9 => some .shake128
    | 10 | 11 | 12 => some .shake256
    | _ => none : Option HashFunction)
  let n ← (match oid with
    | 1 | 2 | 3 | 7 | 8 | 9 => some 32
    | 4 | 5 | 6 | 10 | 11 | 12 => some 64
    | _ => none : Option Nat)
  let full ← (match oid with
    | 1 | 4 | 7 | 10 => some 10
    | 2 | 5 | 8 | 11 => some 16
    | 3 | 6 | 9 | 12 => some 20
    | _ => none : Option Nat)
  return ⟨h, n, full, 1⟩

/-- `XmssMtParseOid` (XmssCore.cpp:330-568). -/
def parseMt (oid : Nat) : Option Params := do
  let h ← (match oid with
    | 1 | 2 | 3 | 4 | 5 | 6 | 7 | 8 => some .sha2256
    | 9 | 10 | 11 | 12 | 13 | 14 | 15 | 16 => some .sha2512
    | 17 | 18 | 19 | 20 | 21 | 22 | 23 | 24 => some .shake128
    | 25 | 26 | 27 | 28 | 29 | 30 | 31 | 32 => some .shake256
    | _ => none : Option HashFunction)
  let n ← (match oid with
    | 1 | 2 | 3 | 4 | 5 | 6 | 7 | 8 | 17 | 18 | 19 | 20 | 21 | 22 | 23 | 24 => some 32
    | 9 | 10 | 11 | 12 | 13 | 14 | 15 | 16 | 25 | 26 | 27 | 28 | 29 | 30 | 31 | 32 => some 64
    | _ => none : Option Nat)
  let full ← (match oid with
    | 1 | 2 | 9 | 10 | 17 | 18 | 25 | 26 => some 20
    | 3 | 4 | 5 | 11 | 12 | 13 | 19 | 20 | 21 | 27 | 28 | 29 => some 40
    | 6 | 7 | 8 | 14 | 15 | 16 | 22 | 23 | 24 | 30 | 31 | 32 => some 60
    | _ => none : Option Nat)
  let d ← (match oid with
    | 1 | 3 | 9 | 11 | 17 | 19 | 25 | 27 => some 2
    | 2 | 4 | 10 | 12 | 18 | 20 | 26 | 28 => some 4
    | 5 | 13 | 21 | 29 => some 8
    | 6 | 14 | 22 | 30 => some 3
    | 7 | 15 | 23 | 31 => some 6
    | 8 | 16 | 24 | 32 => some 12
    | _ => none : Option Nat)
  return ⟨h, n, full, d⟩

/-! ## Addresses -/

/-- `SetLayerAddress` (XmssCore.cpp:154-157). -/
def setLayer (a : Addr) (v : Nat) : Addr := { a with w0 := BitVec.ofNat 32 v }
/-- `SetTreeAddress` (XmssCore.cpp:159-163). -/
def setTree (a : Addr) (t : BitVec 64) : Addr := { a with w1 := (t >>> 32).setWidth 32, w2 := t.setWidth 32 }
/-- `SetType` (XmssCore.cpp:165-168). -/
def setType (a : Addr) (v : Nat) : Addr := { a with w3 := BitVec.ofNat 32 v }
/-- `SetKeyAndMask` (XmssCore.cpp:170-173). -/
def setMask (a : Addr) (v : Nat) : Addr := { a with w7 := BitVec.ofNat 32 v }
/-- `CopySubtreeAdress` (XmssCore.cpp:175-180). -/
def copySubtree (o i : Addr) : Addr := { o with w0 := i.w0, w1 := i.w1, w2 := i.w2 }
/-- `SetOtsAddress` and `SetLtreeAddress` (XmssCore.cpp:182-185, 197-200). -/
def setOts (a : Addr) (v : Nat) : Addr := { a with w4 := BitVec.ofNat 32 v }
/-- `SetChainAddress` and `SetTreeHeight` (XmssCore.cpp:187-190, 202-205). -/
def setChain (a : Addr) (v : Nat) : Addr := { a with w5 := BitVec.ofNat 32 v }
/-- `SetHashAddress` and `SetTreeIndex` (XmssCore.cpp:192-195, 207-210). -/
def setHash (a : Addr) (v : Nat) : Addr := { a with w6 := BitVec.ofNat 32 v }

/-- `AddressToBytes` (XmssCore.cpp:15-23) into a vector of 32 bytes; `UllToBytes` (636-650) is that of the SPHINCS+ engine. -/
def addressToBytes (a : Addr) : M (List Byte) :=
  loopN 8 0 (fun i out => do
    let w ← rd a.words i
    ullToBytes out (i * 4) (w.setWidth 64) 4) (List.replicate 32 0)

/-! ## Hashing -/

/-- `CoreHash` (XmssCore.cpp:25-61): `Input`, `InOffset`, `InLength`, `Output`, `OutOffset`. -/
def coreHash (P : List Byte → M (List Byte)) : HashFunction → List Byte → Nat → Nat → List Byte → Nat → M (List Byte)
  | .sha2256, inp, io, len, out, oo => Digest.Static.compute (Digest.core256 false) inp io len out oo
  | .sha2512, inp, io, len, out, oo => Digest.Static.compute (Digest.core512 false) inp io len out oo
  | .shake128, inp, io, len, out, oo => xof P inp io len out oo 32 168
  | .shake256, inp, io, len, out, oo => xof P inp io len out oo 64 136

/-- The type of `CoreHash` with its parameters fixed. -/
abbrev HashFn := List Byte → Nat → Nat → List Byte → Nat → M (List Byte)

variable (ch : HashFn) (pr : Params)

/-- `Prf` (XmssCore.cpp:63-74). -/
def prf (out : List Byte) (off : Nat) (inp key : List Byte) (ko : Nat) : M (List Byte) := do
  let buf ← ullToBytes (List.replicate (pr.n * 2 + 32) 0) 0 3 pr.n
  let buf ← copy key ko buf pr.n pr.n
  let buf ← copy inp 0 buf (2 * pr.n) 32
  ch buf 0 (pr.n * 2 + 32) out off

/-- `HashMessage` (XmssCore.cpp:76-84): `Output` and `MsgPrefix`. In `XmssMtCoreSign` the randomisation `r` is in the message buffer; it is read before
anything is written that could change it. -/
def hashMessage (out r : List Byte) (ro : Nat) (root : List Byte) (idx : BitVec 64) (msg : List Byte) (mo len : Nat) : M (List Byte × List Byte) := do
  let msg ← ullToBytes msg mo 2 pr.n
  let msg ← copy r ro msg (mo + pr.n) pr.n
  let msg ← copy root 0 msg (mo + pr.n * 2) pr.n
  let msg ← ullToBytes msg (mo + pr.n * 3) idx pr.n
  let out ← ch msg mo (len + pr.n * 4) out 0
  return (out, msg)

/-- `ThashH` (XmssCore.cpp:86-119): `Output` and the address. -/
def thashH (out : List Byte) (oo : Nat) (inp : List Byte) (io : Nat) (seed : List Byte) (a : Addr) : M (List Byte × Addr) := do
  let buf ← ullToBytes (List.replicate (pr.n * 4) 0) 0 1 pr.n
  let a := setMask a 0
  let t ← addressToBytes a
  let buf ← prf ch pr buf pr.n t seed 0
  let a := setMask a 1
  let t ← addressToBytes a
  let mask ← prf ch pr (List.replicate (pr.n * 2) 0) 0 t seed 0
  let a := setMask a 2
  let t ← addressToBytes a
  let mask ← prf ch pr mask pr.n t seed 0
  let buf ← loopN (pr.n * 2) 0 (fun i buf => do
    let x ← rd inp (io + i)
    let y ← rd mask i
    wr buf (pr.n * 2 + i) (x ^^^ y)) buf
  let out ← ch buf 0 (4 * pr.n) out oo
  return (out, a)

/-- `ThashF` (XmssCore.cpp:121-150). -/
def thashF (out : List Byte) (oo : Nat) (inp : List Byte) (io : Nat) (seed : List Byte) (a : Addr) : M (List Byte × Addr) := do
  let buf ← ullToBytes (List.replicate (pr.n * 3) 0) 0 0 pr.n
  let a := setMask a 0
  let t ← addressToBytes a
  let buf ← prf ch pr buf pr.n t seed 0
  let a := setMask a 1
  let t ← addressToBytes a
  let mask ← prf ch pr (List.replicate pr.n 0) 0 t seed 0
  let buf ← loopN pr.n 0 (fun i buf => do
    let x ← rd inp (io + i)
    let y ← rd mask i
    wr buf (pr.n * 2 + i) (x ^^^ y)) buf
  let out ← ch buf 0 (3 * pr.n) out oo
  return (out, a)

/-! ## The one-time signature -/

/-- `ExpandSeed` (XmssCore.cpp:669-679). -/
def expandSeed (out : List Byte) (off : Nat) (seed : List Byte) : M (List Byte) :=
  loopN pr.wotsLen 0 (fun i out => do
    let ctr ← ullToBytes (List.replicate 32 0) 0 (BitVec.ofNat 64 i) 32
    prf ch pr out (off + pr.n * i) ctr seed 0) out

/-- `GenChain` (XmssCore.cpp:681-695). -/
def genChain (out : List Byte) (oo : Nat) (inp : List Byte) (io start steps : Nat) (seed : List Byte) (a : Addr) : M (List Byte × Addr) := do
  let out ← copy inp io out oo pr.n
  loopN (min (start + steps) 16 - start) start (fun i st => do
    let a := setHash st.2 i
    thashF ch pr st.1 oo st.1 oo seed a) (out, a)

/-- `WotsChecksum` (XmssCore.cpp:722-742); `BaseW` (697-720) is that of the SPHINCS+ engine. The digits are at most 15, so that the terms of the sum are
not negative. -/
def wotsChecksum (base : List Nat) : M (List Nat) := do
  let csum ← loopN pr.wotsLen1 0 (fun i c => do
    let d ← rd base i
    return c + (16 - d - 1)) 0
  let cb ← ullToBytes (List.replicate ((3 * 4 + 7) / 8) 0) 0 (BitVec.ofNat 64 csum <<< (8 - 3 * 4 % 8)) ((3 * 4 + 7) / 8)
  baseW base pr.wotsLen1 3 cb

/-- `ChainLengths` (XmssCore.cpp:744-748) on a vector of four times `WotsLen` zeros (767, 785). -/
def chainLengths (msg : List Byte) : M (List Nat) := do
  let l ← baseW (List.replicate (pr.wotsLen * 4) 0) 0 pr.wotsLen1 msg
  wotsChecksum pr l

/-- `WotsPkGen` (XmssCore.cpp:750-762). -/
def wotsPkGen (pk seed pubSeed : List Byte) (a : Addr) : M (List Byte × Addr) := do
  let pk ← expandSeed ch pr pk 0 seed
  loopN pr.wotsLen 0 (fun i st => do
    let a := setChain st.2 i
    genChain ch pr st.1 (pr.n * i) st.1 (pr.n * i) 0 15 pubSeed a) (pk, a)

/-- `WotsSign` (XmssCore.cpp:764-780). -/
def wotsSign (sig : List Byte) (off : Nat) (msg seed pubSeed : List Byte) (a : Addr) : M (List Byte × Addr) := do
  let ls ← chainLengths pr msg
  let sig ← expandSeed ch pr sig off seed
  loopN pr.wotsLen 0 (fun i st => do
    let a := setChain st.2 i
    let l ← rd ls i
    genChain ch pr st.1 (off + pr.n * i) st.1 (off + pr.n * i) 0 l pubSeed a) (sig, a)

/-- `WotsPkFromSig` (XmssCore.cpp:782-795). -/
def wotsPkFromSig (pk sig : List Byte) (off : Nat) (msg pubSeed : List Byte) (a : Addr) : M (List Byte × Addr) := do
  let ls ← chainLengths pr msg
  loopN pr.wotsLen 0 (fun i st => do
    let a := setChain st.2 i
    let l ← rd ls i
    genChain ch pr st.1 (pr.n * i) sig (off + pr.n * i) l (16 - l - 1) pubSeed a) (pk, a)

/-! ## Trees -/

/-- The loop of `LTree` (XmssCore.cpp:970-994): `l`, `height`, `WotsPk` and the address. -/
def lTreeRows (seed : List Byte) (l height : Nat) (st : List Byte × Addr) : M (List Byte × Addr) :=
  if 1 < l then do
    let st ← loopN (l / 2) 0 (fun i st => do
      let a := setHash st.2 i
      thashH ch pr st.1 (i * pr.n) st.1 (pr.n * (i * 2)) seed a) st
    let pk ← (if l % 2 = 1 then copy st.1 ((l - 1) * pr.n) st.1 (l / 2 * pr.n) pr.n else .ok st.1 : M (List Byte))
    lTreeRows seed (if l % 2 = 1 then l / 2 + 1 else l / 2) (height + 1) (pk, setChain st.2 (height + 1))
  else return st
termination_by l
decreasing_by split <;> omega

/-- `LTree` (XmssCore.cpp:959-997): `Leaf`, `WotsPk` and the address. -/
def lTree (leaf : List Byte) (leafOff : Nat) (pk seed : List Byte) (a : Addr) : M (List Byte × List Byte × Addr) := do
  let r ← lTreeRows ch pr seed pr.wotsLen 0 (pk, setChain a 0)
  let leaf ← copy r.1 0 leaf leafOff pr.n
  return (leaf, r.1, r.2)

/-- `ComputeRoot` (XmssCore.cpp:999-1049): `Root` and the address. -/
def computeRoot (root leaf : List Byte) (leafIdx : Nat) (auth : List Byte) (authOff : Nat) (seed : List Byte) (a : Addr) : M (List Byte × Addr) := do
  let buf ← (if leafIdx % 2 = 1 then do
      let b ← copy auth authOff (List.replicate (pr.n * 2) 0) 0 pr.n
      copy leaf 0 b pr.n pr.n
    else do
      let b ← copy leaf 0 (List.replicate (pr.n * 2) 0) 0 pr.n
      copy auth authOff b pr.n pr.n : M (List Byte))
  let r ← loopN (pr.treeHeight - 1) 0 (fun i (st : List Byte × Nat × Nat × Addr) => do
    let (buf, l, ao, a) := st
    let a := setChain a i
    let l := l / 2
    let a := setHash a l
    let r ← (if l % 2 = 1 then do
        let b ← thashH ch pr buf pr.n buf 0 seed a
        let c ← copy auth ao b.1 0 pr.n
        return (c, b.2)
      else do
        let b ← thashH ch pr buf 0 buf 0 seed a
        let c ← copy auth ao b.1 pr.n pr.n
        return (c, b.2) : M (List Byte × Addr))
    return (r.1, l, ao + pr.n, r.2)) (buf, leafIdx, authOff + pr.n, a)
  let (buf, l, _, a) := r
  let a := setHash (setChain a (pr.treeHeight - 1)) (l / 2)
  thashH ch pr root 0 buf 0 seed a

/-- `GetSeed` (XmssCore.cpp:1062-1074): `Seed` and the address. -/
def getSeed (seed skSeed : List Byte) (skOff : Nat) (a : Addr) : M (List Byte × Addr) := do
  let a := setMask (setHash (setChain a 0) 0) 0
  let t ← addressToBytes a
  let seed ← prf ch pr seed 0 t skSeed skOff
  return (seed, a)

/-- `GenLeafWots` (XmssCore.cpp:1051-1060): `Leaf` and the two addresses. -/
def genLeafWots (leaf : List Byte) (leafOff : Nat) (skSeed : List Byte) (skOff : Nat) (pubSeed : List Byte) (lAddr oAddr : Addr) : M (List Byte × Addr × Addr) := do
  let s ← getSeed ch pr (List.replicate pr.n 0) skSeed skOff oAddr
  let w ← wotsPkGen ch pr (List.replicate pr.wotsBytes 0) s.1 pubSeed s.2
  let l ← lTree ch pr leaf leafOff w.1 pubSeed lAddr
  return (l.1, l.2.2, w.2)

/-- The variables of a tree computation. -/
structure TreeState where
  auth : List Byte
  ots : Addr
  ltree : Addr
  node : Addr
  stack : List Byte
  heights : List Nat

/-- The inner loop (XmssCore.cpp:1210-1230); the first argument is `offset`. -/
def mergeLoop (seed : List Byte) (authOff leafIdx idx : Nat) : Nat → TreeState → M (Nat × TreeState)
  | o + 2, s => do
    let h1 ← rd s.heights (o + 1)
    let h0 ← rd s.heights o
    if h1 = h0 then do
      let treeidx := idx >>> (h1 + 1)
      let a := setHash (setChain s.node h1) treeidx
      let t ← thashH ch pr s.stack (o * pr.n) s.stack (pr.n * o) seed a
      let heights ← wr s.heights o (h0 + 1)
      let auth ← (if (leafIdx >>> (h0 + 1)) ^^^ 1 = treeidx then copy t.1 (o * pr.n) s.auth (authOff + (h0 + 1) * pr.n) pr.n else .ok s.auth : M (List Byte))
      mergeLoop seed authOff leafIdx idx (o + 1) { s with auth := auth, node := t.2, stack := t.1, heights := heights }
    else return (o + 2, s)
  | o, s => return (o, s)

/-- `TreeHash` (XmssCore.cpp:1170-1234): `Root` and `AuthPath`. -/
def treeHash (root : List Byte) (rootOff : Nat) (auth : List Byte) (authOff : Nat) (skSeed : List Byte) (skOff : Nat) (pubSeed : List Byte) (leafIdx : Nat) (sub : Addr) :
    M (List Byte × List Byte) := do
  let ots := setType (copySubtree {} sub) 0
  let ltree := setType (copySubtree {} sub) 1
  let node := setType (copySubtree {} sub) 2
  let r ← loopN (2 ^ pr.treeHeight) 0 (fun idx (st : Nat × TreeState) => do
    let (offset, s) := st
    let ltree := setOts s.ltree idx
    let ots := setOts s.ots idx
    let g ← genLeafWots ch pr s.stack (offset * pr.n) skSeed skOff pubSeed ltree ots
    let heights ← wr s.heights offset 0
    let auth ← (if leafIdx ^^^ 1 = idx then copy g.1 (offset * pr.n) s.auth authOff pr.n else .ok s.auth : M (List Byte))
    mergeLoop ch pr pubSeed authOff leafIdx idx (offset + 1) ⟨auth, g.2.2, g.2.1, s.node, g.1, heights⟩)
    (0, ⟨auth, ots, ltree, node, List.replicate (pr.n * (pr.treeHeight + 1)) 0, List.replicate ((pr.treeHeight + 1) * 4) 0⟩)
  let root ← copy r.2.stack 0 root rootOff pr.n
  return (root, r.2.auth)

/-! ## The scheme -/

/-- `XmssMtCoreKeyPair` (XmssCore.cpp:1258-1288), which `XmssCoreKeyPair` (1241-1247) calls: `PublicKey` and `SecretKey`; `rnd1` and `rnd2` are what the generator delivers. -/
def coreKeyPair (pk sk rnd1 rnd2 : List Byte) : M (List Byte × List Byte) := do
  let top := setLayer {} (pr.d - 1)
  let sk ← clear sk 4 pr.indexSize
  let skoft := 4 + pr.indexSize
  let sk ← copy rnd1 0 sk skoft (2 * pr.n)
  let sk ← copy rnd2 0 sk (skoft + 3 * pr.n) pr.n
  let pk ← copy sk (skoft + 3 * pr.n) pk (4 + pr.n) pr.n
  let pkseed ← copy sk (skoft + 3 * pr.n) (List.replicate pr.n 0) 0 pr.n
  let t ← treeHash ch pr pk 4 (List.replicate (pr.treeHeight * pr.n) 0) 0 sk skoft pkseed 0 top
  let sk ← copy t.1 4 sk (skoft + 2 * pr.n) pr.n
  return (t.1, sk)

/-- The variables of the loop over the layers in `XmssMtCoreSign`. -/
structure SignState where
  sig : List Byte
  smoft : Nat
  root : List Byte
  ots : Addr
  seed : List Byte
  idx : BitVec 64

/-- The body of the loop over the layers (XmssCore.cpp:1341-1358). -/
def signLayer (skSeed pubSeed : List Byte) (i : Nat) (s : SignState) : M SignState := do
  let idxleaf := (s.idx &&& BitVec.ofNat 64 (2 ^ pr.treeHeight - 1)).toNat % 2 ^ 32
  let idx := s.idx >>> pr.treeHeight
  let ots := setOts (setTree (setLayer s.ots i) idx) idxleaf
  let g ← getSeed ch pr s.seed skSeed 0 ots
  let w ← wotsSign ch pr s.sig s.smoft s.root g.1 pubSeed g.2
  let smoft := s.smoft + pr.wotsBytes
  let t ← treeHash ch pr s.root 0 w.1 smoft skSeed 0 pubSeed idxleaf w.2
  return ⟨t.2, smoft + pr.treeHeight * pr.n, t.1, w.2, g.1, idx⟩

/-- `XmssMtCoreSign` (XmssCore.cpp:1290-1362), which `XmssCoreSign` (1249-1256) calls: `SecretKey`, `Signature` and `SigLength`. -/
def coreSign (sk sig msg : List Byte) : M (List Byte × List Byte × Nat) := do
  let skseed ← copy sk (4 + pr.indexSize) (List.replicate pr.n 0) 0 pr.n
  let skprf ← copy sk (4 + pr.indexSize + pr.n) (List.replicate pr.n 0) 0 pr.n
  let pubroot ← copy sk (4 + pr.indexSize + 2 * pr.n) (List.replicate pr.n 0) 0 pr.n
  let pubseed ← copy sk (4 + pr.indexSize + 3 * pr.n) (List.replicate pr.n 0) 0 pr.n
  let sig ← copy msg 0 sig pr.sigSize msg.length
  let idx ← bytesToUll sig 0 pr.indexSize
  let sig ← copy sk 4 sig 0 pr.indexSize
  let sk ← ullToBytes sk 4 (idx + 1) pr.indexSize
  let idx32 ← ullToBytes (List.replicate 32 0) 0 idx 32
  let sig ← prf ch pr sig pr.indexSize idx32 skprf 0
  let h ← hashMessage ch pr (List.replicate pr.n 0) sig pr.indexSize pubroot idx sig (pr.sigSize - 4 * pr.n) msg.length
  let r ← loopN pr.d 0 (signLayer ch pr skseed pubseed) ⟨h.2, pr.indexSize + pr.n, h.1, setType {} 0, List.replicate pr.n 0, idx⟩
  return (sk, r.sig, pr.sigSize + msg.length)

/-- The variables of the loop over the layers in `XmssMtCoreSignOpen`. -/
structure VerifyState where
  smoft : Nat
  root : List Byte
  leaf : List Byte
  wotspk : List Byte
  ots : Addr
  ltree : Addr
  node : Addr
  idx : BitVec 64

/-- The body of the loop over the layers (XmssCore.cpp:1123-1147). -/
def verifyLayer (sig pubSeed : List Byte) (i : Nat) (s : VerifyState) : M VerifyState := do
  let idxleaf := (s.idx &&& BitVec.ofNat 64 (2 ^ pr.treeHeight - 1)).toNat % 2 ^ 32
  let idx := s.idx >>> pr.treeHeight
  let ots := setOts (setTree (setLayer s.ots i) idx) idxleaf
  let w ← wotsPkFromSig ch pr s.wotspk sig s.smoft s.root pubSeed ots
  let smoft := s.smoft + pr.wotsBytes
  let l ← lTree ch pr s.leaf 0 w.1 pubSeed (setOts (setTree (setLayer s.ltree i) idx) idxleaf)
  let c ← computeRoot ch pr s.root l.1 idxleaf sig smoft pubSeed (setTree (setLayer s.node i) idx)
  return ⟨smoft + pr.treeHeight * pr.n, c.1, l.1, l.2.1, w.2, l.2.2, c.2, idx⟩

/-- `XmssMtCoreSignOpen` (XmssCore.cpp:1085-1166), which `XmssCoreSignOpen` (1076-1083) calls: the result is 0, `Message` and `MsgLength`. `MsgLength` is computed in 64 bits
and not checked. -/
def coreOpen (msg sm pk : List Byte) : M (Bool × List Byte × Nat) := do
  let pubroot ← copy pk 4 (List.replicate pr.n 0) 0 pr.n
  let pubseed ← copy pk (4 + pr.n) (List.replicate pr.n 0) 0 pr.n
  let msgLen := (sm.length + (2 ^ 64 - pr.sigSize)) % 2 ^ 64
  let idx ← bytesToUll sm 0 pr.indexSize
  let msg ← copy sm pr.sigSize msg pr.sigSize msgLen
  let h ← hashMessage ch pr (List.replicate pr.n 0) sm pr.indexSize pubroot idx msg (pr.sigSize - pr.n * 4) msgLen
  let r ← loopN pr.d 0 (verifyLayer ch pr sm pubseed)
    ⟨pr.indexSize + pr.n, h.1, List.replicate pr.n 0, List.replicate pr.wotsBytes 0, setType {} 0, setType {} 1, setType {} 2, idx⟩
  if r.root = pubroot then do
    let msg ← copy sm pr.sigSize h.2 0 msgLen
    return (true, msg, msgLen)
  else do
    let msg ← clear h.2 0 h.2.length
    return (false, msg, 0)

/-! ## The interface -/

/-- The object identifier in four bytes (XmssCore.cpp:814-818, 893-897). -/
def putOid (key : List Byte) (oid : Nat) : M (List Byte) :=
  loopN 4 0 (fun i key => wr key (4 - i - 1) (BitVec.ofNat 8 (oid >>> (8 * i)))) key

/-- Reading it (XmssCore.cpp:835-838, 862-865, 914-917, 940-943). -/
def getOid (key : List Byte) : M Nat :=
  loopN 4 0 (fun i oid => do
    let b ← rd key (4 - i - 1)
    return oid ||| (b.toNat <<< (i * 8))) 0

/-- `XMSSUtils::IsXMSS` (XmssUtils.cpp:5-35). The enumeration `XmssParameters` is represented by the parameter sets its members are named after. -/
def isXmss : Spec.Xmss.Set → Bool
  | .xmss .. => true
  | .mt .. => false

/-- `XMSSUtils::ToOid` (XmssUtils.cpp:37-273); `SHAKE256` and `SHAKE512` in the names are SHAKE128 and SHAKE256 with 32 and 64 bytes. -/
def toOid : Spec.Xmss.Set → Nat
  | .xmss .sha256 .h10 => 0x01
  | .xmss .sha256 .h16 => 0x02
  | .xmss .sha256 .h20 => 0x03
  | .xmss .sha512 .h10 => 0x04
  | .xmss .sha512 .h16 => 0x05
  | .xmss .sha512 .h20 => 0x06
  | .xmss .shake128 .h10 => 0x07
  | .xmss .shake128 .h16 => 0x08
  | .xmss .shake128 .h20 => 0x09
  | .xmss .shake256 .h10 => 0x0A
  | .xmss .shake256 .h16 => 0x0B
  | .xmss .shake256 .h20 => 0x0C
  | .mt .sha256 .h20d2 => 0x01
  | .mt .sha256 .h20d4 => 0x02
  | .mt .sha256 .h40d2 => 0x03
  | .mt .sha256 .h40d4 => 0x04
  | .mt .sha256 .h40d8 => 0x05
  | .mt .sha256 .h60d3 => 0x06
  | .mt .sha256 .h60d6 => 0x07
  | .mt .sha256 .h60d12 => 0x08
  | .mt .sha512 .h20d2 => 0x09
  | .mt .sha512 .h20d4 => 0x0A
  | .mt .sha512 .h40d2 => 0x0B
  | .mt .sha512 .h40d4 => 0x0C
  | .mt .sha512 .h40d8 => 0x0D
  | .mt .sha512 .h60d3 => 0x0E
  | .mt .sha512 .h60d6 => 0x0F
  | .mt .sha512 .h60d12 => 0x10
  | .mt .shake128 .h20d2 => 0x11
  | .mt .shake128 .h20d4 => 0x12
  | .mt .shake128 .h40d2 => 0x13
  | .mt .shake128 .h40d4 => 0x14
  | .mt .shake128 .h40d8 => 0x15
  | .mt .shake128 .h60d3 => 0x16
  | .mt .shake128 .h60d6 => 0x17
  | .mt .shake128 .h60d12 => 0x18
  | .mt .shake256 .h20d2 => 0x19
  | .mt .shake256 .h20d4 => 0x1A
  | .mt .shake256 .h40d2 => 0x1B
  | .mt .shake256 .h40d4 => 0x1C
  | .mt .shake256 .h40d8 => 0x1D
  | .mt .shake256 .h60d3 => 0x1E
  | .mt .shake256 .h60d6 => 0x1F
  | .mt .shake256 .h60d12 => 0x20

/-- The parser for a kind of set. -/
def parse (xmss : Bool) (oid : Nat) : Option Params := if xmss then parseXmss oid else parseMt oid

/-- `XmssKeyPair`, `XmssMtKeyPair` (XmssCore.cpp:799-824, 879-903); where the identifier is not known the keys stay as they are. -/
def keyPair (P : List Byte → M (List Byte)) (xmss : Bool) (pk sk : List Byte) (oid : Nat) (rnd1 rnd2 : List Byte) : M (List Byte × List Byte) :=
  match parse xmss oid with
  | none => return (pk, sk)
  | some pr => do
    let pk ← putOid pk oid
    let sk ← putOid sk oid
    coreKeyPair (coreHash P pr.hash) pr pk sk rnd1 rnd2

/-- `XmssSign`, `XmssMtSign` (XmssCore.cpp:826-850, 905-929). -/
def signKey (P : List Byte → M (List Byte)) (xmss : Bool) (sk sig msg : List Byte) : M (List Byte × List Byte × Nat) := do
  let oid ← getOid sk
  match parse xmss oid with
  | none => return (sk, sig, 0)
  | some pr => coreSign (coreHash P pr.hash) pr sk sig msg

/-- `XmssSignOpen`, `XmssMtSignOpen` (XmssCore.cpp:852-877, 931-955). -/
def openKey (P : List Byte → M (List Byte)) (xmss : Bool) (msg sm pk : List Byte) : M (Bool × List Byte × Nat) := do
  let oid ← getOid pk
  match parse xmss oid with
  | none => return (false, msg, 0)
  | some pr => coreOpen (coreHash P pr.hash) pr msg sm pk

/-- `XMSSCore::Generate` (XmssCore.cpp:1430-1452): the vectors passed are empty in `XMSS::Generate` (XMSS.cpp:232-243). If the parser failed, the sizes would be
indeterminate. -/
def generate (P : List Byte → M (List Byte)) (set : Spec.Xmss.Set) (rnd1 rnd2 : List Byte) : M (List Byte × List Byte) :=
  match parse (isXmss set) (toOid set) with
  | none => .error .ub
  | some pr => keyPair P (isXmss set) (List.replicate (pr.pkSize + 4) 0) (List.replicate (pr.skSize + 4) 0) (toOid set) rnd1 rnd2

/-- `XMSSCore::Sign` (XmssCore.cpp:1454-1478): `Signature` and the length returned; `old` is what the caller's vector held. The key is copied, and the copy is updated. -/
def sign (P : List Byte → M (List Byte)) (set : Spec.Xmss.Set) (old msg sk : List Byte) : M (List Byte × Nat) :=
  match parse (isXmss set) (toOid set) with
  | none => .error .ub
  | some pr => do
    let r ← signKey P (isXmss set) sk (resize old (pr.sigSize + msg.length)) msg
    return (r.2.1, r.2.2)

/-- `XMSSCore::Verify` (XmssCore.cpp:1480-1511): the answer and `Message`, which held `old`. -/
def verify (P : List Byte → M (List Byte)) (set : Spec.Xmss.Set) (old sm pk : List Byte) : M (Bool × List Byte) := do
  let r ← openKey P (isXmss set) (List.replicate sm.length 0) sm pk
  let m ← copy r.2.1 0 (resize old r.2.2) 0 r.2.2
  return (r.1, m)

/-- `GetPublicKeySize`, `GetPrivateKeySize`, `GetSignatureSize` (XmssCore.cpp:1364-1428). -/
def sizes (set : Spec.Xmss.Set) : M (Nat × Nat × Nat) :=
  match parse (isXmss set) (toOid set) with
  | none => .error .ub
  | some pr => .ok (pr.pkSize + 4, pr.skSize + 4, pr.sigSize)

end Cex.Xmss
