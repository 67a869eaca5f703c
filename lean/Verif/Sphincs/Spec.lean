import Verif.IntTools.Spec
import Verif.Keccak.Spec

/-!
# SPHINCS+ (round 3, robust instances)

Addresses are strings of 32 bytes, hashes are functions on strings, trees are functions of height and index.
Nothing here refers to the code.
-/

namespace Cex.Spec.Sphincs
open Cex

/-- `n` bytes of hash, `d` layers of trees of height `h`, `k` trees of height `a` for the few-time signature;
the Winternitz parameter is 16. -/
structure Parameters where
  n : Nat
  h : Nat
  d : Nat
  a : Nat
  k : Nat

/-- The hash: an extendable output function, and the one used for secret values. -/
structure Hash where
  xof : List Byte → Nat → List Byte
  xofPrf : List Byte → Nat → List Byte

/-- `g 0 ++ ... ++ g (k - 1)`. -/
def chunks (g : Nat → List Byte) : Nat → List Byte
  | 0 => []
  | k + 1 => chunks g k ++ g k

/-- The `i`-th piece of `n` bytes of `x`. -/
def piece (n : Nat) (x : List Byte) (i : Nat) : List Byte := (x.drop (i * n)).take n

/-! ## Trees -/

/-- The node of height `z` and index `j`. `comb z j` makes a node from the two below it. -/
def node (leaf : Nat → List Byte) (comb : Nat → Nat → List Byte → List Byte) : Nat → Nat → List Byte
  | 0, j => leaf j
  | z + 1, j => comb (z + 1) j (node leaf comb z (2 * j) ++ node leaf comb z (2 * j + 1))

/-- The index of the neighbour. -/
def sibling (j : Nat) : Nat := if j % 2 = 1 then j - 1 else j + 1

/-- The authentication path of leaf `i` in a tree of height `h`: the neighbours on the way to the root. -/
def path (leaf : Nat → List Byte) (comb : Nat → Nat → List Byte → List Byte) (h i : Nat) : List Byte :=
  chunks (fun z => node leaf comb z (sibling (i / 2 ^ z))) h

/-- From leaf value `x` at index `i` up to height `z`, with neighbours `sib`. -/
def climb (comb : Nat → Nat → List Byte → List Byte) (sib : Nat → List Byte) (i : Nat) (x : List Byte) : Nat → List Byte
  | 0 => x
  | z + 1 =>
    comb (z + 1) (i / 2 ^ (z + 1))
      (if i / 2 ^ z % 2 = 1 then sib z ++ climb comb sib i x z else climb comb sib i x z ++ sib z)

/-! ## Addresses and keyed hashing -/

/-- An address: layer, tree, type and three words. -/
def adrs (layer tree type a b c : Nat) : List Byte :=
  beEnc 4 layer ++ beEnc 12 tree ++ beEnc 4 type ++ beEnc 4 a ++ beEnc 4 b ++ beEnc 4 c

variable (H : Hash) (s : Parameters)

/-- The tweakable hash: the message is masked with bytes that depend on seed and address, then hashed with both. -/
def T (seed ad m : List Byte) : List Byte :=
  H.xof (seed ++ ad ++ List.zipWith (· ^^^ ·) m (H.xof (seed ++ ad) m.length)) s.n

/-- Secret values. -/
def prf (seed ad : List Byte) : List Byte := H.xofPrf (seed ++ ad) s.n

/-! ## The one-time signature -/

/-- `t` steps of a chain from position `start`. -/
def chain (pkseed : List Byte) (ad : Nat → List Byte) (start : Nat) (x : List Byte) : Nat → List Byte
  | 0 => x
  | t + 1 => T H s pkseed (ad (start + t)) (chain pkseed ad start x t)

/-- Two digits to the base 16 per byte, high one first. -/
def hexDigits (m : List Byte) : List Nat := m.flatMap fun b => [b.toNat / 16, b.toNat % 16]

/-- The sum of the complements of the digits. -/
def checksum (ds : List Nat) : Nat := (ds.map fun d => 15 - d).sum

/-- The lengths of the chains: the digits of the message and three digits of checksum. -/
def lengths (m : List Byte) : List Nat :=
  hexDigits m ++ [checksum (hexDigits m) / 256 % 16, checksum (hexDigits m) / 16 % 16, checksum (hexDigits m) % 16]

/-- The number of chains. -/
def wlen : Nat := 2 * s.n + 3

/-- The address of step `c` of chain `i` of key pair `kp`. -/
def wotsAdrs (layer tree kp i c : Nat) : List Byte := adrs layer tree 0 kp i c

def wotsSecret (skseed : List Byte) (layer tree kp i : Nat) : List Byte := prf H s skseed (wotsAdrs layer tree kp i 0)

def wotsPk (skseed pkseed : List Byte) (layer tree kp : Nat) : List Byte :=
  chunks (fun i => chain H s pkseed (wotsAdrs layer tree kp i) 0 (wotsSecret H s skseed layer tree kp i) 15) (wlen s)

def wotsSign (skseed pkseed : List Byte) (layer tree kp : Nat) (m : List Byte) : List Byte :=
  chunks (fun i => chain H s pkseed (wotsAdrs layer tree kp i) 0 (wotsSecret H s skseed layer tree kp i) ((lengths m).getD i 0)) (wlen s)

def wotsPkFromSig (pkseed : List Byte) (layer tree kp : Nat) (sig m : List Byte) : List Byte :=
  chunks (fun i => chain H s pkseed (wotsAdrs layer tree kp i) ((lengths m).getD i 0) (piece s.n sig i) (15 - (lengths m).getD i 0)) (wlen s)

/-! ## The layers -/

/-- A leaf: the hash of a one-time public key. -/
def compressPk (pkseed : List Byte) (layer tree kp : Nat) (pk : List Byte) : List Byte := T H s pkseed (adrs layer tree 1 kp 0 0) pk

def treeLeaf (skseed pkseed : List Byte) (layer tree j : Nat) : List Byte :=
  compressPk H s pkseed layer tree j (wotsPk H s skseed pkseed layer tree j)

def treeComb (pkseed : List Byte) (layer tree z j : Nat) (m : List Byte) : List Byte := T H s pkseed (adrs layer tree 2 0 z j) m

def treeRoot (skseed pkseed : List Byte) (layer tree : Nat) : List Byte :=
  node (treeLeaf H s skseed pkseed layer tree) (treeComb H s pkseed layer tree) s.h 0

def treePath (skseed pkseed : List Byte) (layer tree i : Nat) : List Byte :=
  path (treeLeaf H s skseed pkseed layer tree) (treeComb H s pkseed layer tree) s.h i

/-- Signing in the layers from `layer` on: `r` layers remain; the message is signed by leaf `i` of tree `tree`. -/
def htSign (skseed pkseed : List Byte) : (r layer tree i : Nat) → (m : List Byte) → List Byte
  | 0, _, _, _, _ => []
  | r + 1, layer, tree, i, m =>
    wotsSign H s skseed pkseed layer tree i m ++ treePath H s skseed pkseed layer tree i
      ++ htSign skseed pkseed r (layer + 1) (tree / 2 ^ s.h) (tree % 2 ^ s.h) (treeRoot H s skseed pkseed layer tree)

/-- The number of bytes of one layer of a signature. -/
def layerBytes : Nat := wlen s * s.n + s.h * s.n

/-- The root a signature leads to. -/
def htRoot (pkseed : List Byte) : (r layer tree i : Nat) → (m sig : List Byte) → List Byte
  | 0, _, _, _, m, _ => m
  | r + 1, layer, tree, i, m, sig =>
    htRoot pkseed r (layer + 1) (tree / 2 ^ s.h) (tree % 2 ^ s.h)
      (climb (treeComb H s pkseed layer tree) (piece s.n ((sig.drop (wlen s * s.n)).take (s.h * s.n))) i
        (compressPk H s pkseed layer tree i (wotsPkFromSig H s pkseed layer tree i (sig.take (wlen s * s.n)) m)) s.h)
      (sig.drop (layerBytes s))

/-! ## The few-time signature -/

/-- Index `t` of the digest: `a` bits, least significant first. -/
def forsIndex (md : List Byte) (t : Nat) : Nat :=
  ((List.range s.a).map fun j => (md.getD ((t * s.a + j) / 8) 0).toNat / 2 ^ ((t * s.a + j) % 8) % 2 * 2 ^ j).sum

def forsSecret (skseed : List Byte) (tree kp t j : Nat) : List Byte := prf H s skseed (adrs 0 tree 3 kp 0 (t * 2 ^ s.a + j))

def forsHash (pkseed : List Byte) (tree kp t j : Nat) (x : List Byte) : List Byte := T H s pkseed (adrs 0 tree 3 kp 0 (t * 2 ^ s.a + j)) x

def forsLeaf (skseed pkseed : List Byte) (tree kp t j : Nat) : List Byte :=
  forsHash H s pkseed tree kp t j (forsSecret H s skseed tree kp t j)

def forsComb (pkseed : List Byte) (tree kp t z j : Nat) (m : List Byte) : List Byte :=
  T H s pkseed (adrs 0 tree 3 kp z (t * 2 ^ (s.a - z) + j)) m

def forsRoot (skseed pkseed : List Byte) (tree kp t : Nat) : List Byte :=
  node (forsLeaf H s skseed pkseed tree kp t) (forsComb H s pkseed tree kp t) s.a 0

def forsPk (pkseed : List Byte) (tree kp : Nat) (roots : List Byte) : List Byte := T H s pkseed (adrs 0 tree 4 kp 0 0) roots

def forsSign (skseed pkseed : List Byte) (tree kp : Nat) (md : List Byte) : List Byte :=
  chunks (fun t => forsSecret H s skseed tree kp t (forsIndex s md t)
    ++ path (forsLeaf H s skseed pkseed tree kp t) (forsComb H s pkseed tree kp t) s.a (forsIndex s md t)) s.k

/-- The public key a few-time signature leads to. -/
def forsPkFromSig (pkseed : List Byte) (tree kp : Nat) (sig md : List Byte) : List Byte :=
  forsPk H s pkseed tree kp (chunks (fun t =>
    climb (forsComb H s pkseed tree kp t) (piece s.n ((sig.drop (t * ((s.a + 1) * s.n) + s.n)).take (s.a * s.n))) (forsIndex s md t)
      (forsHash H s pkseed tree kp t (forsIndex s md t) ((sig.drop (t * ((s.a + 1) * s.n))).take s.n)) s.a) s.k)

/-! ## The scheme -/

/-- The bytes of the digest that the few-time signature signs, of the tree index and of the leaf index. -/
def mdBytes : Nat := (s.a * s.k + 7) / 8
def treeBytes : Nat := (s.h * (s.d - 1) + 7) / 8
def leafBytes : Nat := (s.h + 7) / 8

/-- The digest of a message. -/
def digest (r pk m : List Byte) : List Byte := H.xof (r ++ pk ++ m) (mdBytes s + treeBytes s + leafBytes s)

def md (dg : List Byte) : List Byte := dg.take (mdBytes s)
/-- The tree index is a number of `h * (d - 1)` bits. -/
def treeIndex (dg : List Byte) : Nat := beVal ((dg.drop (mdBytes s)).take (treeBytes s)) % 2 ^ (s.h * (s.d - 1))
/-- The leaf index is a number of `h` bits. -/
def leafIndex (dg : List Byte) : Nat := beVal ((dg.drop (mdBytes s + treeBytes s)).take (leafBytes s)) % 2 ^ s.h

/-- The public key of the seeds. -/
def publicKey (skseed pkseed : List Byte) : List Byte := pkseed ++ treeRoot H s skseed pkseed (s.d - 1) 0

/-- Few-time signature and layers, given the digest and where to sign it. -/
def signDigest (skseed pkseed md : List Byte) (tree leaf : Nat) : List Byte :=
  forsSign H s skseed pkseed tree leaf md
    ++ htSign H s skseed pkseed s.d 0 tree leaf
        (forsPk H s pkseed tree leaf (chunks (forsRoot H s skseed pkseed tree leaf) s.k))

/-- The signature of `m`; `root` is the second half of the public key. -/
def sign (skseed skprf pkseed root optrand m : List Byte) : List Byte :=
  let r := H.xof (skprf ++ optrand ++ m) s.n
  let dg := digest H s r (pkseed ++ root) m
  r ++ signDigest H s skseed pkseed (md s dg) (treeIndex s dg) (leafIndex s dg)

/-- The number of bytes of the few-time signature. -/
def forsBytes : Nat := s.k * ((s.a + 1) * s.n)

/-- The number of bytes of a signature. -/
def sigBytes : Nat := s.n + forsBytes s + s.d * layerBytes s

/-- The root a signature leads to, given the digest and where it was signed. -/
def rootOf (pkseed md : List Byte) (tree leaf : Nat) (body : List Byte) : List Byte :=
  htRoot H s pkseed s.d 0 tree leaf (forsPkFromSig H s pkseed tree leaf (body.take (forsBytes s)) md) (body.drop (forsBytes s))

/-- `sig` is a signature of `m` for the public key `pkseed ++ root`. -/
def Valid (pkseed root m sig : List Byte) : Prop :=
  sig.length = sigBytes s ∧
    rootOf H s pkseed (md s (digest H s (sig.take s.n) (pkseed ++ root) m)) (treeIndex s (digest H s (sig.take s.n) (pkseed ++ root) m))
      (leafIndex s (digest H s (sig.take s.n) (pkseed ++ root) m)) (sig.drop s.n) = root

/-- The hash of the parameter set: SHAKE with a given rate, and SHAKE-256 for secret values. -/
def shakeHash (f : List Byte → List Byte) (rate : Nat) : Hash := ⟨Fips202.shake f rate, Fips202.shake f 136⟩

/-- The parameter sets. -/
def s128 : Parameters := ⟨16, 9, 7, 12, 14⟩
def s192 : Parameters := ⟨24, 9, 7, 14, 17⟩
def s256 : Parameters := ⟨32, 8, 8, 14, 22⟩
def s512 : Parameters := ⟨64, 8, 8, 14, 30⟩

end Cex.Spec.Sphincs
