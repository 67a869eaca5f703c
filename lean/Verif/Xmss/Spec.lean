import Verif.Sphincs.Spec
import Verif.Digest.Sha2Spec

/-!
# XMSS and XMSS-MT (RFC 8391)

Addresses are strings of 32 bytes, hashes are functions on strings, trees are functions of height and index; the shapes of trees and the
digits of a message are those of `Verif/Sphincs/Spec.lean`. Where RFC 8391 leaves the choice of the one-time keys open (section 3.1.7), they are
derived from a seed as in the reference implementation. Nothing here refers to the code.
-/

namespace Cex.Spec.Xmss
open Cex Cex.Spec.Sphincs

/-- The hash, its `n` bytes, `d` layers of trees of height `h`, and the number of bytes of the index. The Winternitz parameter is 16. -/
structure Parameters where
  H : List Byte → List Byte
  n : Nat
  h : Nat
  d : Nat
  ib : Nat

variable (s : Parameters)

/-! ## Functions (section 5.1) and addresses (section 2.5) -/

def F (key m : List Byte) : List Byte := s.H (beEnc s.n 0 ++ key ++ m)
def Hh (key m : List Byte) : List Byte := s.H (beEnc s.n 1 ++ key ++ m)
def Hmsg (key m : List Byte) : List Byte := s.H (beEnc s.n 2 ++ key ++ m)
def prf (key m : List Byte) : List Byte := s.H (beEnc s.n 3 ++ key ++ m)

/-- Layer, tree, type, three words and the word that separates keys and masks. -/
def adrs (layer tree type a b c k : Nat) : List Byte :=
  beEnc 4 layer ++ beEnc 8 tree ++ beEnc 4 type ++ beEnc 4 a ++ beEnc 4 b ++ beEnc 4 c ++ beEnc 4 k

/-- One step of a chain (Algorithm 2): `ad k` is the address with `k` in the last word. -/
def stepF (seed : List Byte) (ad : Nat → List Byte) (x : List Byte) : List Byte :=
  F s (prf s seed (ad 0)) (List.zipWith (· ^^^ ·) x (prf s seed (ad 1)))

/-- `RAND_HASH` (Algorithm 7) of two nodes, one after the other. -/
def randHash (seed : List Byte) (ad : Nat → List Byte) (m : List Byte) : List Byte :=
  Hh s (prf s seed (ad 0)) (List.zipWith (· ^^^ ·) m (prf s seed (ad 1) ++ prf s seed (ad 2)))

/-! ## The one-time signature (section 3) -/

/-- `t` steps of a chain from position `start`. -/
def chain (seed : List Byte) (ad : Nat → Nat → List Byte) (start : Nat) (x : List Byte) : Nat → List Byte
  | 0 => x
  | t + 1 => stepF s seed (ad (start + t)) (chain seed ad start x t)

/-- The number of chains. -/
def wlen : Nat := 2 * s.n + 3

/-- Step `c` of chain `i` of the one-time key `ots`. -/
def wotsAdrs (layer tree ots i c k : Nat) : List Byte := adrs layer tree 0 ots i c k

/-- The secret values: a seed for each one-time key, from it a value for each chain. -/
def wotsSeed (skseed : List Byte) (layer tree ots : Nat) : List Byte := prf s skseed (adrs layer tree 0 ots 0 0 0)
def wotsSecret (skseed : List Byte) (layer tree ots i : Nat) : List Byte := prf s (wotsSeed s skseed layer tree ots) (beEnc 32 i)

def wotsPk (skseed pkseed : List Byte) (layer tree ots : Nat) : List Byte :=
  chunks (fun i => chain s pkseed (wotsAdrs layer tree ots i) 0 (wotsSecret s skseed layer tree ots i) 15) (wlen s)

def wotsSign (skseed pkseed : List Byte) (layer tree ots : Nat) (m : List Byte) : List Byte :=
  chunks (fun i => chain s pkseed (wotsAdrs layer tree ots i) 0 (wotsSecret s skseed layer tree ots i) ((lengths m).getD i 0)) (wlen s)

def wotsPkFromSig (pkseed : List Byte) (layer tree ots : Nat) (sig m : List Byte) : List Byte :=
  chunks (fun i => chain s pkseed (wotsAdrs layer tree ots i) ((lengths m).getD i 0) (piece s.n sig i) (15 - (lengths m).getD i 0)) (wlen s)

/-! ## Leaves and trees (section 4.1) -/

/-- One row of an unbalanced tree over `l` nodes `g`: pairs are hashed, a single last node goes up. -/
def ltreeRow (comb : Nat → List Byte → List Byte) (l : Nat) (g : Nat → List Byte) (i : Nat) : List Byte :=
  if 2 * i + 1 < l then comb i (g (2 * i) ++ g (2 * i + 1)) else g (2 * i)

/-- The root of the tree over `l` nodes (Algorithm 8), the lowest row is number `z`. -/
def ltree (comb : Nat → Nat → List Byte → List Byte) (z l : Nat) (g : Nat → List Byte) : List Byte :=
  if l ≤ 1 then g 0 else ltree comb (z + 1) ((l + 1) / 2) (ltreeRow (comb z) l g)
termination_by l
decreasing_by omega

def ltreeComb (pkseed : List Byte) (layer tree ots z i : Nat) (m : List Byte) : List Byte := randHash s pkseed (adrs layer tree 1 ots z i) m

/-- A leaf from a one-time public key. -/
def compressPk (pkseed : List Byte) (layer tree ots : Nat) (pk : List Byte) : List Byte :=
  ltree (ltreeComb s pkseed layer tree ots) 0 (wlen s) (piece s.n pk)

def treeLeaf (skseed pkseed : List Byte) (layer tree j : Nat) : List Byte :=
  compressPk s pkseed layer tree j (wotsPk s skseed pkseed layer tree j)

/-- Node `j` of height `z` (Algorithms 9 and 13): the address has the height of the nodes below and the index of the new node. -/
def treeComb (pkseed : List Byte) (layer tree z j : Nat) (m : List Byte) : List Byte := randHash s pkseed (adrs layer tree 2 0 (z - 1) j) m

def treeRoot (skseed pkseed : List Byte) (layer tree : Nat) : List Byte :=
  node (treeLeaf s skseed pkseed layer tree) (treeComb s pkseed layer tree) s.h 0

def treePath (skseed pkseed : List Byte) (layer tree i : Nat) : List Byte :=
  path (treeLeaf s skseed pkseed layer tree) (treeComb s pkseed layer tree) s.h i

/-! ## The layers (section 4.2) -/

/-- Signing in the layers from `layer` on: `r` layers remain; the message is signed by leaf `i` of tree `tree`. -/
def htSign (skseed pkseed : List Byte) : (r layer tree i : Nat) → (m : List Byte) → List Byte
  | 0, _, _, _, _ => []
  | r + 1, layer, tree, i, m =>
    wotsSign s skseed pkseed layer tree i m ++ treePath s skseed pkseed layer tree i
      ++ htSign skseed pkseed r (layer + 1) (tree / 2 ^ s.h) (tree % 2 ^ s.h) (treeRoot s skseed pkseed layer tree)

/-- The number of bytes of one layer of a signature. -/
def layerBytes : Nat := wlen s * s.n + s.h * s.n

/-- The root a signature leads to. -/
def htRoot (pkseed : List Byte) : (r layer tree i : Nat) → (m sig : List Byte) → List Byte
  | 0, _, _, _, m, _ => m
  | r + 1, layer, tree, i, m, sig =>
    htRoot pkseed r (layer + 1) (tree / 2 ^ s.h) (tree % 2 ^ s.h)
      (climb (treeComb s pkseed layer tree) (piece s.n ((sig.drop (wlen s * s.n)).take (s.h * s.n))) i
        (compressPk s pkseed layer tree i (wotsPkFromSig s pkseed layer tree i (sig.take (wlen s * s.n)) m)) s.h)
      (sig.drop (layerBytes s))

/-! ## The scheme -/

/-- The root of the top tree. -/
def root (skseed pkseed : List Byte) : List Byte := treeRoot s skseed pkseed (s.d - 1) 0

/-- Public key: object identifier, root, seed. -/
def publicKey (oid : Nat) (skseed pkseed : List Byte) : List Byte := beEnc 4 oid ++ root s skseed pkseed ++ pkseed

/-- Private key: object identifier, index of the next one-time key, seeds, root, public seed. -/
def secretKey (oid idx : Nat) (skseed skprf pkseed : List Byte) : List Byte :=
  beEnc 4 oid ++ beEnc s.ib idx ++ skseed ++ skprf ++ root s skseed pkseed ++ pkseed

/-- The randomisation and the digest of a message (Algorithms 12 and 16). -/
def randomizer (skprf : List Byte) (idx : Nat) : List Byte := prf s skprf (beEnc 32 idx)
def digest (r root : List Byte) (idx : Nat) (m : List Byte) : List Byte := Hmsg s (r ++ root ++ beEnc s.n idx) m

/-- A signature without its index. -/
def signBody (skseed skprf pkseed root : List Byte) (idx : Nat) (m : List Byte) : List Byte :=
  randomizer s skprf idx ++ htSign s skseed pkseed s.d 0 (idx / 2 ^ s.h) (idx % 2 ^ s.h) (digest s (randomizer s skprf idx) root idx m)

/-- The signature of `m` with the one-time key number `idx`. -/
def sign (skseed skprf pkseed root : List Byte) (idx : Nat) (m : List Byte) : List Byte :=
  beEnc s.ib idx ++ signBody s skseed skprf pkseed root idx m

/-- The number of bytes of a signature. -/
def sigBytes : Nat := s.ib + s.n + s.d * layerBytes s

/-- The index a signature names. -/
def indexOf (sig : List Byte) : Nat := beVal (sig.take s.ib)

/-- The root a signature of `m` leads to (Algorithms 14 and 17). -/
def rootOf (pkseed root m sig : List Byte) : List Byte :=
  htRoot s pkseed s.d 0 (indexOf s sig / 2 ^ s.h) (indexOf s sig % 2 ^ s.h) (digest s ((sig.drop s.ib).take s.n) root (indexOf s sig) m)
    (sig.drop (s.ib + s.n))

/-- `sig` is a signature of `m` for the public key with this root and seed. -/
def Valid (root pkseed m sig : List Byte) : Prop := sig.length = sigBytes s ∧ rootOf s pkseed root m sig = root

/-! ## The parameter sets (sections 5.3 and 5.4) -/

/-- The hash functions: SHA-256, SHA-512, SHAKE128 with 32 bytes, SHAKE256 with 64 bytes. `f` is the Keccak permutation. -/
inductive Fn
  | sha256
  | sha512
  | shake128
  | shake256
  deriving DecidableEq

def Fn.hash (f : List Byte → List Byte) : Fn → List Byte → List Byte
  | .sha256, m => Digest.Fips.sha256 m
  | .sha512, m => Digest.Fips.sha512 m
  | .shake128, m => Fips202.shake f 168 m 32
  | .shake256, m => Fips202.shake f 136 m 64

def Fn.n : Fn → Nat
  | .sha256 => 32
  | .sha512 => 64
  | .shake128 => 32
  | .shake256 => 64

/-- The heights of XMSS, and of XMSS-MT with the number of layers. -/
inductive Height | h10 | h16 | h20
inductive Layers | h20d2 | h20d4 | h40d2 | h40d4 | h40d8 | h60d3 | h60d6 | h60d12

/-- The 44 parameter sets. -/
inductive Set
  | xmss (fn : Fn) (h : Height)
  | mt (fn : Fn) (l : Layers)

def Set.fn : Set → Fn
  | .xmss fn _ => fn
  | .mt fn _ => fn

/-- Total height and number of layers. -/
def Set.shape : Set → Nat × Nat
  | .xmss _ .h10 => (10, 1)
  | .xmss _ .h16 => (16, 1)
  | .xmss _ .h20 => (20, 1)
  | .mt _ .h20d2 => (20, 2)
  | .mt _ .h20d4 => (20, 4)
  | .mt _ .h40d2 => (40, 2)
  | .mt _ .h40d4 => (40, 4)
  | .mt _ .h40d8 => (40, 8)
  | .mt _ .h60d3 => (60, 3)
  | .mt _ .h60d6 => (60, 6)
  | .mt _ .h60d12 => (60, 12)

/-- Bytes of the index: four for XMSS, as many as needed for XMSS-MT. -/
def Set.indexBytes : Set → Nat
  | .xmss _ _ => 4
  | .mt fn l => ((Set.mt fn l).shape.1 + 7) / 8

/-- The object identifiers. -/
def Set.oid : Set → Nat
  | .xmss fn h => 3 * (match fn with | .sha256 => 0 | .sha512 => 1 | .shake128 => 2 | .shake256 => 3) + (match h with | .h10 => 1 | .h16 => 2 | .h20 => 3)
  | .mt fn l => 8 * (match fn with | .sha256 => 0 | .sha512 => 1 | .shake128 => 2 | .shake256 => 3)
      + (match l with | .h20d2 => 1 | .h20d4 => 2 | .h40d2 => 3 | .h40d4 => 4 | .h40d8 => 5 | .h60d3 => 6 | .h60d6 => 7 | .h60d12 => 8)

def Set.parameters (f : List Byte → List Byte) (p : Set) : Parameters :=
  ⟨p.fn.hash f, p.fn.n, p.shape.1 / p.shape.2, p.shape.2, p.indexBytes⟩

end Cex.Spec.Xmss
