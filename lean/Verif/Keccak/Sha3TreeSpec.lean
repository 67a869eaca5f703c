import Verif.Keccak.Spec
import Verif.IntTools.Spec

/-!
# The tree of the parallel SHA3 digests

There is no other description of it than the headers (SHA3256.h:26-61) and the code. The message is dealt in blocks of `r` bytes to `D` of `S` sponges. Leaf `i` has first absorbed its
parameter block; if the last, incomplete row has bytes for it, they are absorbed with the padding of SHA3, and if not, the leaf is left as it is. The digest is SHA3 of the
first `d` bytes of all leaves.
-/

namespace Cex.Sha3Tree
open Cex Fips202

variable (f : List Byte → List Byte) (r d D S : Nat)

/-- the blocks `i`, `i + D`, `i + 2D`, … of the complete rows of `m` -/
def column (i : Nat) (m : List Byte) : List Byte := (List.range (m.length / (D * r))).flatMap fun j => (m.drop ((j * D + i) * r)).take r

/-- the incomplete row -/
def lastRow (m : List Byte) : List Byte := m.drop (D * r * (m.length / (D * r)))

/-- the bytes that leaf `i` has of it -/
def part (i : Nat) (m : List Byte) : List Byte := ((lastRow r D m).drop (i * r)).take r

/-- leaf `i`; a leaf from `D` on has its parameters only -/
def leaf (params : Nat → List Byte) (m : List Byte) (i : Nat) : List Byte :=
  let s := absorb f r (List.replicate 200 0) (params i ++ if i < D then column r D i m else [])
  if part r D i m = [] then s else absorb f r s (part r D i m ++ pad r 0x06 (part r D i m).length)

/-- the parameter block of leaf `i` (KeccakParams.h): numbers in little-endian order, the distribution code, zeros -/
def header (ver out leafSize depth fan reserved : Nat) (code : List Byte) (i : Nat) : List Byte :=
  let h := leEnc 4 i ++ leEnc 2 ver ++ leEnc 8 out ++ leEnc 4 leafSize ++ leEnc 1 depth ++ leEnc 1 fan ++ leEnc 4 reserved ++ code
  h ++ List.replicate (r - h.length) 0

def digest (params : Nat → List Byte) (m : List Byte) : List Byte := sponge f r 0x06 ((List.range S).flatMap fun i => (leaf f r D params m i).take d) d

end Cex.Sha3Tree
