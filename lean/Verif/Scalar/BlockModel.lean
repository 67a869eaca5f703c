import Verif.Base

/-!
# Model of BlockToBe and BeToBlock (CEX/IntegerTools.h:494-549) on a little-endian machine
-/

namespace Cex.Scalar

/-- The loop over `j` of `BlockToBe` (IntegerTools.h:510-513): `Output |= Input << (8 * (j - 1))`; `j - 1` is the number of bytes that follow. -/
def beLoad {w : Nat} : BitVec w → List Byte → BitVec w
  | o, [] => o
  | o, b :: l => beLoad (o ||| b.setWidth w <<< (8 * l.length)) l

/-- `BlockToBe` (IntegerTools.h:494-516) from word `i` on, `n` words of `k` bytes. -/
def blockToBe (k : Nat) (inp : List Byte) (inOff outOff : Nat) : Nat → Nat → List (BitVec (8 * k)) → M (List (BitVec (8 * k)))
  | _, 0, out => .ok out
  | i, n + 1, out => do
    let b ← slice inp (inOff + i * k) k
    let x ← rd out (outOff + i)
    let out ← wr out (outOff + i) (beLoad x b)
    blockToBe k inp inOff outOff (i + 1) n out

/-- The bytes that the loop over `j` of `BeToBlock` writes for one word (IntegerTools.h:541-544), the first byte from the top. -/
def beStore {w : Nat} (x : BitVec w) : Nat → List Byte
  | 0 => []
  | m + 1 => (x >>> (8 * m)).setWidth 8 :: beStore x m

end Cex.Scalar
