import Verif.Base

/-!
# Model of the word counters of IntegerTools (CEX/IntegerTools.h:2109-2174)
-/

namespace Cex.Scalar

/-- `LeIncrementW` (IntegerTools.h:2118-2129). -/
def leIncrementW {w : Nat} (o : List (BitVec w)) : M (List (BitVec w)) := do
  let x ← rd o 0
  let o ← wr o 0 (x + 1#w)
  if x + 1#w = 0#w then do
    let y ← rd o 1
    wr o 1 (y + 1#w)
  else return o

/-- `LeIncreaseW` in place (IntegerTools.h:2139-2151): `Output[0] += Length` cuts `Length` to the width of the word, the comparison does not. -/
def leIncreaseW {w : Nat} (o : List (BitVec w)) (len : Nat) : M (List (BitVec w)) := do
  let x ← rd o 0
  let z := x + BitVec.ofNat w len
  let o ← wr o 0 z
  if z.toNat < len then do
    let y ← rd o 1
    wr o 1 (y + 1#w)
  else return o

/-- `LeIncreaseW` from one array into another of the same length (IntegerTools.h:2161-2174); `Input` and `Output` are different arrays. -/
def leIncreaseTo {w : Nat} (inp : List (BitVec w)) (len : Nat) : M (List (BitVec w)) := do
  let x ← rd inp 0
  let z := x + BitVec.ofNat w len
  let o ← wr inp 0 z
  if z < x then do
    let y ← rd o 1
    wr o 1 (y + 1#w)
  else return o

end Cex.Scalar
