import Verif.Blake.TreeEval1

/-!
# C66: the same message given to the tree mode in two calls
-/

namespace Cex.Blake
open Cex

/-- The message of `oneCall` in two calls. -/
def twoCalls : M (Obj 32 × List Byte) := do
  let o ← tree2
  let u ← o.update (core256 true) (List.replicate 128 1 ++ List.replicate 128 2 ++ List.replicate 44 4) 0 300
  let u ← u.update (core256 true) (List.replicate 84 4) 0 84
  u.finalize (core256 true) (List.replicate 32 0) 0

def twoCallsFirst : M Bool := do
  let r ← twoCalls
  return decide (r.2.head? = some 103)

theorem twoCalls_first : twoCallsFirst = .ok true := by decide +kernel

end Cex.Blake
