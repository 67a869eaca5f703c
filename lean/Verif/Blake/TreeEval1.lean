import Verif.Blake.TreeProps

/-!
# C66: a message given to the tree mode in one call

The two evaluations are in separate modules so that each needs less memory.
-/

namespace Cex.Blake
open Cex

/-- The object of the runs: BLAKE2s with two leaves. -/
def tree2 : M (Obj 32) := Obj.newTree (core256 true) 2 128

/-- A message of 384 bytes in one call. -/
def oneCall : M (Obj 32 × List Byte) := do
  let o ← tree2
  o.compute (core256 true) (List.replicate 128 1 ++ List.replicate 128 2 ++ List.replicate 128 4) (List.replicate 32 0)

def oneCallFirst : M Bool := do
  let r ← oneCall
  return decide (r.2.head? = some 109)

theorem oneCall_first : oneCallFirst = .ok true := by decide +kernel

end Cex.Blake
