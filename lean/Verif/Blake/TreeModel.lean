import Verif.Blake.Model

/-!
# BLAKE2 tree mode: construction and change of the degree

The functions of the tree itself are in `Model.lean`. The profile enters through `min`, its `ParallelMinimumSize`, and its
processor count.
-/

namespace Cex.Blake
open Cex

namespace Obj
variable {w : Nat}

/-- `Blake256(Params)` with fan-out `fan`, depth 2 and inner length `w` on a machine where the profile is parallel (Blake256.cpp:64-94), and
`Blake256(true)` with `fan = 8`, `Blake512(true)` with `fan = 4` (42-62). -/
def newTree (C : Core w) (fan : Byte) (min : Nat) : M (Obj w) :=
  if fan = 0 ∨ fan > 64 then throw (.throws .illegalOperation)
  else if fan < 2 ∨ fan % 2 ≠ 0 then throw (.throws .invalidParam)
  else do
    let p ← Params.new (BitVec.ofNat 8 w) 2 fan 0 (BitVec.ofNat 8 w)
    reset C ⟨List.replicate fan.toNat ⟨(0, 0), List.replicate 8 0, (0, 0)⟩, List.replicate (2 * fan.toNat * (2 * w)) 0, 0, p, min⟩

/-- `ParallelMaxDegree(Degree)` (348-375) on a machine with more than one processor; `min` is the minimum size of the profile after
`SetMaxDegree`. -/
def parallelMaxDegree (C : Core w) (o : Obj w) (degree min : Nat) : M (Obj w) :=
  if degree = 0 ∨ degree % 2 ≠ 0 ∨ degree > 64 then throw (.throws .notSupported)
  else
    reset C { o with
      dgt := List.replicate degree ⟨(0, 0), List.replicate 8 0, (0, 0)⟩, buf := List.replicate (degree * (2 * w)) 0, min := min,
      par := { o.par with fanOut := BitVec.ofNat 8 degree, maxDepth := 2, innerLen := BitVec.ofNat 8 w } }

end Obj

end Cex.Blake
