import Verif.Kyber.SampleEval1

/-! The entry (0, 1) of the matrix for the seed of the refutation of C60, and a seed that draws enough bytes; in a file of its own to bound the memory of the build. -/

namespace Cex.Kyber
open Cex Cex.Lattice Cex.Spec.Lattice Cex.Spec.Kyber

theorem bad_poly01 : ((do
    let r ← genPoly (Keccak.permute 24) 32 1 (badSeed ++ [BitVec.ofNat 8 0, BitVec.ofNat 8 1]) (List.replicate 506 0) (List.replicate 256 0)
    return decide (r.1.length = 256)) : M Bool) = .ok true := by
  decide +kernel

theorem good_stream01 : ((do
    let r ← Keccak.xof (Keccak.permute 24) (List.replicate 32 1 ++ [BitVec.ofNat 8 0, BitVec.ofNat 8 1]) 0 34 (List.replicate 534 0) 0 534 168
    return decide (256 ≤ (accepted r).length)) : M Bool) = .ok true := by
  decide +kernel

end Cex.Kyber
