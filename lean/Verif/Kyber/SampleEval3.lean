import Verif.Kyber.SampleEval2

/-! The entry (1, 0) of the matrix for the seed of the refutation of C60, and a seed that draws enough bytes; in a file of its own to bound the memory of the build. -/

namespace Cex.Kyber
open Cex Cex.Lattice Cex.Spec.Lattice Cex.Spec.Kyber

theorem bad_poly10 : ((do
    let r ← genPoly (Keccak.permute 24) 32 1 (badSeed ++ [BitVec.ofNat 8 1, BitVec.ofNat 8 0]) (List.replicate 506 0) (List.replicate 256 0)
    return decide (r.1.length = 256)) : M Bool) = .ok true := by
  decide +kernel

theorem good_stream10 : ((do
    let r ← Keccak.xof (Keccak.permute 24) (List.replicate 32 1 ++ [BitVec.ofNat 8 1, BitVec.ofNat 8 0]) 0 34 (List.replicate 534 0) 0 534 168
    return decide (256 ≤ (accepted r).length)) : M Bool) = .ok true := by
  decide +kernel

end Cex.Kyber
