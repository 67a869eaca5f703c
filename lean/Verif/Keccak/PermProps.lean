import Verif.Keccak.PermLemmas

/-! # C46 The Keccak permutations are those of FIPS 202 -/

namespace Cex.Keccak
open Cex

/-- The compact permutation with any even number of rounds up to 48, and both unrolled ones, never leave the arrays and compute Keccak-p[1600, n] (round constants, rotation offsets
and the steps θ, ρ, π, χ, ι as in the standard). -/
theorem C46_permutations (st : List Byte) (h : st.length = 200) :
    (∀ n, n ≤ 24 → permute (2 * n) st = .ok (Fips202.keccakP (2 * n) st)) ∧
    permute24U st = .ok (Fips202.keccakP 24 st) ∧ permute48U st = .ok (Fips202.keccakP 48 st) :=
  ⟨fun _ hn => permute_eq hn h, permute24U_eq h, permute48U_eq h⟩

/-- Keccak-f[1600] of the zero state, first lane `F1258F7940E1DDE7` (Keccak team test vectors). -/
example : ((do let s ← permute 24 (List.replicate 200 0); return s.take 8) : M (List Byte)) = .ok [0xE7, 0xDD, 0xE1, 0x40, 0x79, 0x8F, 0x25, 0xF1] := by decide +kernel

end Cex.Keccak
