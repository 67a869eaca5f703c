import Mathlib.Data.ZMod.Basic
import Verif.Lattice.Ntt

/-!
# Kyber, the mathematics (specification of round 3 of the NIST project, sections 1.1 to 1.3)
-/

namespace Cex.Spec.Kyber
open Finset

/-- The field of `q = 3329` elements. -/
abbrev F := ZMod 3329

/-- Reversal of the 7 bits of `i`. -/
def br7 (i : Nat) : Nat :=
  64 * (i % 2) + 32 * (i / 2 % 2) + 16 * (i / 4 % 2) + 8 * (i / 8 % 2) + 4 * (i / 16 % 2) + 2 * (i / 32 % 2) + i / 64 % 2

/-- `X ^ 256 + 1` is the product of the `X ^ 2 - γ i`, where `17` is the chosen primitive root of unity of order 256. -/
def γ (i : Nat) : F := 17 ^ (2 * br7 i + 1)

/-- The transform of a polynomial: entries `2 i` and `2 i + 1` are its residue modulo `X ^ 2 - γ i`. -/
def ntt (f : Nat → F) (k : Nat) : F := ∑ j ∈ range 128, f (2 * j + k % 2) * γ (k / 2) ^ j

/-- Products of transforms: products of the residues modulo `X ^ 2 - γ i`. -/
def baseMul (a b : Nat → F) (k : Nat) : F :=
  if k % 2 = 0 then a k * b k + γ (k / 2) * (a (k + 1) * b (k + 1))
  else a (k - 1) * b k + a k * b (k - 1)

end Cex.Spec.Kyber
