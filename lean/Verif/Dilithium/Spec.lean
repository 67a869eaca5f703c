import Mathlib.Data.ZMod.Basic
import Verif.Lattice.Ntt

/-!
# Dilithium, the mathematics (specification of round 3 of the NIST project, sections 2.2 to 2.4)
-/

namespace Cex.Spec.Dilithium
open Finset

/-- The field of `q = 8380417` elements. -/
abbrev F := ZMod 8380417

/-- Reversal of the 8 bits of `i`. -/
def br8 (i : Nat) : Nat :=
  128 * (i % 2) + 64 * (i / 2 % 2) + 32 * (i / 4 % 2) + 16 * (i / 8 % 2) + 8 * (i / 16 % 2) + 4 * (i / 32 % 2) + 2 * (i / 64 % 2) + i / 128 % 2

/-- `X ^ 256 + 1` is the product of the `X - γ i`, where `1753` is the chosen primitive root of unity of order 512. -/
def γ (i : Nat) : F := 1753 ^ (2 * br8 i + 1)

/-- The transform of a polynomial: its values at the `γ k`. -/
def ntt (f : Nat → F) (k : Nat) : F := ∑ j ∈ range 256, f j * γ k ^ j

/-- `r mod± α`: the representative in `(-α / 2, α / 2]`. -/
def cmod (r α : Int) : Int := if 2 * (r % α) > α then r % α - α else r % α

/-- `Power2Round`: `r = r1 * 2 ^ d + r0` with `d = 13`, for `0 ≤ r < q`. -/
def power2Round (r : Int) : Int × Int := ((r - cmod r 8192) / 8192, cmod r 8192)

/-- `Decompose` with `α = 2 * γ2`, for `0 ≤ r < q`. -/
def decompose (γ2 r : Int) : Int × Int :=
  if r - cmod r (2 * γ2) = 8380416 then (0, cmod r (2 * γ2) - 1) else ((r - cmod r (2 * γ2)) / (2 * γ2), cmod r (2 * γ2))

/-- `HighBits`. -/
def highBits (γ2 r : Int) : Int := (decompose γ2 r).1

/-- `UseHint`. -/
def useHint (γ2 : Int) (h : Bool) (r : Int) : Int :=
  if h then
    if (decompose γ2 r).2 > 0 then ((decompose γ2 r).1 + 1) % (8380416 / (2 * γ2)) else ((decompose γ2 r).1 - 1) % (8380416 / (2 * γ2))
  else (decompose γ2 r).1

/-- `MakeHint`: does adding `z` change the high bits of `r`? -/
def makeHint (γ2 z r : Int) : Bool := decide (highBits γ2 (r % 8380417) ≠ highBits γ2 ((r + z) % 8380417))

/-- `‖x‖∞` of one residue: the distance to 0 modulo `q`. -/
def norm (x : F) : Nat := min x.val (8380417 - x.val)

end Cex.Spec.Dilithium
