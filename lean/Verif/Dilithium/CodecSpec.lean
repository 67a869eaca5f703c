import Verif.Lattice.Vec
import Verif.Dilithium.Spec

/-!
# Encodings of Dilithium (specification of round 3 of the NIST project, section 5.2)
-/

namespace Cex.Spec.Dilithium
open Cex Cex.Spec.Lattice

/-- Coefficients `x i ≤ c` as the `d`-bit numbers `c - x i`. -/
def packBelow (d : Nat) (c : Int) (x : Nat → Int) : List Byte := encode d ((List.range 256).map fun i => (c - x i).toNat)

/-- Non-negative coefficients as `d`-bit numbers. -/
def packPlain (d : Nat) (x : Nat → Int) : List Byte := encode d ((List.range 256).map fun i => (x i).toNat)

/-- The coefficients of `packBelow`. -/
def unpackBelow (d : Nat) (c : Int) (w : List Byte) (i : Nat) : Int := c - Lattice.number d w i

/-- The coefficients of `packPlain`. -/
def unpackPlain (d : Nat) (w : List Byte) (i : Nat) : Int := Lattice.number d w i

/-- The positions of the hints in a polynomial, in increasing order. -/
def indices (b : Nat → Bool) : List Nat := (List.range 256).filter b

/-- The positions of the hints in the first `n` polynomials, one after another. -/
def allIndices (h : Nat → Nat → Bool) (n : Nat) : List Nat := (List.range n).flatMap fun i => indices (h i)

/-- A vector of `K` hint polynomials with at most `ω` hints: the positions, zeros up to `ω` bytes, and for each polynomial the number of hints up to its end. -/
def packHint (ω K : Nat) (h : Nat → Nat → Bool) : List Byte :=
  (allIndices h K).map (BitVec.ofNat 8) ++ List.replicate (ω - (allIndices h K).length) 0 ++ (List.range K).map fun i => BitVec.ofNat 8 (allIndices h (i + 1)).length

/-- The hints that a byte string encodes. The encoding is unique: nothing but `packHint` is accepted. -/
def IsHint (ω K : Nat) (w : List Byte) (h : Nat → Nat → Bool) : Prop := (allIndices h K).length ≤ ω ∧ w = packHint ω K h

/-- Bits per coefficient of a secret: `η = 2` or `η = 4`. -/
def etaBits (eta : Nat) : Nat := if eta = 2 then 3 else 4

/-- Bits per coefficient of a response: `γ₁ = 2 ^ 17` or `γ₁ = 2 ^ 19`. -/
def zBits (gamma1 : Nat) : Nat := if gamma1 = 2 ^ 17 then 18 else 20

/-- Bits per coefficient of the commitment: `γ₂ = (q - 1) / 88` or `γ₂ = (q - 1) / 32`. -/
def w1Bits (g2 : Int) : Nat := if g2 = 95232 then 6 else 4

/-- A public key: `ρ`, `t₁`. -/
def encPk (K : Nat) (rho : List Byte) (t1 : Nat → Nat → Int) : List Byte := rho ++ (List.range K).flatMap fun i => packPlain 10 (t1 i)

/-- A secret key: `ρ`, `K`, `tr`, `s₁`, `s₂`, `t₀`. -/
def encSk (K L eta : Nat) (rho key tr : List Byte) (s1 s2 t0 : Nat → Nat → Int) : List Byte :=
  rho ++ key ++ tr ++ ((List.range L).flatMap fun i => packBelow (etaBits eta) eta (s1 i)) ++ ((List.range K).flatMap fun i => packBelow (etaBits eta) eta (s2 i)) ++
    (List.range K).flatMap fun i => packBelow 13 4096 (t0 i)

/-- A signature: `c`, `z`, `h`. -/
def encSig (K L gamma1 ω : Nat) (c : List Byte) (z : Nat → Nat → Int) (h : Nat → Nat → Bool) : List Byte :=
  c ++ ((List.range L).flatMap fun i => packBelow (zBits gamma1) gamma1 (z i)) ++ packHint ω K h

end Cex.Spec.Dilithium
