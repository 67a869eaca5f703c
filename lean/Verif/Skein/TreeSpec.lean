import Verif.Skein.Spec

/-!
# The tree mode of the Skein digests

The paper has tree hashing in section 3.5.6; the library has something else. This describes it: `D` lanes, each a UBI chain over every `D`-th
block; a lane that has data in the last, incomplete row is closed with that data and the output function, any other lane contributes its
chaining value as it is; the root node is a chain over the lane values.
-/

namespace Cex.Skein.Tree
open Cex Cex.Threefish Cex.Skein.Paper

variable {n : Nat}

/-- The tweak, with a position modulo `2^64`. -/
def tw (type pos : Nat) (first final : Bool) : W × W := tweak type (pos % 2 ^ 64) first final

/-- The configuration words of a tree with `D` lanes. -/
def treeCfg (n D : Nat) : Fin n → W := words n (pad n (config (64 * n) (8 * n) D 0))

/-- The initial values of the lanes for the configuration words `c`. -/
def laneIV (E : Tbc n) (c : Fin n → W) : Nat → Fin n → W
  | 0 => block E (fun _ => 0) (tweak tCfg 32 true true) c
  | i + 1 => fun j => E (fun _ => 0) (tweak tCfg 32 true true) (laneIV E c i) j ^^^ c j

/-- A lane: chaining value and number of bytes. -/
abbrev Lane (n : Nat) := (Fin n → W) × Nat

/-- A whole block for a lane. -/
def absorb (E : Tbc n) (s : Lane n) (b : List Byte) : Lane n := (block E s.1 (tw tMsg (s.2 + 8 * n) (s.2 = 0) false) (words n b), s.2 + 8 * n)

/-- The last block of a lane. -/
def close (E : Tbc n) (s : Lane n) (r : List Byte) : Fin n → W := output E (block E s.1 (tw tMsg (s.2 + r.length) (s.2 = 0) true) (words n (pad n r)))

/-- The part of a row that belongs to lane `i`. -/
def part (n : Nat) (b : List Byte) (i : Nat) : List Byte := (b.drop (i * (8 * n))).take (8 * n)

/-- One row. -/
def row (E : Tbc n) (s : Nat → Lane n) (b : List Byte) : Nat → Lane n := fun i => absorb E (s i) (part n b i)

/-- All complete rows: the lanes and what is left. -/
def rows (E : Tbc n) (D : Nat) (s : Nat → Lane n) (m : List Byte) : (Nat → Lane n) × List Byte :=
  if 0 < D * (8 * n) ∧ D * (8 * n) ≤ m.length then rows E D (row E s (m.take (D * (8 * n)))) (m.drop (D * (8 * n))) else (s, m)
termination_by m.length
decreasing_by rw [List.length_drop]; omega

/-- The value of lane `i` when `r` is the incomplete row. -/
def value (E : Tbc n) (s : Nat → Lane n) (r : List Byte) (i : Nat) : Fin n → W := if i * (8 * n) < r.length then close E (s i) (part n r i) else (s i).1

/-- The chain of the root node. All blocks have the final flag. -/
def chain (E : Tbc n) (G : Fin n → W) (pos : Nat) (first : Bool) : List (Fin n → W) → Fin n → W
  | [] => G
  | v :: vs => chain E (block E G (tw tCfg (pos + 8 * n) first true) v) (pos + 8 * n) false vs

/-- The root node goes on where the encryption of the sequential configuration block has ended: no feed-forward, and type and position stay
those of the configuration. -/
def root (E : Tbc n) (vs : List (Fin n → W)) : Fin n → W :=
  output E (chain E (E (fun _ => 0) (tweak tCfg 32 true true) (words n (pad n (config (64 * n) 0 0 0)))) 32 true vs)

/-- The digest of `m` with `D` lanes that start from `v`. -/
def tree (E : Tbc n) (D : Nat) (v : Nat → Fin n → W) (m : List Byte) : List Byte :=
  let x := rows E D (fun i => (v i, 0)) m
  bytes (root E ((List.range D).map (value E x.1 x.2)))

end Cex.Skein.Tree
