import Verif.Base

/-!
# What a user expects of a random generator

Fresh bytes: what is delivered is taken from the source's byte sequence at positions that only go up, so no byte of the source is delivered twice.
Uniform numbers: counted over all equally likely sequences of samples, every number of the range comes out equally often, and no other number does.
-/

namespace Cex.Random
open Cex

/-- The positions `idx` go up and lie in `[p, q)`. -/
structure Incr (p : Nat) (idx : List Nat) (q : Nat) : Prop where
  sorted : idx.Pairwise (· < ·)
  low : ∀ i ∈ idx, p ≤ i
  high : ∀ i ∈ idx, i < q
  le : p ≤ q

/-- All numbers of `w` bits. -/
def samples (w : Nat) : List (BitVec w) := (List.range (2 ^ w)).map (BitVec.ofNat w)

/-- All sequences of `n` numbers of `w` bits. -/
def tapes (w : Nat) : Nat → List (List (BitVec w))
  | 0 => [[]]
  | n + 1 => (samples w).flatMap fun x => (tapes w n).map (x :: ·)

/-- The number of sequences of `n` samples on which the call `f` returns `v`. -/
def outcomes {w : Nat} (f : List (BitVec w) → M (Int × List (BitVec w))) (n : Nat) (v : Int) : Nat :=
  (tapes w n).countP fun t => match f t with
    | .ok (u, _) => u == v
    | .error _ => false

/-- On every number of samples, each number from `lo` to `hi` is returned on equally many sequences, and on some; other numbers never are. -/
structure Uniform {w : Nat} (f : List (BitVec w) → M (Int × List (BitVec w))) (lo hi : Int) : Prop where
  equal : ∀ n u v, lo ≤ u → u ≤ hi → lo ≤ v → v ≤ hi → outcomes f n u = outcomes f n v
  occurs : ∀ n v, lo ≤ v → v ≤ hi → 0 < outcomes f (n + 1) v
  only : ∀ n v, v < lo ∨ hi < v → outcomes f n v = 0

end Cex.Random
