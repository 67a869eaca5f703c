import Verif.Base

/-!
# The straight-line programs of ChaCha.h

Transcribed by script: `add a b` stands for `X[a] += X[b];` and `mix a b r` for
`X[a] = Rot(X[a] ^ X[b], r);`. Each list is the body of the round loop of the function named (two rounds),
for `PermuteR20P512U` the whole unrolled body (twenty rounds).
-/

namespace Cex.SCipher

/-- A statement of the mixing code. -/
inductive Ins
  | add (a b : Nat)
  | mix (a b r : Nat)
deriving DecidableEq

/-- `ChaCha::PermuteP512C` (ChaCha.h:199-263). -/
def progP512C : List Ins := [
  .add 0 4, .mix 12 0 16, .add 8 12, .mix 4 8 12, .add 0 4, .mix 12 0 8, .add 8 12, .mix 4 8 7,
  .add 1 5, .mix 13 1 16, .add 9 13, .mix 5 9 12, .add 1 5, .mix 13 1 8, .add 9 13, .mix 5 9 7,
  .add 2 6, .mix 14 2 16, .add 10 14, .mix 6 10 12, .add 2 6, .mix 14 2 8, .add 10 14, .mix 6 10 7,
  .add 3 7, .mix 15 3 16, .add 11 15, .mix 7 11 12, .add 3 7, .mix 15 3 8, .add 11 15, .mix 7 11 7,
  .add 0 5, .mix 15 0 16, .add 10 15, .mix 5 10 12, .add 0 5, .mix 15 0 8, .add 10 15, .mix 5 10 7,
  .add 1 6, .mix 12 1 16, .add 11 12, .mix 6 11 12, .add 1 6, .mix 12 1 8, .add 11 12, .mix 6 11 7,
  .add 2 7, .mix 13 2 16, .add 8 13, .mix 7 8 12, .add 2 7, .mix 13 2 8, .add 8 13, .mix 7 8 7,
  .add 3 4, .mix 14 3 16, .add 9 14, .mix 4 9 12, .add 3 4, .mix 14 3 8, .add 9 14, .mix 4 9 7]

/-- `ChaCha::PermuteR20P512U` (ChaCha.h:316-964). -/
def progR20P512U : List Ins := [
  .add 0 4, .mix 12 0 16, .add 8 12, .mix 4 8 12, .add 0 4, .mix 12 0 8, .add 8 12, .mix 4 8 7,
  .add 1 5, .mix 13 1 16, .add 9 13, .mix 5 9 12, .add 1 5, .mix 13 1 8, .add 9 13, .mix 5 9 7,
  .add 2 6, .mix 14 2 16, .add 10 14, .mix 6 10 12, .add 2 6, .mix 14 2 8, .add 10 14, .mix 6 10 7,
  .add 3 7, .mix 15 3 16, .add 11 15, .mix 7 11 12, .add 3 7, .mix 15 3 8, .add 11 15, .mix 7 11 7,
  .add 0 5, .mix 15 0 16, .add 10 15, .mix 5 10 12, .add 0 5, .mix 15 0 8, .add 10 15, .mix 5 10 7,
  .add 1 6, .mix 12 1 16, .add 11 12, .mix 6 11 12, .add 1 6, .mix 12 1 8, .add 11 12, .mix 6 11 7,
  .add 2 7, .mix 13 2 16, .add 8 13, .mix 7 8 12, .add 2 7, .mix 13 2 8, .add 8 13, .mix 7 8 7,
  .add 3 4, .mix 14 3 16, .add 9 14, .mix 4 9 12, .add 3 4, .mix 14 3 8, .add 9 14, .mix 4 9 7,
  .add 0 4, .mix 12 0 16, .add 8 12, .mix 4 8 12, .add 0 4, .mix 12 0 8, .add 8 12, .mix 4 8 7,
  .add 1 5, .mix 13 1 16, .add 9 13, .mix 5 9 12, .add 1 5, .mix 13 1 8, .add 9 13, .mix 5 9 7,
  .add 2 6, .mix 14 2 16, .add 10 14, .mix 6 10 12, .add 2 6, .mix 14 2 8, .add 10 14, .mix 6 10 7,
  .add 3 7, .mix 15 3 16, .add 11 15, .mix 7 11 12, .add 3 7, .mix 15 3 8, .add 11 15, .mix 7 11 7,
  .add 0 5, .mix 15 0 16, .add 10 15, .mix 5 10 12, .add 0 5, .mix 15 0 8, .add 10 15, .mix 5 10 7,
  .add 1 6, .mix 12 1 16, .add 11 12, .mix 6 11 12, .add 1 6, .mix 12 1 8, .add 11 12, .mix 6 11 7,
  .add 2 7, .mix 13 2 16, .add 8 13, .mix 7 8 12, .add 2 7, .mix 13 2 8, .add 8 13, .mix 7 8 7,
  .add 3 4, .mix 14 3 16, .add 9 14, .mix 4 9 12, .add 3 4, .mix 14 3 8, .add 9 14, .mix 4 9 7,
  .add 0 4, .mix 12 0 16, .add 8 12, .mix 4 8 12, .add 0 4, .mix 12 0 8, .add 8 12, .mix 4 8 7,
  .add 1 5, .mix 13 1 16, .add 9 13, .mix 5 9 12, .add 1 5, .mix 13 1 8, .add 9 13, .mix 5 9 7,
  .add 2 6, .mix 14 2 16, .add 10 14, .mix 6 10 12, .add 2 6, .mix 14 2 8, .add 10 14, .mix 6 10 7,
  .add 3 7, .mix 15 3 16, .add 11 15, .mix 7 11 12, .add 3 7, .mix 15 3 8, .add 11 15, .mix 7 11 7,
  .add 0 5, .mix 15 0 16, .add 10 15, .mix 5 10 12, .add 0 5, .mix 15 0 8, .add 10 15, .mix 5 10 7,
  .add 1 6, .mix 12 1 16, .add 11 12, .mix 6 11 12, .add 1 6, .mix 12 1 8, .add 11 12, .mix 6 11 7,
  .add 2 7, .mix 13 2 16, .add 8 13, .mix 7 8 12, .add 2 7, .mix 13 2 8, .add 8 13, .mix 7 8 7,
  .add 3 4, .mix 14 3 16, .add 9 14, .mix 4 9 12, .add 3 4, .mix 14 3 8, .add 9 14, .mix 4 9 7,
  .add 0 4, .mix 12 0 16, .add 8 12, .mix 4 8 12, .add 0 4, .mix 12 0 8, .add 8 12, .mix 4 8 7,
  .add 1 5, .mix 13 1 16, .add 9 13, .mix 5 9 12, .add 1 5, .mix 13 1 8, .add 9 13, .mix 5 9 7,
  .add 2 6, .mix 14 2 16, .add 10 14, .mix 6 10 12, .add 2 6, .mix 14 2 8, .add 10 14, .mix 6 10 7,
  .add 3 7, .mix 15 3 16, .add 11 15, .mix 7 11 12, .add 3 7, .mix 15 3 8, .add 11 15, .mix 7 11 7,
  .add 0 5, .mix 15 0 16, .add 10 15, .mix 5 10 12, .add 0 5, .mix 15 0 8, .add 10 15, .mix 5 10 7,
  .add 1 6, .mix 12 1 16, .add 11 12, .mix 6 11 12, .add 1 6, .mix 12 1 8, .add 11 12, .mix 6 11 7,
  .add 2 7, .mix 13 2 16, .add 8 13, .mix 7 8 12, .add 2 7, .mix 13 2 8, .add 8 13, .mix 7 8 7,
  .add 3 4, .mix 14 3 16, .add 9 14, .mix 4 9 12, .add 3 4, .mix 14 3 8, .add 9 14, .mix 4 9 7,
  .add 0 4, .mix 12 0 16, .add 8 12, .mix 4 8 12, .add 0 4, .mix 12 0 8, .add 8 12, .mix 4 8 7,
  .add 1 5, .mix 13 1 16, .add 9 13, .mix 5 9 12, .add 1 5, .mix 13 1 8, .add 9 13, .mix 5 9 7,
  .add 2 6, .mix 14 2 16, .add 10 14, .mix 6 10 12, .add 2 6, .mix 14 2 8, .add 10 14, .mix 6 10 7,
  .add 3 7, .mix 15 3 16, .add 11 15, .mix 7 11 12, .add 3 7, .mix 15 3 8, .add 11 15, .mix 7 11 7,
  .add 0 5, .mix 15 0 16, .add 10 15, .mix 5 10 12, .add 0 5, .mix 15 0 8, .add 10 15, .mix 5 10 7,
  .add 1 6, .mix 12 1 16, .add 11 12, .mix 6 11 12, .add 1 6, .mix 12 1 8, .add 11 12, .mix 6 11 7,
  .add 2 7, .mix 13 2 16, .add 8 13, .mix 7 8 12, .add 2 7, .mix 13 2 8, .add 8 13, .mix 7 8 7,
  .add 3 4, .mix 14 3 16, .add 9 14, .mix 4 9 12, .add 3 4, .mix 14 3 8, .add 9 14, .mix 4 9 7,
  .add 0 4, .mix 12 0 16, .add 8 12, .mix 4 8 12, .add 0 4, .mix 12 0 8, .add 8 12, .mix 4 8 7,
  .add 1 5, .mix 13 1 16, .add 9 13, .mix 5 9 12, .add 1 5, .mix 13 1 8, .add 9 13, .mix 5 9 7,
  .add 2 6, .mix 14 2 16, .add 10 14, .mix 6 10 12, .add 2 6, .mix 14 2 8, .add 10 14, .mix 6 10 7,
  .add 3 7, .mix 15 3 16, .add 11 15, .mix 7 11 12, .add 3 7, .mix 15 3 8, .add 11 15, .mix 7 11 7,
  .add 0 5, .mix 15 0 16, .add 10 15, .mix 5 10 12, .add 0 5, .mix 15 0 8, .add 10 15, .mix 5 10 7,
  .add 1 6, .mix 12 1 16, .add 11 12, .mix 6 11 12, .add 1 6, .mix 12 1 8, .add 11 12, .mix 6 11 7,
  .add 2 7, .mix 13 2 16, .add 8 13, .mix 7 8 12, .add 2 7, .mix 13 2 8, .add 8 13, .mix 7 8 7,
  .add 3 4, .mix 14 3 16, .add 9 14, .mix 4 9 12, .add 3 4, .mix 14 3 8, .add 9 14, .mix 4 9 7,
  .add 0 4, .mix 12 0 16, .add 8 12, .mix 4 8 12, .add 0 4, .mix 12 0 8, .add 8 12, .mix 4 8 7,
  .add 1 5, .mix 13 1 16, .add 9 13, .mix 5 9 12, .add 1 5, .mix 13 1 8, .add 9 13, .mix 5 9 7,
  .add 2 6, .mix 14 2 16, .add 10 14, .mix 6 10 12, .add 2 6, .mix 14 2 8, .add 10 14, .mix 6 10 7,
  .add 3 7, .mix 15 3 16, .add 11 15, .mix 7 11 12, .add 3 7, .mix 15 3 8, .add 11 15, .mix 7 11 7,
  .add 0 5, .mix 15 0 16, .add 10 15, .mix 5 10 12, .add 0 5, .mix 15 0 8, .add 10 15, .mix 5 10 7,
  .add 1 6, .mix 12 1 16, .add 11 12, .mix 6 11 12, .add 1 6, .mix 12 1 8, .add 11 12, .mix 6 11 7,
  .add 2 7, .mix 13 2 16, .add 8 13, .mix 7 8 12, .add 2 7, .mix 13 2 8, .add 8 13, .mix 7 8 7,
  .add 3 4, .mix 14 3 16, .add 9 14, .mix 4 9 12, .add 3 4, .mix 14 3 8, .add 9 14, .mix 4 9 7,
  .add 0 4, .mix 12 0 16, .add 8 12, .mix 4 8 12, .add 0 4, .mix 12 0 8, .add 8 12, .mix 4 8 7,
  .add 1 5, .mix 13 1 16, .add 9 13, .mix 5 9 12, .add 1 5, .mix 13 1 8, .add 9 13, .mix 5 9 7,
  .add 2 6, .mix 14 2 16, .add 10 14, .mix 6 10 12, .add 2 6, .mix 14 2 8, .add 10 14, .mix 6 10 7,
  .add 3 7, .mix 15 3 16, .add 11 15, .mix 7 11 12, .add 3 7, .mix 15 3 8, .add 11 15, .mix 7 11 7,
  .add 0 5, .mix 15 0 16, .add 10 15, .mix 5 10 12, .add 0 5, .mix 15 0 8, .add 10 15, .mix 5 10 7,
  .add 1 6, .mix 12 1 16, .add 11 12, .mix 6 11 12, .add 1 6, .mix 12 1 8, .add 11 12, .mix 6 11 7,
  .add 2 7, .mix 13 2 16, .add 8 13, .mix 7 8 12, .add 2 7, .mix 13 2 8, .add 8 13, .mix 7 8 7,
  .add 3 4, .mix 14 3 16, .add 9 14, .mix 4 9 12, .add 3 4, .mix 14 3 8, .add 9 14, .mix 4 9 7,
  .add 0 4, .mix 12 0 16, .add 8 12, .mix 4 8 12, .add 0 4, .mix 12 0 8, .add 8 12, .mix 4 8 7,
  .add 1 5, .mix 13 1 16, .add 9 13, .mix 5 9 12, .add 1 5, .mix 13 1 8, .add 9 13, .mix 5 9 7,
  .add 2 6, .mix 14 2 16, .add 10 14, .mix 6 10 12, .add 2 6, .mix 14 2 8, .add 10 14, .mix 6 10 7,
  .add 3 7, .mix 15 3 16, .add 11 15, .mix 7 11 12, .add 3 7, .mix 15 3 8, .add 11 15, .mix 7 11 7,
  .add 0 5, .mix 15 0 16, .add 10 15, .mix 5 10 12, .add 0 5, .mix 15 0 8, .add 10 15, .mix 5 10 7,
  .add 1 6, .mix 12 1 16, .add 11 12, .mix 6 11 12, .add 1 6, .mix 12 1 8, .add 11 12, .mix 6 11 7,
  .add 2 7, .mix 13 2 16, .add 8 13, .mix 7 8 12, .add 2 7, .mix 13 2 8, .add 8 13, .mix 7 8 7,
  .add 3 4, .mix 14 3 16, .add 9 14, .mix 4 9 12, .add 3 4, .mix 14 3 8, .add 9 14, .mix 4 9 7,
  .add 0 4, .mix 12 0 16, .add 8 12, .mix 4 8 12, .add 0 4, .mix 12 0 8, .add 8 12, .mix 4 8 7,
  .add 1 5, .mix 13 1 16, .add 9 13, .mix 5 9 12, .add 1 5, .mix 13 1 8, .add 9 13, .mix 5 9 7,
  .add 2 6, .mix 14 2 16, .add 10 14, .mix 6 10 12, .add 2 6, .mix 14 2 8, .add 10 14, .mix 6 10 7,
  .add 3 7, .mix 15 3 16, .add 11 15, .mix 7 11 12, .add 3 7, .mix 15 3 8, .add 11 15, .mix 7 11 7,
  .add 0 5, .mix 15 0 16, .add 10 15, .mix 5 10 12, .add 0 5, .mix 15 0 8, .add 10 15, .mix 5 10 7,
  .add 1 6, .mix 12 1 16, .add 11 12, .mix 6 11 12, .add 1 6, .mix 12 1 8, .add 11 12, .mix 6 11 7,
  .add 2 7, .mix 13 2 16, .add 8 13, .mix 7 8 12, .add 2 7, .mix 13 2 8, .add 8 13, .mix 7 8 7,
  .add 3 4, .mix 14 3 16, .add 9 14, .mix 4 9 12, .add 3 4, .mix 14 3 8, .add 9 14, .mix 4 9 7]

/-- `ChaCha::PermuteP1024C` (ChaCha.h:1015-1079). -/
def progP1024C : List Ins := [
  .add 0 4, .mix 12 0 38, .add 8 12, .mix 4 8 19, .add 0 4, .mix 12 0 10, .add 8 12, .mix 4 8 55,
  .add 1 5, .mix 13 1 33, .add 9 13, .mix 5 9 4, .add 1 5, .mix 13 1 51, .add 9 13, .mix 5 9 13,
  .add 2 6, .mix 14 2 16, .add 10 14, .mix 6 10 34, .add 2 6, .mix 14 2 56, .add 10 14, .mix 6 10 51,
  .add 3 7, .mix 15 3 4, .add 11 15, .mix 7 11 53, .add 3 7, .mix 15 3 42, .add 11 15, .mix 7 11 41,
  .add 0 5, .mix 15 0 34, .add 10 15, .mix 5 10 41, .add 0 5, .mix 15 0 59, .add 10 15, .mix 5 10 17,
  .add 1 6, .mix 12 1 23, .add 11 12, .mix 6 11 31, .add 1 6, .mix 12 1 37, .add 11 12, .mix 6 11 20,
  .add 2 7, .mix 13 2 31, .add 8 13, .mix 7 8 44, .add 2 7, .mix 13 2 47, .add 8 13, .mix 7 8 46,
  .add 3 4, .mix 14 3 12, .add 9 14, .mix 4 9 47, .add 3 4, .mix 14 3 44, .add 9 14, .mix 4 9 30]

/-- `ChaCha::PermuteP16x512H` (ChaCha.h:1123-1186). -/
def progP16x512H : List Ins := [
  .add 0 4, .mix 12 0 16, .add 8 12, .mix 4 8 12, .add 0 4, .mix 12 0 8, .add 8 12, .mix 4 8 7,
  .add 1 5, .mix 13 1 16, .add 9 13, .mix 5 9 12, .add 1 5, .mix 13 1 8, .add 9 13, .mix 5 9 7,
  .add 2 6, .mix 14 2 16, .add 10 14, .mix 6 10 12, .add 2 6, .mix 14 2 8, .add 10 14, .mix 6 10 7,
  .add 3 7, .mix 15 3 16, .add 11 15, .mix 7 11 12, .add 3 7, .mix 15 3 8, .add 11 15, .mix 7 11 7,
  .add 0 5, .mix 15 0 16, .add 10 15, .mix 5 10 12, .add 0 5, .mix 15 0 8, .add 10 15, .mix 5 10 7,
  .add 1 6, .mix 12 1 16, .add 11 12, .mix 6 11 12, .add 1 6, .mix 12 1 8, .add 11 12, .mix 6 11 7,
  .add 2 7, .mix 13 2 16, .add 8 13, .mix 7 8 12, .add 2 7, .mix 13 2 8, .add 8 13, .mix 7 8 7,
  .add 3 4, .mix 14 3 16, .add 9 14, .mix 4 9 12, .add 3 4, .mix 14 3 8, .add 9 14, .mix 4 9 7]

/-- `ChaCha::PermuteP8x1024H` (ChaCha.h:1242-1306). -/
def progP8x1024H : List Ins := [
  .add 0 4, .mix 12 0 38, .add 8 12, .mix 4 8 19, .add 0 4, .mix 12 0 10, .add 8 12, .mix 4 8 55,
  .add 1 5, .mix 13 1 33, .add 9 13, .mix 5 9 4, .add 1 5, .mix 13 1 51, .add 9 13, .mix 5 9 13,
  .add 2 6, .mix 14 2 16, .add 10 14, .mix 6 10 34, .add 2 6, .mix 14 2 56, .add 10 14, .mix 6 10 51,
  .add 3 7, .mix 15 3 4, .add 11 15, .mix 7 11 53, .add 3 7, .mix 15 3 42, .add 11 15, .mix 7 11 41,
  .add 0 5, .mix 15 0 34, .add 10 15, .mix 5 10 41, .add 0 5, .mix 15 0 59, .add 10 15, .mix 5 10 17,
  .add 1 6, .mix 12 1 23, .add 11 12, .mix 6 11 31, .add 1 6, .mix 12 1 37, .add 11 12, .mix 6 11 20,
  .add 2 7, .mix 13 2 31, .add 8 13, .mix 7 8 44, .add 2 7, .mix 13 2 47, .add 8 13, .mix 7 8 46,
  .add 3 4, .mix 14 3 12, .add 9 14, .mix 4 9 47, .add 3 4, .mix 14 3 44, .add 9 14, .mix 4 9 30]

/-- `ChaCha::PermuteP8x512H` (ChaCha.h:1352-1415). -/
def progP8x512H : List Ins := [
  .add 0 4, .mix 12 0 16, .add 8 12, .mix 4 8 12, .add 0 4, .mix 12 0 8, .add 8 12, .mix 4 8 7,
  .add 1 5, .mix 13 1 16, .add 9 13, .mix 5 9 12, .add 1 5, .mix 13 1 8, .add 9 13, .mix 5 9 7,
  .add 2 6, .mix 14 2 16, .add 10 14, .mix 6 10 12, .add 2 6, .mix 14 2 8, .add 10 14, .mix 6 10 7,
  .add 3 7, .mix 15 3 16, .add 11 15, .mix 7 11 12, .add 3 7, .mix 15 3 8, .add 11 15, .mix 7 11 7,
  .add 0 5, .mix 15 0 16, .add 10 15, .mix 5 10 12, .add 0 5, .mix 15 0 8, .add 10 15, .mix 5 10 7,
  .add 1 6, .mix 12 1 16, .add 11 12, .mix 6 11 12, .add 1 6, .mix 12 1 8, .add 11 12, .mix 6 11 7,
  .add 2 7, .mix 13 2 16, .add 8 13, .mix 7 8 12, .add 2 7, .mix 13 2 8, .add 8 13, .mix 7 8 7,
  .add 3 4, .mix 14 3 16, .add 9 14, .mix 4 9 12, .add 3 4, .mix 14 3 8, .add 9 14, .mix 4 9 7]

/-- `ChaCha::PermuteP4x1024H` (ChaCha.h:1470-1534). -/
def progP4x1024H : List Ins := [
  .add 0 4, .mix 12 0 38, .add 8 12, .mix 4 8 19, .add 0 4, .mix 12 0 10, .add 8 12, .mix 4 8 55,
  .add 1 5, .mix 13 1 33, .add 9 13, .mix 5 9 4, .add 1 5, .mix 13 1 51, .add 9 13, .mix 5 9 13,
  .add 2 6, .mix 14 2 16, .add 10 14, .mix 6 10 34, .add 2 6, .mix 14 2 56, .add 10 14, .mix 6 10 51,
  .add 3 7, .mix 15 3 4, .add 11 15, .mix 7 11 53, .add 3 7, .mix 15 3 42, .add 11 15, .mix 7 11 41,
  .add 0 5, .mix 15 0 34, .add 10 15, .mix 5 10 41, .add 0 5, .mix 15 0 59, .add 10 15, .mix 5 10 17,
  .add 1 6, .mix 12 1 23, .add 11 12, .mix 6 11 31, .add 1 6, .mix 12 1 37, .add 11 12, .mix 6 11 20,
  .add 2 7, .mix 13 2 31, .add 8 13, .mix 7 8 44, .add 2 7, .mix 13 2 47, .add 8 13, .mix 7 8 46,
  .add 3 4, .mix 14 3 12, .add 9 14, .mix 4 9 47, .add 3 4, .mix 14 3 44, .add 9 14, .mix 4 9 30]

/-- `ChaCha::PermuteP4x512H` (ChaCha.h:1580-1643). -/
def progP4x512H : List Ins := [
  .add 0 4, .mix 12 0 16, .add 8 12, .mix 4 8 12, .add 0 4, .mix 12 0 8, .add 8 12, .mix 4 8 7,
  .add 1 5, .mix 13 1 16, .add 9 13, .mix 5 9 12, .add 1 5, .mix 13 1 8, .add 9 13, .mix 5 9 7,
  .add 2 6, .mix 14 2 16, .add 10 14, .mix 6 10 12, .add 2 6, .mix 14 2 8, .add 10 14, .mix 6 10 7,
  .add 3 7, .mix 15 3 16, .add 11 15, .mix 7 11 12, .add 3 7, .mix 15 3 8, .add 11 15, .mix 7 11 7,
  .add 0 5, .mix 15 0 16, .add 10 15, .mix 5 10 12, .add 0 5, .mix 15 0 8, .add 10 15, .mix 5 10 7,
  .add 1 6, .mix 12 1 16, .add 11 12, .mix 6 11 12, .add 1 6, .mix 12 1 8, .add 11 12, .mix 6 11 7,
  .add 2 7, .mix 13 2 16, .add 8 13, .mix 7 8 12, .add 2 7, .mix 13 2 8, .add 8 13, .mix 7 8 7,
  .add 3 4, .mix 14 3 16, .add 9 14, .mix 4 9 12, .add 3 4, .mix 14 3 8, .add 9 14, .mix 4 9 7]

end Cex.SCipher
