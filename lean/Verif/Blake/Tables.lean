import Verif.Base

/-!
# The tables of CEX/Blake.cpp and the unrolled permutations of CEX/Blake.h

The unrolled permutations consist of groups of twelve statements on local variables `R0 … R15`, `M0 … M15`, all of the form
modelled by `gStep`; a group is given by the indices `(a, b, c, d, x, y)`. The lists below were extracted from the source
by a script that checks each of the twelve statements (operators, operands, shift distances).
-/

namespace Cex.Blake

/-- `Blake::IV256` (Blake.cpp:7-17). -/
def iv256 : List (BitVec 32) := [0x6A09E667#32, 0xBB67AE85#32, 0x3C6EF372#32, 0xA54FF53A#32, 0x510E527F#32, 0x9B05688C#32, 0x1F83D9AB#32, 0x5BE0CD19#32]

/-- `Blake::IV512` (Blake.cpp:19-29). -/
def iv512 : List (BitVec 64) := [0x6A09E667F3BCC908#64, 0xBB67AE8584CAA73B#64, 0x3C6EF372FE94F82B#64, 0xA54FF53A5F1D36F1#64, 0x510E527FADE682D1#64, 0x9B05688C2B3E6C1F#64, 0x1F83D9ABFB41BD6B#64, 0x5BE0CD19137E2179#64]

/-- `Blake::Sigma256` (Blake.cpp:31-45). -/
def sigma256 : List Nat := [
  0, 1, 2, 3, 4, 5, 6, 7, 8, 9, 10, 11, 12, 13, 14, 15,
  14, 10, 4, 8, 9, 15, 13, 6, 1, 12, 0, 2, 11, 7, 5, 3,
  11, 8, 12, 0, 5, 2, 15, 13, 10, 14, 3, 6, 7, 1, 9, 4,
  7, 9, 3, 1, 13, 12, 11, 14, 2, 6, 5, 10, 4, 0, 15, 8,
  9, 0, 5, 7, 2, 4, 10, 15, 14, 1, 11, 12, 6, 8, 3, 13,
  2, 12, 6, 10, 0, 11, 8, 3, 4, 13, 7, 5, 15, 14, 1, 9,
  12, 5, 1, 15, 14, 13, 4, 10, 0, 7, 6, 3, 9, 2, 8, 11,
  13, 11, 7, 14, 12, 1, 3, 9, 5, 0, 15, 4, 8, 6, 2, 10,
  6, 15, 14, 9, 11, 3, 0, 8, 12, 2, 13, 7, 1, 4, 10, 5,
  10, 2, 8, 4, 7, 6, 1, 5, 15, 11, 9, 14, 3, 12, 13, 0,
  0, 1, 2, 3, 4, 5, 6, 7, 8, 9, 10, 11, 12, 13, 14, 15,
  14, 10, 4, 8, 9, 15, 13, 6, 1, 12, 0, 2, 11, 7, 5, 3]

/-- `Blake::Sigma512` (Blake.cpp:47-61). -/
def sigma512 : List Nat := [
  0, 1, 2, 3, 4, 5, 6, 7, 8, 9, 10, 11, 12, 13, 14, 15,
  14, 10, 4, 8, 9, 15, 13, 6, 1, 12, 0, 2, 11, 7, 5, 3,
  11, 8, 12, 0, 5, 2, 15, 13, 10, 14, 3, 6, 7, 1, 9, 4,
  7, 9, 3, 1, 13, 12, 11, 14, 2, 6, 5, 10, 4, 0, 15, 8,
  9, 0, 5, 7, 2, 4, 10, 15, 14, 1, 11, 12, 6, 8, 3, 13,
  2, 12, 6, 10, 0, 11, 8, 3, 4, 13, 7, 5, 15, 14, 1, 9,
  12, 5, 1, 15, 14, 13, 4, 10, 0, 7, 6, 3, 9, 2, 8, 11,
  13, 11, 7, 14, 12, 1, 3, 9, 5, 0, 15, 4, 8, 6, 2, 10,
  6, 15, 14, 9, 11, 3, 0, 8, 12, 2, 13, 7, 1, 4, 10, 5,
  10, 2, 8, 4, 7, 6, 1, 5, 15, 11, 9, 14, 3, 12, 13, 0,
  0, 1, 2, 3, 4, 5, 6, 7, 8, 9, 10, 11, 12, 13, 14, 15,
  14, 10, 4, 8, 9, 15, 13, 6, 1, 12, 0, 2, 11, 7, 5, 3]

/-- The statement groups of `PermuteR10P512U` (Blake.h:325-1374). -/
def unrolled256 : List (Nat × Nat × Nat × Nat × Nat × Nat) := [
  (0, 4, 8, 12, 0, 1), (1, 5, 9, 13, 2, 3), (2, 6, 10, 14, 4, 5), (3, 7, 11, 15, 6, 7), (0, 5, 10, 15, 8, 9), (1, 6, 11, 12, 10, 11), (2, 7, 8, 13, 12, 13), (3, 4, 9, 14, 14, 15),
  (0, 4, 8, 12, 14, 10), (1, 5, 9, 13, 4, 8), (2, 6, 10, 14, 9, 15), (3, 7, 11, 15, 13, 6), (0, 5, 10, 15, 1, 12), (1, 6, 11, 12, 0, 2), (2, 7, 8, 13, 11, 7), (3, 4, 9, 14, 5, 3),
  (0, 4, 8, 12, 11, 8), (1, 5, 9, 13, 12, 0), (2, 6, 10, 14, 5, 2), (3, 7, 11, 15, 15, 13), (0, 5, 10, 15, 10, 14), (1, 6, 11, 12, 3, 6), (2, 7, 8, 13, 7, 1), (3, 4, 9, 14, 9, 4),
  (0, 4, 8, 12, 7, 9), (1, 5, 9, 13, 3, 1), (2, 6, 10, 14, 13, 12), (3, 7, 11, 15, 11, 14), (0, 5, 10, 15, 2, 6), (1, 6, 11, 12, 5, 10), (2, 7, 8, 13, 4, 0), (3, 4, 9, 14, 15, 8),
  (0, 4, 8, 12, 9, 0), (1, 5, 9, 13, 5, 7), (2, 6, 10, 14, 2, 4), (3, 7, 11, 15, 10, 15), (0, 5, 10, 15, 14, 1), (1, 6, 11, 12, 11, 12), (2, 7, 8, 13, 6, 8), (3, 4, 9, 14, 3, 13),
  (0, 4, 8, 12, 2, 12), (1, 5, 9, 13, 6, 10), (2, 6, 10, 14, 0, 11), (3, 7, 11, 15, 8, 3), (0, 5, 10, 15, 4, 13), (1, 6, 11, 12, 7, 5), (2, 7, 8, 13, 15, 14), (3, 4, 9, 14, 1, 9),
  (0, 4, 8, 12, 12, 5), (1, 5, 9, 13, 1, 15), (2, 6, 10, 14, 14, 13), (3, 7, 11, 15, 4, 10), (0, 5, 10, 15, 0, 7), (1, 6, 11, 12, 6, 3), (2, 7, 8, 13, 9, 2), (3, 4, 9, 14, 8, 11),
  (0, 4, 8, 12, 13, 11), (1, 5, 9, 13, 7, 14), (2, 6, 10, 14, 12, 1), (3, 7, 11, 15, 3, 9), (0, 5, 10, 15, 5, 0), (1, 6, 11, 12, 15, 4), (2, 7, 8, 13, 8, 6), (3, 4, 9, 14, 2, 10),
  (0, 4, 8, 12, 6, 15), (1, 5, 9, 13, 14, 9), (2, 6, 10, 14, 11, 3), (3, 7, 11, 15, 0, 8), (0, 5, 10, 15, 12, 2), (1, 6, 11, 12, 13, 7), (2, 7, 8, 13, 1, 4), (3, 4, 9, 14, 10, 5),
  (0, 4, 8, 12, 10, 2), (1, 5, 9, 13, 8, 4), (2, 6, 10, 14, 7, 6), (3, 7, 11, 15, 1, 5), (0, 5, 10, 15, 15, 11), (1, 6, 11, 12, 9, 14), (2, 7, 8, 13, 3, 12), (3, 4, 9, 14, 13, 0)]

/-- The statement groups of `PermuteR12P1024U` (Blake.h:2498-3757). -/
def unrolled512 : List (Nat × Nat × Nat × Nat × Nat × Nat) := [
  (0, 4, 8, 12, 0, 1), (1, 5, 9, 13, 2, 3), (2, 6, 10, 14, 4, 5), (3, 7, 11, 15, 6, 7), (0, 5, 10, 15, 8, 9), (1, 6, 11, 12, 10, 11), (2, 7, 8, 13, 12, 13), (3, 4, 9, 14, 14, 15),
  (0, 4, 8, 12, 14, 10), (1, 5, 9, 13, 4, 8), (2, 6, 10, 14, 9, 15), (3, 7, 11, 15, 13, 6), (0, 5, 10, 15, 1, 12), (1, 6, 11, 12, 0, 2), (2, 7, 8, 13, 11, 7), (3, 4, 9, 14, 5, 3),
  (0, 4, 8, 12, 11, 8), (1, 5, 9, 13, 12, 0), (2, 6, 10, 14, 5, 2), (3, 7, 11, 15, 15, 13), (0, 5, 10, 15, 10, 14), (1, 6, 11, 12, 3, 6), (2, 7, 8, 13, 7, 1), (3, 4, 9, 14, 9, 4),
  (0, 4, 8, 12, 7, 9), (1, 5, 9, 13, 3, 1), (2, 6, 10, 14, 13, 12), (3, 7, 11, 15, 11, 14), (0, 5, 10, 15, 2, 6), (1, 6, 11, 12, 5, 10), (2, 7, 8, 13, 4, 0), (3, 4, 9, 14, 15, 8),
  (0, 4, 8, 12, 9, 0), (1, 5, 9, 13, 5, 7), (2, 6, 10, 14, 2, 4), (3, 7, 11, 15, 10, 15), (0, 5, 10, 15, 14, 1), (1, 6, 11, 12, 11, 12), (2, 7, 8, 13, 6, 8), (3, 4, 9, 14, 3, 13),
  (0, 4, 8, 12, 2, 12), (1, 5, 9, 13, 6, 10), (2, 6, 10, 14, 0, 11), (3, 7, 11, 15, 8, 3), (0, 5, 10, 15, 4, 13), (1, 6, 11, 12, 7, 5), (2, 7, 8, 13, 15, 14), (3, 4, 9, 14, 1, 9),
  (0, 4, 8, 12, 12, 5), (1, 5, 9, 13, 1, 15), (2, 6, 10, 14, 14, 13), (3, 7, 11, 15, 4, 10), (0, 5, 10, 15, 0, 7), (1, 6, 11, 12, 6, 3), (2, 7, 8, 13, 9, 2), (3, 4, 9, 14, 8, 11),
  (0, 4, 8, 12, 13, 11), (1, 5, 9, 13, 7, 14), (2, 6, 10, 14, 12, 1), (3, 7, 11, 15, 3, 9), (0, 5, 10, 15, 5, 0), (1, 6, 11, 12, 15, 4), (2, 7, 8, 13, 8, 6), (3, 4, 9, 14, 2, 10),
  (0, 4, 8, 12, 6, 15), (1, 5, 9, 13, 14, 9), (2, 6, 10, 14, 11, 3), (3, 7, 11, 15, 0, 8), (0, 5, 10, 15, 12, 2), (1, 6, 11, 12, 13, 7), (2, 7, 8, 13, 1, 4), (3, 4, 9, 14, 10, 5),
  (0, 4, 8, 12, 10, 2), (1, 5, 9, 13, 8, 4), (2, 6, 10, 14, 7, 6), (3, 7, 11, 15, 1, 5), (0, 5, 10, 15, 15, 11), (1, 6, 11, 12, 9, 14), (2, 7, 8, 13, 3, 12), (3, 4, 9, 14, 13, 0),
  (0, 4, 8, 12, 0, 1), (1, 5, 9, 13, 2, 3), (2, 6, 10, 14, 4, 5), (3, 7, 11, 15, 6, 7), (0, 5, 10, 15, 8, 9), (1, 6, 11, 12, 10, 11), (2, 7, 8, 13, 12, 13), (3, 4, 9, 14, 14, 15),
  (0, 4, 8, 12, 14, 10), (1, 5, 9, 13, 4, 8), (2, 6, 10, 14, 9, 15), (3, 7, 11, 15, 13, 6), (0, 5, 10, 15, 1, 12), (1, 6, 11, 12, 0, 2), (2, 7, 8, 13, 11, 7), (3, 4, 9, 14, 5, 3)]

end Cex.Blake
