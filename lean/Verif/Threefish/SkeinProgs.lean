import Verif.Threefish.Lang

/-!
# The unrolled functions of Skein.h

Transcribed by script; the script also compared the assignments before the first statement with what `Prog.run` does.
-/

namespace Cex.Threefish

/-- `Skein::PemuteR72P256U` (Skein.h:154-523), the statements of lines 183-517. -/
def skein256_0 : List Stmt := [
  .add 1 [.k 1, .t 0], .add 0 [.b 1, .k 0], .rx 1 14 0, .add 3 [.k 3], .add 2 [.b 3, .k 2, .t 1], .rx 3 16 2, .add 0 [.b 3], .rx 3 52 0, .add 2 [.b 1], .rx 1 57 2,
  .add 0 [.b 1], .rx 1 23 0, .add 2 [.b 3], .rx 3 40 2, .add 0 [.b 3], .rx 3 5 0, .add 2 [.b 1], .rx 1 37 2, .add 1 [.k 2, .t 1], .add 0 [.b 1, .k 1], .rx 1 25 0,
  .add 3 [.k 4, .c 1], .add 2 [.b 3, .k 3, .t 2], .rx 3 33 2, .add 0 [.b 3], .rx 3 46 0, .add 2 [.b 1], .rx 1 12 2, .add 0 [.b 1], .rx 1 58 0, .add 2 [.b 3], .rx 3 22 2,
  .add 0 [.b 3], .rx 3 32 0, .add 2 [.b 1], .rx 1 32 2, .add 1 [.k 3, .t 2], .add 0 [.b 1, .k 2], .rx 1 14 0, .add 3 [.k 0, .c 2], .add 2 [.b 3, .k 4, .t 0], .rx 3 16 2,
  .add 0 [.b 3], .rx 3 52 0, .add 2 [.b 1], .rx 1 57 2, .add 0 [.b 1], .rx 1 23 0, .add 2 [.b 3], .rx 3 40 2, .add 0 [.b 3], .rx 3 5 0, .add 2 [.b 1], .rx 1 37 2,
  .add 1 [.k 4, .t 0], .add 0 [.b 1, .k 3], .rx 1 25 0, .add 3 [.k 1, .c 3], .add 2 [.b 3, .k 0, .t 1], .rx 3 33 2, .add 0 [.b 3], .rx 3 46 0, .add 2 [.b 1], .rx 1 12 2,
  .add 0 [.b 1], .rx 1 58 0, .add 2 [.b 3], .rx 3 22 2, .add 0 [.b 3], .rx 3 32 0, .add 2 [.b 1], .rx 1 32 2, .add 1 [.k 0, .t 1], .add 0 [.b 1, .k 4], .rx 1 14 0,
  .add 3 [.k 2, .c 4], .add 2 [.b 3, .k 1, .t 2], .rx 3 16 2, .add 0 [.b 3], .rx 3 52 0, .add 2 [.b 1], .rx 1 57 2, .add 0 [.b 1], .rx 1 23 0, .add 2 [.b 3], .rx 3 40 2,
  .add 0 [.b 3], .rx 3 5 0, .add 2 [.b 1], .rx 1 37 2, .add 1 [.k 1, .t 2], .add 0 [.b 1, .k 0], .rx 1 25 0, .add 3 [.k 3, .c 5], .add 2 [.b 3, .k 2, .t 0], .rx 3 33 2,
  .add 0 [.b 3], .rx 3 46 0, .add 2 [.b 1], .rx 1 12 2, .add 0 [.b 1], .rx 1 58 0, .add 2 [.b 3], .rx 3 22 2, .add 0 [.b 3], .rx 3 32 0, .add 2 [.b 1], .rx 1 32 2,
  .add 1 [.k 2, .t 0], .add 0 [.b 1, .k 1], .rx 1 14 0, .add 3 [.k 4, .c 6], .add 2 [.b 3, .k 3, .t 1], .rx 3 16 2, .add 0 [.b 3], .rx 3 52 0, .add 2 [.b 1], .rx 1 57 2,
  .add 0 [.b 1], .rx 1 23 0, .add 2 [.b 3], .rx 3 40 2, .add 0 [.b 3], .rx 3 5 0, .add 2 [.b 1], .rx 1 37 2, .add 1 [.k 3, .t 1], .add 0 [.b 1, .k 2], .rx 1 25 0,
  .add 3 [.k 0, .c 7], .add 2 [.b 3, .k 4, .t 2], .rx 3 33 2, .add 0 [.b 3], .rx 3 46 0, .add 2 [.b 1], .rx 1 12 2, .add 0 [.b 1], .rx 1 58 0, .add 2 [.b 3], .rx 3 22 2,
  .add 0 [.b 3], .rx 3 32 0, .add 2 [.b 1], .rx 1 32 2, .add 1 [.k 4, .t 2], .add 0 [.b 1, .k 3], .rx 1 14 0, .add 3 [.k 1, .c 8], .add 2 [.b 3, .k 0, .t 0], .rx 3 16 2,
  .add 0 [.b 3], .rx 3 52 0, .add 2 [.b 1], .rx 1 57 2, .add 0 [.b 1], .rx 1 23 0, .add 2 [.b 3], .rx 3 40 2, .add 0 [.b 3], .rx 3 5 0, .add 2 [.b 1], .rx 1 37 2,
  .add 1 [.k 0, .t 0], .add 0 [.b 1, .k 4], .rx 1 25 0, .add 3 [.k 2, .c 9], .add 2 [.b 3, .k 1, .t 1], .rx 3 33 2, .add 0 [.b 3], .rx 3 46 0, .add 2 [.b 1], .rx 1 12 2,
  .add 0 [.b 1], .rx 1 58 0, .add 2 [.b 3], .rx 3 22 2, .add 0 [.b 3], .rx 3 32 0, .add 2 [.b 1], .rx 1 32 2, .add 1 [.k 1, .t 1], .add 0 [.b 1, .k 0], .rx 1 14 0,
  .add 3 [.k 3, .c 10], .add 2 [.b 3, .k 2, .t 2], .rx 3 16 2, .add 0 [.b 3], .rx 3 52 0, .add 2 [.b 1], .rx 1 57 2, .add 0 [.b 1], .rx 1 23 0, .add 2 [.b 3],
  .rx 3 40 2, .add 0 [.b 3], .rx 3 5 0, .add 2 [.b 1], .rx 1 37 2, .add 1 [.k 2, .t 2], .add 0 [.b 1, .k 1], .rx 1 25 0, .add 3 [.k 4, .c 11], .add 2 [.b 3, .k 3, .t 0],
  .rx 3 33 2, .add 0 [.b 3], .rx 3 46 0, .add 2 [.b 1], .rx 1 12 2, .add 0 [.b 1], .rx 1 58 0, .add 2 [.b 3], .rx 3 22 2, .add 0 [.b 3], .rx 3 32 0, .add 2 [.b 1],
  .rx 1 32 2, .add 1 [.k 3, .t 0], .add 0 [.b 1, .k 2], .rx 1 14 0, .add 3 [.k 0, .c 12], .add 2 [.b 3, .k 4, .t 1], .rx 3 16 2, .add 0 [.b 3], .rx 3 52 0,
  .add 2 [.b 1], .rx 1 57 2, .add 0 [.b 1], .rx 1 23 0, .add 2 [.b 3], .rx 3 40 2, .add 0 [.b 3], .rx 3 5 0, .add 2 [.b 1], .rx 1 37 2, .add 1 [.k 4, .t 1],
  .add 0 [.b 1, .k 3], .rx 1 25 0, .add 3 [.k 1, .c 13], .add 2 [.b 3, .k 0, .t 2], .rx 3 33 2, .add 0 [.b 3], .rx 3 46 0, .add 2 [.b 1], .rx 1 12 2, .add 0 [.b 1],
  .rx 1 58 0, .add 2 [.b 3], .rx 3 22 2, .add 0 [.b 3], .rx 3 32 0, .add 2 [.b 1], .rx 1 32 2, .add 1 [.k 0, .t 2], .add 0 [.b 1, .k 4], .rx 1 14 0,
  .add 3 [.k 2, .c 14], .add 2 [.b 3, .k 1, .t 0], .rx 3 16 2, .add 0 [.b 3], .rx 3 52 0, .add 2 [.b 1], .rx 1 57 2, .add 0 [.b 1], .rx 1 23 0, .add 2 [.b 3],
  .rx 3 40 2, .add 0 [.b 3], .rx 3 5 0, .add 2 [.b 1], .rx 1 37 2, .add 1 [.k 1, .t 0], .add 0 [.b 1, .k 0], .rx 1 25 0, .add 3 [.k 3, .c 15], .add 2 [.b 3, .k 2, .t 1],
  .rx 3 33 2, .add 0 [.b 3], .rx 3 46 0, .add 2 [.b 1], .rx 1 12 2, .add 0 [.b 1], .rx 1 58 0, .add 2 [.b 3], .rx 3 22 2, .add 0 [.b 3], .rx 3 32 0, .add 2 [.b 1],
  .rx 1 32 2, .add 1 [.k 2, .t 1], .add 0 [.b 1, .k 1], .rx 1 14 0, .add 3 [.k 4, .c 16], .add 2 [.b 3, .k 3, .t 2], .rx 3 16 2, .add 0 [.b 3], .rx 3 52 0,
  .add 2 [.b 1], .rx 1 57 2, .add 0 [.b 1], .rx 1 23 0, .add 2 [.b 3], .rx 3 40 2, .add 0 [.b 3], .rx 3 5 0, .add 2 [.b 1], .rx 1 37 2, .add 1 [.k 3, .t 2],
  .add 0 [.b 1, .k 2], .rx 1 25 0, .add 3 [.k 0, .c 17], .add 2 [.b 3, .k 4, .t 0], .rx 3 33 2, .add 0 [.b 3], .rx 3 46 0, .add 2 [.b 1], .rx 1 12 2, .add 0 [.b 1],
  .rx 1 58 0, .add 2 [.b 3], .rx 3 22 2, .add 0 [.b 3], .rx 3 32 0, .add 2 [.b 1], .rx 1 32 2]

/-- `Skein::PemuteR72P256U` (Skein.h:154-523). -/
def skein256 : Prog where
  body := skein256_0
  fin := [[.k 3], [.k 4, .t 0], [.k 0, .t 1], [.k 1, .c 18]]

/-- `Skein::PemuteR72P512U` (Skein.h:676-1389), the statements of lines 721-1051. -/
def skein512_0 : List Stmt := [
  .add 1 [.k 1], .add 0 [.b 1, .k 0], .rx 1 46 0, .add 3 [.k 3], .add 2 [.b 3, .k 2], .rx 3 36 2, .add 5 [.k 5, .t 0], .add 4 [.b 5, .k 4], .rx 5 19 4, .add 7 [.k 7],
  .add 6 [.b 7, .k 6, .t 1], .rx 7 37 6, .add 2 [.b 1], .rx 1 33 2, .add 4 [.b 7], .rx 7 27 4, .add 6 [.b 5], .rx 5 14 6, .add 0 [.b 3], .rx 3 42 0, .add 4 [.b 1],
  .rx 1 17 4, .add 6 [.b 3], .rx 3 49 6, .add 0 [.b 5], .rx 5 36 0, .add 2 [.b 7], .rx 7 39 2, .add 6 [.b 1], .rx 1 44 6, .add 0 [.b 7], .rx 7 9 0, .add 2 [.b 5],
  .rx 5 54 2, .add 4 [.b 3], .rx 3 56 4, .add 1 [.k 2], .add 0 [.b 1, .k 1], .rx 1 39 0, .add 3 [.k 4], .add 2 [.b 3, .k 3], .rx 3 30 2, .add 5 [.k 6, .t 1],
  .add 4 [.b 5, .k 5], .rx 5 34 4, .add 7 [.k 8, .c 1], .add 6 [.b 7, .k 7, .t 2], .rx 7 24 6, .add 2 [.b 1], .rx 1 13 2, .add 4 [.b 7], .rx 7 50 4, .add 6 [.b 5],
  .rx 5 10 6, .add 0 [.b 3], .rx 3 17 0, .add 4 [.b 1], .rx 1 25 4, .add 6 [.b 3], .rx 3 29 6, .add 0 [.b 5], .rx 5 39 0, .add 2 [.b 7], .rx 7 43 2, .add 6 [.b 1],
  .rx 1 8 6, .add 0 [.b 7], .rx 7 35 0, .add 2 [.b 5], .rx 5 56 2, .add 4 [.b 3], .rx 3 22 4, .add 1 [.k 3], .add 0 [.b 1, .k 2], .rx 1 46 0, .add 3 [.k 5],
  .add 2 [.b 3, .k 4], .rx 3 36 2, .add 5 [.k 7, .t 2], .add 4 [.b 5, .k 6], .rx 5 19 4, .add 7 [.k 0, .c 2], .add 6 [.b 7, .k 8, .t 0], .rx 7 37 6, .add 2 [.b 1],
  .rx 1 33 2, .add 4 [.b 7], .rx 7 27 4, .add 6 [.b 5], .rx 5 14 6, .add 0 [.b 3], .rx 3 42 0, .add 4 [.b 1], .rx 1 17 4, .add 6 [.b 3], .rx 3 49 6, .add 0 [.b 5],
  .rx 5 36 0, .add 2 [.b 7], .rx 7 39 2, .add 6 [.b 1], .rx 1 44 6, .add 0 [.b 7], .rx 7 9 0, .add 2 [.b 5], .rx 5 54 2, .add 4 [.b 3], .rx 3 56 4, .add 1 [.k 4],
  .add 0 [.b 1, .k 3], .rx 1 39 0, .add 3 [.k 6], .add 2 [.b 3, .k 5], .rx 3 30 2, .add 5 [.k 8, .t 0], .add 4 [.b 5, .k 7], .rx 5 34 4, .add 7 [.k 1, .c 3],
  .add 6 [.b 7, .k 0, .t 1], .rx 7 24 6, .add 2 [.b 1], .rx 1 13 2, .add 4 [.b 7], .rx 7 50 4, .add 6 [.b 5], .rx 5 10 6, .add 0 [.b 3], .rx 3 17 0, .add 4 [.b 1],
  .rx 1 25 4, .add 6 [.b 3], .rx 3 29 6, .add 0 [.b 5], .rx 5 39 0, .add 2 [.b 7], .rx 7 43 2, .add 6 [.b 1], .rx 1 8 6, .add 0 [.b 7], .rx 7 35 0, .add 2 [.b 5],
  .rx 5 56 2, .add 4 [.b 3], .rx 3 22 4, .add 1 [.k 5], .add 0 [.b 1, .k 4], .rx 1 46 0, .add 3 [.k 7], .add 2 [.b 3, .k 6], .rx 3 36 2, .add 5 [.k 0, .t 1],
  .add 4 [.b 5, .k 8], .rx 5 19 4, .add 7 [.k 2, .c 4], .add 6 [.b 7, .k 1, .t 2], .rx 7 37 6, .add 2 [.b 1], .rx 1 33 2, .add 4 [.b 7], .rx 7 27 4, .add 6 [.b 5],
  .rx 5 14 6, .add 0 [.b 3], .rx 3 42 0, .add 4 [.b 1], .rx 1 17 4, .add 6 [.b 3], .rx 3 49 6, .add 0 [.b 5], .rx 5 36 0, .add 2 [.b 7], .rx 7 39 2, .add 6 [.b 1],
  .rx 1 44 6, .add 0 [.b 7], .rx 7 9 0, .add 2 [.b 5], .rx 5 54 2, .add 4 [.b 3], .rx 3 56 4, .add 1 [.k 6], .add 0 [.b 1, .k 5], .rx 1 39 0, .add 3 [.k 8],
  .add 2 [.b 3, .k 7], .rx 3 30 2, .add 5 [.k 1, .t 2], .add 4 [.b 5, .k 0], .rx 5 34 4, .add 7 [.k 3, .c 5], .add 6 [.b 7, .k 2, .t 0], .rx 7 24 6, .add 2 [.b 1],
  .rx 1 13 2, .add 4 [.b 7], .rx 7 50 4, .add 6 [.b 5], .rx 5 10 6, .add 0 [.b 3], .rx 3 17 0, .add 4 [.b 1], .rx 1 25 4, .add 6 [.b 3], .rx 3 29 6, .add 0 [.b 5],
  .rx 5 39 0, .add 2 [.b 7], .rx 7 43 2, .add 6 [.b 1], .rx 1 8 6, .add 0 [.b 7], .rx 7 35 0, .add 2 [.b 5], .rx 5 56 2, .add 4 [.b 3], .rx 3 22 4, .add 1 [.k 7],
  .add 0 [.b 1, .k 6], .rx 1 46 0, .add 3 [.k 0], .add 2 [.b 3, .k 8], .rx 3 36 2, .add 5 [.k 2, .t 0], .add 4 [.b 5, .k 1], .rx 5 19 4, .add 7 [.k 4, .c 6],
  .add 6 [.b 7, .k 3, .t 1], .rx 7 37 6, .add 2 [.b 1], .rx 1 33 2, .add 4 [.b 7], .rx 7 27 4, .add 6 [.b 5], .rx 5 14 6, .add 0 [.b 3], .rx 3 42 0, .add 4 [.b 1],
  .rx 1 17 4, .add 6 [.b 3], .rx 3 49 6, .add 0 [.b 5], .rx 5 36 0, .add 2 [.b 7], .rx 7 39 2, .add 6 [.b 1], .rx 1 44 6, .add 0 [.b 7], .rx 7 9 0, .add 2 [.b 5],
  .rx 5 54 2, .add 4 [.b 3], .rx 3 56 4, .add 1 [.k 8], .add 0 [.b 1, .k 7], .rx 1 39 0, .add 3 [.k 1], .add 2 [.b 3, .k 0], .rx 3 30 2, .add 5 [.k 3, .t 1],
  .add 4 [.b 5, .k 2], .rx 5 34 4, .add 7 [.k 5, .c 7], .add 6 [.b 7, .k 4, .t 2], .rx 7 24 6, .add 2 [.b 1], .rx 1 13 2, .add 4 [.b 7], .rx 7 50 4, .add 6 [.b 5],
  .rx 5 10 6, .add 0 [.b 3], .rx 3 17 0, .add 4 [.b 1], .rx 1 25 4, .add 6 [.b 3], .rx 3 29 6, .add 0 [.b 5], .rx 5 39 0, .add 2 [.b 7], .rx 7 43 2, .add 6 [.b 1],
  .rx 1 8 6, .add 0 [.b 7], .rx 7 35 0, .add 2 [.b 5], .rx 5 56 2, .add 4 [.b 3], .rx 3 22 4, .add 1 [.k 0], .add 0 [.b 1, .k 8], .rx 1 46 0, .add 3 [.k 2],
  .add 2 [.b 3, .k 1], .rx 3 36 2, .add 5 [.k 4, .t 2], .add 4 [.b 5, .k 3], .rx 5 19 4, .add 7 [.k 6, .c 8], .add 6 [.b 7, .k 5, .t 0], .rx 7 37 6, .add 2 [.b 1],
  .rx 1 33 2, .add 4 [.b 7], .rx 7 27 4, .add 6 [.b 5], .rx 5 14 6, .add 0 [.b 3], .rx 3 42 0, .add 4 [.b 1], .rx 1 17 4, .add 6 [.b 3], .rx 3 49 6, .add 0 [.b 5],
  .rx 5 36 0, .add 2 [.b 7], .rx 7 39 2, .add 6 [.b 1], .rx 1 44 6, .add 0 [.b 7], .rx 7 9 0, .add 2 [.b 5], .rx 5 54 2, .add 4 [.b 3], .rx 3 56 4]

/-- `Skein::PemuteR72P512U` (Skein.h:676-1389), the statements of lines 1052-1379. -/
def skein512_1 : List Stmt := [
  .add 1 [.k 1], .add 0 [.b 1, .k 0], .rx 1 39 0, .add 3 [.k 3], .add 2 [.b 3, .k 2], .rx 3 30 2, .add 5 [.k 5, .t 0], .add 4 [.b 5, .k 4], .rx 5 34 4,
  .add 7 [.k 7, .c 9], .add 6 [.b 7, .k 6, .t 1], .rx 7 24 6, .add 2 [.b 1], .rx 1 13 2, .add 4 [.b 7], .rx 7 50 4, .add 6 [.b 5], .rx 5 10 6, .add 0 [.b 3], .rx 3 17 0,
  .add 4 [.b 1], .rx 1 25 4, .add 6 [.b 3], .rx 3 29 6, .add 0 [.b 5], .rx 5 39 0, .add 2 [.b 7], .rx 7 43 2, .add 6 [.b 1], .rx 1 8 6, .add 0 [.b 7], .rx 7 35 0,
  .add 2 [.b 5], .rx 5 56 2, .add 4 [.b 3], .rx 3 22 4, .add 1 [.k 2], .add 0 [.b 1, .k 1], .rx 1 46 0, .add 3 [.k 4], .add 2 [.b 3, .k 3], .rx 3 36 2,
  .add 5 [.k 6, .t 1], .add 4 [.b 5, .k 5], .rx 5 19 4, .add 7 [.k 8, .c 10], .add 6 [.b 7, .k 7, .t 2], .rx 7 37 6, .add 2 [.b 1], .rx 1 33 2, .add 4 [.b 7],
  .rx 7 27 4, .add 6 [.b 5], .rx 5 14 6, .add 0 [.b 3], .rx 3 42 0, .add 4 [.b 1], .rx 1 17 4, .add 6 [.b 3], .rx 3 49 6, .add 0 [.b 5], .rx 5 36 0, .add 2 [.b 7],
  .rx 7 39 2, .add 6 [.b 1], .rx 1 44 6, .add 0 [.b 7], .rx 7 9 0, .add 2 [.b 5], .rx 5 54 2, .add 4 [.b 3], .rx 3 56 4, .add 1 [.k 3], .add 0 [.b 1, .k 2], .rx 1 39 0,
  .add 3 [.k 5], .add 2 [.b 3, .k 4], .rx 3 30 2, .add 5 [.k 7, .t 2], .add 4 [.b 5, .k 6], .rx 5 34 4, .add 7 [.k 0, .c 11], .add 6 [.b 7, .k 8, .t 0], .rx 7 24 6,
  .add 2 [.b 1], .rx 1 13 2, .add 4 [.b 7], .rx 7 50 4, .add 6 [.b 5], .rx 5 10 6, .add 0 [.b 3], .rx 3 17 0, .add 4 [.b 1], .rx 1 25 4, .add 6 [.b 3], .rx 3 29 6,
  .add 0 [.b 5], .rx 5 39 0, .add 2 [.b 7], .rx 7 43 2, .add 6 [.b 1], .rx 1 8 6, .add 0 [.b 7], .rx 7 35 0, .add 2 [.b 5], .rx 5 56 2, .add 4 [.b 3], .rx 3 22 4,
  .add 1 [.k 4], .add 0 [.b 1, .k 3], .rx 1 46 0, .add 3 [.k 6], .add 2 [.b 3, .k 5], .rx 3 36 2, .add 5 [.k 8, .t 0], .add 4 [.b 5, .k 7], .rx 5 19 4,
  .add 7 [.k 1, .c 12], .add 6 [.b 7, .k 0, .t 1], .rx 7 37 6, .add 2 [.b 1], .rx 1 33 2, .add 4 [.b 7], .rx 7 27 4, .add 6 [.b 5], .rx 5 14 6, .add 0 [.b 3],
  .rx 3 42 0, .add 4 [.b 1], .rx 1 17 4, .add 6 [.b 3], .rx 3 49 6, .add 0 [.b 5], .rx 5 36 0, .add 2 [.b 7], .rx 7 39 2, .add 6 [.b 1], .rx 1 44 6, .add 0 [.b 7],
  .rx 7 9 0, .add 2 [.b 5], .rx 5 54 2, .add 4 [.b 3], .rx 3 56 4, .add 1 [.k 5], .add 0 [.b 1, .k 4], .rx 1 39 0, .add 3 [.k 7], .add 2 [.b 3, .k 6], .rx 3 30 2,
  .add 5 [.k 0, .t 1], .add 4 [.b 5, .k 8], .rx 5 34 4, .add 7 [.k 2, .c 13], .add 6 [.b 7, .k 1, .t 2], .rx 7 24 6, .add 2 [.b 1], .rx 1 13 2, .add 4 [.b 7],
  .rx 7 50 4, .add 6 [.b 5], .rx 5 10 6, .add 0 [.b 3], .rx 3 17 0, .add 4 [.b 1], .rx 1 25 4, .add 6 [.b 3], .rx 3 29 6, .add 0 [.b 5], .rx 5 39 0, .add 2 [.b 7],
  .rx 7 43 2, .add 6 [.b 1], .rx 1 8 6, .add 0 [.b 7], .rx 7 35 0, .add 2 [.b 5], .rx 5 56 2, .add 4 [.b 3], .rx 3 22 4, .add 1 [.k 6], .add 0 [.b 1, .k 5], .rx 1 46 0,
  .add 3 [.k 8], .add 2 [.b 3, .k 7], .rx 3 36 2, .add 5 [.k 1, .t 2], .add 4 [.b 5, .k 0], .rx 5 19 4, .add 7 [.k 3, .c 14], .add 6 [.b 7, .k 2, .t 0], .rx 7 37 6,
  .add 2 [.b 1], .rx 1 33 2, .add 4 [.b 7], .rx 7 27 4, .add 6 [.b 5], .rx 5 14 6, .add 0 [.b 3], .rx 3 42 0, .add 4 [.b 1], .rx 1 17 4, .add 6 [.b 3], .rx 3 49 6,
  .add 0 [.b 5], .rx 5 36 0, .add 2 [.b 7], .rx 7 39 2, .add 6 [.b 1], .rx 1 44 6, .add 0 [.b 7], .rx 7 9 0, .add 2 [.b 5], .rx 5 54 2, .add 4 [.b 3], .rx 3 56 4,
  .add 1 [.k 7], .add 0 [.b 1, .k 6], .rx 1 39 0, .add 3 [.k 0], .add 2 [.b 3, .k 8], .rx 3 30 2, .add 5 [.k 2, .t 0], .add 4 [.b 5, .k 1], .rx 5 34 4,
  .add 7 [.k 4, .c 15], .add 6 [.b 7, .k 3, .t 1], .rx 7 24 6, .add 2 [.b 1], .rx 1 13 2, .add 4 [.b 7], .rx 7 50 4, .add 6 [.b 5], .rx 5 10 6, .add 0 [.b 3],
  .rx 3 17 0, .add 4 [.b 1], .rx 1 25 4, .add 6 [.b 3], .rx 3 29 6, .add 0 [.b 5], .rx 5 39 0, .add 2 [.b 7], .rx 7 43 2, .add 6 [.b 1], .rx 1 8 6, .add 0 [.b 7],
  .rx 7 35 0, .add 2 [.b 5], .rx 5 56 2, .add 4 [.b 3], .rx 3 22 4, .add 1 [.k 8], .add 0 [.b 1, .k 7], .rx 1 46 0, .add 3 [.k 1], .add 2 [.b 3, .k 0], .rx 3 36 2,
  .add 5 [.k 3, .t 1], .add 4 [.b 5, .k 2], .rx 5 19 4, .add 7 [.k 5, .c 16], .add 6 [.b 7, .k 4, .t 2], .rx 7 37 6, .add 2 [.b 1], .rx 1 33 2, .add 4 [.b 7],
  .rx 7 27 4, .add 6 [.b 5], .rx 5 14 6, .add 0 [.b 3], .rx 3 42 0, .add 4 [.b 1], .rx 1 17 4, .add 6 [.b 3], .rx 3 49 6, .add 0 [.b 5], .rx 5 36 0, .add 2 [.b 7],
  .rx 7 39 2, .add 6 [.b 1], .rx 1 44 6, .add 0 [.b 7], .rx 7 9 0, .add 2 [.b 5], .rx 5 54 2, .add 4 [.b 3], .rx 3 56 4, .add 1 [.k 0], .add 0 [.b 1, .k 8], .rx 1 39 0,
  .add 3 [.k 2], .add 2 [.b 3, .k 1], .rx 3 30 2, .add 5 [.k 4, .t 2], .add 4 [.b 5, .k 3], .rx 5 34 4, .add 7 [.k 6, .c 17], .add 6 [.b 7, .k 5, .t 0], .rx 7 24 6,
  .add 2 [.b 1], .rx 1 13 2, .add 4 [.b 7], .rx 7 50 4, .add 6 [.b 5], .rx 5 10 6, .add 0 [.b 3], .rx 3 17 0, .add 4 [.b 1], .rx 1 25 4, .add 6 [.b 3], .rx 3 29 6,
  .add 0 [.b 5], .rx 5 39 0, .add 2 [.b 7], .rx 7 43 2, .add 6 [.b 1], .rx 1 8 6, .add 0 [.b 7], .rx 7 35 0, .add 2 [.b 5], .rx 5 56 2, .add 4 [.b 3], .rx 3 22 4]

/-- `Skein::PemuteR72P512U` (Skein.h:676-1389). -/
def skein512 : Prog where
  body := skein512_0 ++ (skein512_1)
  fin := [[.k 0], [.k 1], [.k 2], [.k 3], [.k 4], [.k 5, .t 0], [.k 6, .t 1], [.k 7, .c 18]]

/-- `Skein::PemuteR80P1024U` (Skein.h:3225-4772), the statements of lines 3303-3667. -/
def skein1024_0 : List Stmt := [
  .add 1 [.k 1], .add 0 [.b 1, .k 0], .rx 1 24 0, .add 3 [.k 3], .add 2 [.b 3, .k 2], .rx 3 13 2, .add 5 [.k 5], .add 4 [.b 5, .k 4], .rx 5 8 4, .add 7 [.k 7],
  .add 6 [.b 7, .k 6], .rx 7 47 6, .add 9 [.k 9], .add 8 [.b 9, .k 8], .rx 9 8 8, .add 11 [.k 11], .add 10 [.b 11, .k 10], .rx 11 17 10, .add 13 [.k 13, .t 0],
  .add 12 [.b 13, .k 12], .rx 13 22 12, .add 15 [.k 15], .add 14 [.b 15, .k 14, .t 1], .rx 15 37 14, .add 0 [.b 9], .rx 9 38 0, .add 2 [.b 13], .rx 13 19 2,
  .add 6 [.b 11], .rx 11 10 6, .add 4 [.b 15], .rx 15 55 4, .add 10 [.b 7], .rx 7 49 10, .add 12 [.b 3], .rx 3 18 12, .add 14 [.b 5], .rx 5 23 14, .add 8 [.b 1],
  .rx 1 52 8, .add 0 [.b 7], .rx 7 33 0, .add 2 [.b 5], .rx 5 4 2, .add 4 [.b 3], .rx 3 51 4, .add 6 [.b 1], .rx 1 13 6, .add 12 [.b 15], .rx 15 34 12, .add 14 [.b 13],
  .rx 13 41 14, .add 8 [.b 11], .rx 11 59 8, .add 10 [.b 9], .rx 9 17 10, .add 0 [.b 15], .rx 15 5 0, .add 2 [.b 11], .rx 11 20 2, .add 6 [.b 13], .rx 13 48 6,
  .add 4 [.b 9], .rx 9 41 4, .add 14 [.b 1], .rx 1 47 14, .add 8 [.b 5], .rx 5 28 8, .add 10 [.b 3], .rx 3 16 10, .add 12 [.b 7], .rx 7 25 12, .add 1 [.k 2],
  .add 0 [.b 1, .k 1], .rx 1 41 0, .add 3 [.k 4], .add 2 [.b 3, .k 3], .rx 3 9 2, .add 5 [.k 6], .add 4 [.b 5, .k 5], .rx 5 37 4, .add 7 [.k 8], .add 6 [.b 7, .k 7],
  .rx 7 31 6, .add 9 [.k 10], .add 8 [.b 9, .k 9], .rx 9 12 8, .add 11 [.k 12], .add 10 [.b 11, .k 11], .rx 11 47 10, .add 13 [.k 14, .t 1], .add 12 [.b 13, .k 13],
  .rx 13 44 12, .add 15 [.k 16, .c 1], .add 14 [.b 15, .k 15, .t 2], .rx 15 30 14, .add 0 [.b 9], .rx 9 16 0, .add 2 [.b 13], .rx 13 34 2, .add 6 [.b 11], .rx 11 56 6,
  .add 4 [.b 15], .rx 15 51 4, .add 10 [.b 7], .rx 7 4 10, .add 12 [.b 3], .rx 3 53 12, .add 14 [.b 5], .rx 5 42 14, .add 8 [.b 1], .rx 1 41 8, .add 0 [.b 7],
  .rx 7 31 0, .add 2 [.b 5], .rx 5 44 2, .add 4 [.b 3], .rx 3 47 4, .add 6 [.b 1], .rx 1 46 6, .add 12 [.b 15], .rx 15 19 12, .add 14 [.b 13], .rx 13 42 14,
  .add 8 [.b 11], .rx 11 44 8, .add 10 [.b 9], .rx 9 25 10, .add 0 [.b 15], .rx 15 9 0, .add 2 [.b 11], .rx 11 48 2, .add 6 [.b 13], .rx 13 35 6, .add 4 [.b 9],
  .rx 9 52 4, .add 14 [.b 1], .rx 1 23 14, .add 8 [.b 5], .rx 5 31 8, .add 10 [.b 3], .rx 3 37 10, .add 12 [.b 7], .rx 7 20 12, .add 1 [.k 3], .add 0 [.b 1, .k 2],
  .rx 1 24 0, .add 3 [.k 5], .add 2 [.b 3, .k 4], .rx 3 13 2, .add 5 [.k 7], .add 4 [.b 5, .k 6], .rx 5 8 4, .add 7 [.k 9], .add 6 [.b 7, .k 8], .rx 7 47 6,
  .add 9 [.k 11], .add 8 [.b 9, .k 10], .rx 9 8 8, .add 11 [.k 13], .add 10 [.b 11, .k 12], .rx 11 17 10, .add 13 [.k 15, .t 2], .add 12 [.b 13, .k 14], .rx 13 22 12,
  .add 15 [.k 0, .c 2], .add 14 [.b 15, .k 16, .t 0], .rx 15 37 14, .add 0 [.b 9], .rx 9 38 0, .add 2 [.b 13], .rx 13 19 2, .add 6 [.b 11], .rx 11 10 6, .add 4 [.b 15],
  .rx 15 55 4, .add 10 [.b 7], .rx 7 49 10, .add 12 [.b 3], .rx 3 18 12, .add 14 [.b 5], .rx 5 23 14, .add 8 [.b 1], .rx 1 52 8, .add 0 [.b 7], .rx 7 33 0,
  .add 2 [.b 5], .rx 5 4 2, .add 4 [.b 3], .rx 3 51 4, .add 6 [.b 1], .rx 1 13 6, .add 12 [.b 15], .rx 15 34 12, .add 14 [.b 13], .rx 13 41 14, .add 8 [.b 11],
  .rx 11 59 8, .add 10 [.b 9], .rx 9 17 10, .add 0 [.b 15], .rx 15 5 0, .add 2 [.b 11], .rx 11 20 2, .add 6 [.b 13], .rx 13 48 6, .add 4 [.b 9], .rx 9 41 4,
  .add 14 [.b 1], .rx 1 47 14, .add 8 [.b 5], .rx 5 28 8, .add 10 [.b 3], .rx 3 16 10, .add 12 [.b 7], .rx 7 25 12, .add 1 [.k 4], .add 0 [.b 1, .k 3], .rx 1 41 0,
  .add 3 [.k 6], .add 2 [.b 3, .k 5], .rx 3 9 2, .add 5 [.k 8], .add 4 [.b 5, .k 7], .rx 5 37 4, .add 7 [.k 10], .add 6 [.b 7, .k 9], .rx 7 31 6, .add 9 [.k 12],
  .add 8 [.b 9, .k 11], .rx 9 12 8, .add 11 [.k 14], .add 10 [.b 11, .k 13], .rx 11 47 10, .add 13 [.k 16, .t 0], .add 12 [.b 13, .k 15], .rx 13 44 12,
  .add 15 [.k 1, .c 3], .add 14 [.b 15, .k 0, .t 1], .rx 15 30 14, .add 0 [.b 9], .rx 9 16 0, .add 2 [.b 13], .rx 13 34 2, .add 6 [.b 11], .rx 11 56 6, .add 4 [.b 15],
  .rx 15 51 4, .add 10 [.b 7], .rx 7 4 10, .add 12 [.b 3], .rx 3 53 12, .add 14 [.b 5], .rx 5 42 14, .add 8 [.b 1], .rx 1 41 8, .add 0 [.b 7], .rx 7 31 0, .add 2 [.b 5],
  .rx 5 44 2, .add 4 [.b 3], .rx 3 47 4, .add 6 [.b 1], .rx 1 46 6, .add 12 [.b 15], .rx 15 19 12, .add 14 [.b 13], .rx 13 42 14, .add 8 [.b 11], .rx 11 44 8,
  .add 10 [.b 9], .rx 9 25 10, .add 0 [.b 15], .rx 15 9 0, .add 2 [.b 11], .rx 11 48 2, .add 6 [.b 13], .rx 13 35 6, .add 4 [.b 9], .rx 9 52 4, .add 14 [.b 1],
  .rx 1 23 14, .add 8 [.b 5], .rx 5 31 8, .add 10 [.b 3], .rx 3 37 10, .add 12 [.b 7], .rx 7 20 12, .add 1 [.k 5], .add 0 [.b 1, .k 4], .rx 1 24 0, .add 3 [.k 7],
  .add 2 [.b 3, .k 6], .rx 3 13 2, .add 5 [.k 9], .add 4 [.b 5, .k 8], .rx 5 8 4, .add 7 [.k 11], .add 6 [.b 7, .k 10], .rx 7 47 6, .add 9 [.k 13], .add 8 [.b 9, .k 12],
  .rx 9 8 8, .add 11 [.k 15], .add 10 [.b 11, .k 14], .rx 11 17 10, .add 13 [.k 0, .t 1], .add 12 [.b 13, .k 16], .rx 13 22 12, .add 15 [.k 2, .c 4],
  .add 14 [.b 15, .k 1, .t 2], .rx 15 37 14, .add 0 [.b 9], .rx 9 38 0, .add 2 [.b 13], .rx 13 19 2, .add 6 [.b 11], .rx 11 10 6, .add 4 [.b 15], .rx 15 55 4,
  .add 10 [.b 7], .rx 7 49 10, .add 12 [.b 3], .rx 3 18 12, .add 14 [.b 5], .rx 5 23 14, .add 8 [.b 1], .rx 1 52 8, .add 0 [.b 7], .rx 7 33 0, .add 2 [.b 5], .rx 5 4 2,
  .add 4 [.b 3], .rx 3 51 4, .add 6 [.b 1], .rx 1 13 6, .add 12 [.b 15], .rx 15 34 12, .add 14 [.b 13], .rx 13 41 14, .add 8 [.b 11], .rx 11 59 8, .add 10 [.b 9],
  .rx 9 17 10, .add 0 [.b 15], .rx 15 5 0, .add 2 [.b 11], .rx 11 20 2, .add 6 [.b 13], .rx 13 48 6, .add 4 [.b 9], .rx 9 41 4, .add 14 [.b 1], .rx 1 47 14,
  .add 8 [.b 5], .rx 5 28 8, .add 10 [.b 3], .rx 3 16 10, .add 12 [.b 7], .rx 7 25 12]

/-- `Skein::PemuteR80P1024U` (Skein.h:3225-4772), the statements of lines 3668-4029. -/
def skein1024_1 : List Stmt := [
  .add 1 [.k 6], .add 0 [.b 1, .k 5], .rx 1 41 0, .add 3 [.k 8], .add 2 [.b 3, .k 7], .rx 3 9 2, .add 5 [.k 10], .add 4 [.b 5, .k 9], .rx 5 37 4, .add 7 [.k 12],
  .add 6 [.b 7, .k 11], .rx 7 31 6, .add 9 [.k 14], .add 8 [.b 9, .k 13], .rx 9 12 8, .add 11 [.k 16], .add 10 [.b 11, .k 15], .rx 11 47 10, .add 13 [.k 1, .t 2],
  .add 12 [.b 13, .k 0], .rx 13 44 12, .add 15 [.k 3, .c 5], .add 14 [.b 15, .k 2, .t 0], .rx 15 30 14, .add 0 [.b 9], .rx 9 16 0, .add 2 [.b 13], .rx 13 34 2,
  .add 6 [.b 11], .rx 11 56 6, .add 4 [.b 15], .rx 15 51 4, .add 10 [.b 7], .rx 7 4 10, .add 12 [.b 3], .rx 3 53 12, .add 14 [.b 5], .rx 5 42 14, .add 8 [.b 1],
  .rx 1 41 8, .add 0 [.b 7], .rx 7 31 0, .add 2 [.b 5], .rx 5 44 2, .add 4 [.b 3], .rx 3 47 4, .add 6 [.b 1], .rx 1 46 6, .add 12 [.b 15], .rx 15 19 12, .add 14 [.b 13],
  .rx 13 42 14, .add 8 [.b 11], .rx 11 44 8, .add 10 [.b 9], .rx 9 25 10, .add 0 [.b 15], .rx 15 9 0, .add 2 [.b 11], .rx 11 48 2, .add 6 [.b 13], .rx 13 35 6,
  .add 4 [.b 9], .rx 9 52 4, .add 14 [.b 1], .rx 1 23 14, .add 8 [.b 5], .rx 5 31 8, .add 10 [.b 3], .rx 3 37 10, .add 12 [.b 7], .rx 7 20 12, .add 1 [.k 7],
  .add 0 [.b 1, .k 6], .rx 1 24 0, .add 3 [.k 9], .add 2 [.b 3, .k 8], .rx 3 13 2, .add 5 [.k 11], .add 4 [.b 5, .k 10], .rx 5 8 4, .add 7 [.k 13], .add 6 [.b 7, .k 12],
  .rx 7 47 6, .add 9 [.k 15], .add 8 [.b 9, .k 14], .rx 9 8 8, .add 11 [.k 0], .add 10 [.b 11, .k 16], .rx 11 17 10, .add 13 [.k 2, .t 0], .add 12 [.b 13, .k 1],
  .rx 13 22 12, .add 15 [.k 4, .c 6], .add 14 [.b 15, .k 3, .t 1], .rx 15 37 14, .add 0 [.b 9], .rx 9 38 0, .add 2 [.b 13], .rx 13 19 2, .add 6 [.b 11], .rx 11 10 6,
  .add 4 [.b 15], .rx 15 55 4, .add 10 [.b 7], .rx 7 49 10, .add 12 [.b 3], .rx 3 18 12, .add 14 [.b 5], .rx 5 23 14, .add 8 [.b 1], .rx 1 52 8, .add 0 [.b 7],
  .rx 7 33 0, .add 2 [.b 5], .rx 5 4 2, .add 4 [.b 3], .rx 3 51 4, .add 6 [.b 1], .rx 1 13 6, .add 12 [.b 15], .rx 15 34 12, .add 14 [.b 13], .rx 13 41 14,
  .add 8 [.b 11], .rx 11 59 8, .add 10 [.b 9], .rx 9 17 10, .add 0 [.b 15], .rx 15 5 0, .add 2 [.b 11], .rx 11 20 2, .add 6 [.b 13], .rx 13 48 6, .add 4 [.b 9],
  .rx 9 41 4, .add 14 [.b 1], .rx 1 47 14, .add 8 [.b 5], .rx 5 28 8, .add 10 [.b 3], .rx 3 16 10, .add 12 [.b 7], .rx 7 25 12, .add 1 [.k 8], .add 0 [.b 1, .k 7],
  .rx 1 41 0, .add 3 [.k 10], .add 2 [.b 3, .k 9], .rx 3 9 2, .add 5 [.k 12], .add 4 [.b 5, .k 11], .rx 5 37 4, .add 7 [.k 14], .add 6 [.b 7, .k 13], .rx 7 31 6,
  .add 9 [.k 16], .add 8 [.b 9, .k 15], .rx 9 12 8, .add 11 [.k 1], .add 10 [.b 11, .k 0], .rx 11 47 10, .add 13 [.k 3, .t 1], .add 12 [.b 13, .k 2], .rx 13 44 12,
  .add 15 [.k 5, .c 7], .add 14 [.b 15, .k 4, .t 2], .rx 15 30 14, .add 0 [.b 9], .rx 9 16 0, .add 2 [.b 13], .rx 13 34 2, .add 6 [.b 11], .rx 11 56 6, .add 4 [.b 15],
  .rx 15 51 4, .add 10 [.b 7], .rx 7 4 10, .add 12 [.b 3], .rx 3 53 12, .add 14 [.b 5], .rx 5 42 14, .add 8 [.b 1], .rx 1 41 8, .add 0 [.b 7], .rx 7 31 0, .add 2 [.b 5],
  .rx 5 44 2, .add 4 [.b 3], .rx 3 47 4, .add 6 [.b 1], .rx 1 46 6, .add 12 [.b 15], .rx 15 19 12, .add 14 [.b 13], .rx 13 42 14, .add 8 [.b 11], .rx 11 44 8,
  .add 10 [.b 9], .rx 9 25 10, .add 0 [.b 15], .rx 15 9 0, .add 2 [.b 11], .rx 11 48 2, .add 6 [.b 13], .rx 13 35 6, .add 4 [.b 9], .rx 9 52 4, .add 14 [.b 1],
  .rx 1 23 14, .add 8 [.b 5], .rx 5 31 8, .add 10 [.b 3], .rx 3 37 10, .add 12 [.b 7], .rx 7 20 12, .add 1 [.k 9], .add 0 [.b 1, .k 8], .rx 1 24 0, .add 3 [.k 11],
  .add 2 [.b 3, .k 10], .rx 3 13 2, .add 5 [.k 13], .add 4 [.b 5, .k 12], .rx 5 8 4, .add 7 [.k 15], .add 6 [.b 7, .k 14], .rx 7 47 6, .add 9 [.k 0],
  .add 8 [.b 9, .k 16], .rx 9 8 8, .add 11 [.k 2], .add 10 [.b 11, .k 1], .rx 11 17 10, .add 13 [.k 4, .t 2], .add 12 [.b 13, .k 3], .rx 13 22 12, .add 15 [.k 6, .c 8],
  .add 14 [.b 15, .k 5, .t 0], .rx 15 37 14, .add 0 [.b 9], .rx 9 38 0, .add 2 [.b 13], .rx 13 19 2, .add 6 [.b 11], .rx 11 10 6, .add 4 [.b 15], .rx 15 55 4,
  .add 10 [.b 7], .rx 7 49 10, .add 12 [.b 3], .rx 3 18 12, .add 14 [.b 5], .rx 5 23 14, .add 8 [.b 1], .rx 1 52 8, .add 0 [.b 7], .rx 7 33 0, .add 2 [.b 5], .rx 5 4 2,
  .add 4 [.b 3], .rx 3 51 4, .add 6 [.b 1], .rx 1 13 6, .add 12 [.b 15], .rx 15 34 12, .add 14 [.b 13], .rx 13 41 14, .add 8 [.b 11], .rx 11 59 8, .add 10 [.b 9],
  .rx 9 17 10, .add 0 [.b 15], .rx 15 5 0, .add 2 [.b 11], .rx 11 20 2, .add 6 [.b 13], .rx 13 48 6, .add 4 [.b 9], .rx 9 41 4, .add 14 [.b 1], .rx 1 47 14,
  .add 8 [.b 5], .rx 5 28 8, .add 10 [.b 3], .rx 3 16 10, .add 12 [.b 7], .rx 7 25 12, .add 1 [.k 10], .add 0 [.b 1, .k 9], .rx 1 41 0, .add 3 [.k 12],
  .add 2 [.b 3, .k 11], .rx 3 9 2, .add 5 [.k 14], .add 4 [.b 5, .k 13], .rx 5 37 4, .add 7 [.k 16], .add 6 [.b 7, .k 15], .rx 7 31 6, .add 9 [.k 1],
  .add 8 [.b 9, .k 0], .rx 9 12 8, .add 11 [.k 3], .add 10 [.b 11, .k 2], .rx 11 47 10, .add 13 [.k 5, .t 0], .add 12 [.b 13, .k 4], .rx 13 44 12, .add 15 [.k 7, .c 9],
  .add 14 [.b 15, .k 6, .t 1], .rx 15 30 14, .add 0 [.b 9], .rx 9 16 0, .add 2 [.b 13], .rx 13 34 2, .add 6 [.b 11], .rx 11 56 6, .add 4 [.b 15], .rx 15 51 4,
  .add 10 [.b 7], .rx 7 4 10, .add 12 [.b 3], .rx 3 53 12, .add 14 [.b 5], .rx 5 42 14, .add 8 [.b 1], .rx 1 41 8, .add 0 [.b 7], .rx 7 31 0, .add 2 [.b 5], .rx 5 44 2,
  .add 4 [.b 3], .rx 3 47 4, .add 6 [.b 1], .rx 1 46 6, .add 12 [.b 15], .rx 15 19 12, .add 14 [.b 13], .rx 13 42 14, .add 8 [.b 11], .rx 11 44 8, .add 10 [.b 9],
  .rx 9 25 10, .add 0 [.b 15], .rx 15 9 0, .add 2 [.b 11], .rx 11 48 2, .add 6 [.b 13], .rx 13 35 6, .add 4 [.b 9], .rx 9 52 4, .add 14 [.b 1], .rx 1 23 14,
  .add 8 [.b 5], .rx 5 31 8, .add 10 [.b 3], .rx 3 37 10, .add 12 [.b 7], .rx 7 20 12]

/-- `Skein::PemuteR80P1024U` (Skein.h:3225-4772), the statements of lines 4031-4392. -/
def skein1024_2 : List Stmt := [
  .add 1 [.k 11], .add 0 [.b 1, .k 10], .rx 1 24 0, .add 3 [.k 13], .add 2 [.b 3, .k 12], .rx 3 13 2, .add 5 [.k 15], .add 4 [.b 5, .k 14], .rx 5 8 4, .add 7 [.k 0],
  .add 6 [.b 7, .k 16], .rx 7 47 6, .add 9 [.k 2], .add 8 [.b 9, .k 1], .rx 9 8 8, .add 11 [.k 4], .add 10 [.b 11, .k 3], .rx 11 17 10, .add 13 [.k 6, .t 1],
  .add 12 [.b 13, .k 5], .rx 13 22 12, .add 15 [.k 8, .c 10], .add 14 [.b 15, .k 7, .t 2], .rx 15 37 14, .add 0 [.b 9], .rx 9 38 0, .add 2 [.b 13], .rx 13 19 2,
  .add 6 [.b 11], .rx 11 10 6, .add 4 [.b 15], .rx 15 55 4, .add 10 [.b 7], .rx 7 49 10, .add 12 [.b 3], .rx 3 18 12, .add 14 [.b 5], .rx 5 23 14, .add 8 [.b 1],
  .rx 1 52 8, .add 0 [.b 7], .rx 7 33 0, .add 2 [.b 5], .rx 5 4 2, .add 4 [.b 3], .rx 3 51 4, .add 6 [.b 1], .rx 1 13 6, .add 12 [.b 15], .rx 15 34 12, .add 14 [.b 13],
  .rx 13 41 14, .add 8 [.b 11], .rx 11 59 8, .add 10 [.b 9], .rx 9 17 10, .add 0 [.b 15], .rx 15 5 0, .add 2 [.b 11], .rx 11 20 2, .add 6 [.b 13], .rx 13 48 6,
  .add 4 [.b 9], .rx 9 41 4, .add 14 [.b 1], .rx 1 47 14, .add 8 [.b 5], .rx 5 28 8, .add 10 [.b 3], .rx 3 16 10, .add 12 [.b 7], .rx 7 25 12, .add 1 [.k 12],
  .add 0 [.b 1, .k 11], .rx 1 41 0, .add 3 [.k 14], .add 2 [.b 3, .k 13], .rx 3 9 2, .add 5 [.k 16], .add 4 [.b 5, .k 15], .rx 5 37 4, .add 7 [.k 1],
  .add 6 [.b 7, .k 0], .rx 7 31 6, .add 9 [.k 3], .add 8 [.b 9, .k 2], .rx 9 12 8, .add 11 [.k 5], .add 10 [.b 11, .k 4], .rx 11 47 10, .add 13 [.k 7, .t 2],
  .add 12 [.b 13, .k 6], .rx 13 44 12, .add 15 [.k 9, .c 11], .add 14 [.b 15, .k 8, .t 0], .rx 15 30 14, .add 0 [.b 9], .rx 9 16 0, .add 2 [.b 13], .rx 13 34 2,
  .add 6 [.b 11], .rx 11 56 6, .add 4 [.b 15], .rx 15 51 4, .add 10 [.b 7], .rx 7 4 10, .add 12 [.b 3], .rx 3 53 12, .add 14 [.b 5], .rx 5 42 14, .add 8 [.b 1],
  .rx 1 41 8, .add 0 [.b 7], .rx 7 31 0, .add 2 [.b 5], .rx 5 44 2, .add 4 [.b 3], .rx 3 47 4, .add 6 [.b 1], .rx 1 46 6, .add 12 [.b 15], .rx 15 19 12, .add 14 [.b 13],
  .rx 13 42 14, .add 8 [.b 11], .rx 11 44 8, .add 10 [.b 9], .rx 9 25 10, .add 0 [.b 15], .rx 15 9 0, .add 2 [.b 11], .rx 11 48 2, .add 6 [.b 13], .rx 13 35 6,
  .add 4 [.b 9], .rx 9 52 4, .add 14 [.b 1], .rx 1 23 14, .add 8 [.b 5], .rx 5 31 8, .add 10 [.b 3], .rx 3 37 10, .add 12 [.b 7], .rx 7 20 12, .add 1 [.k 13],
  .add 0 [.b 1, .k 12], .rx 1 24 0, .add 3 [.k 15], .add 2 [.b 3, .k 14], .rx 3 13 2, .add 5 [.k 0], .add 4 [.b 5, .k 16], .rx 5 8 4, .add 7 [.k 2], .add 6 [.b 7, .k 1],
  .rx 7 47 6, .add 9 [.k 4], .add 8 [.b 9, .k 3], .rx 9 8 8, .add 11 [.k 6], .add 10 [.b 11, .k 5], .rx 11 17 10, .add 13 [.k 8, .t 0], .add 12 [.b 13, .k 7],
  .rx 13 22 12, .add 15 [.k 10, .c 12], .add 14 [.b 15, .k 9, .t 1], .rx 15 37 14, .add 0 [.b 9], .rx 9 38 0, .add 2 [.b 13], .rx 13 19 2, .add 6 [.b 11], .rx 11 10 6,
  .add 4 [.b 15], .rx 15 55 4, .add 10 [.b 7], .rx 7 49 10, .add 12 [.b 3], .rx 3 18 12, .add 14 [.b 5], .rx 5 23 14, .add 8 [.b 1], .rx 1 52 8, .add 0 [.b 7],
  .rx 7 33 0, .add 2 [.b 5], .rx 5 4 2, .add 4 [.b 3], .rx 3 51 4, .add 6 [.b 1], .rx 1 13 6, .add 12 [.b 15], .rx 15 34 12, .add 14 [.b 13], .rx 13 41 14,
  .add 8 [.b 11], .rx 11 59 8, .add 10 [.b 9], .rx 9 17 10, .add 0 [.b 15], .rx 15 5 0, .add 2 [.b 11], .rx 11 20 2, .add 6 [.b 13], .rx 13 48 6, .add 4 [.b 9],
  .rx 9 41 4, .add 14 [.b 1], .rx 1 47 14, .add 8 [.b 5], .rx 5 28 8, .add 10 [.b 3], .rx 3 16 10, .add 12 [.b 7], .rx 7 25 12, .add 1 [.k 14], .add 0 [.b 1, .k 13],
  .rx 1 41 0, .add 3 [.k 16], .add 2 [.b 3, .k 15], .rx 3 9 2, .add 5 [.k 1], .add 4 [.b 5, .k 0], .rx 5 37 4, .add 7 [.k 3], .add 6 [.b 7, .k 2], .rx 7 31 6,
  .add 9 [.k 5], .add 8 [.b 9, .k 4], .rx 9 12 8, .add 11 [.k 7], .add 10 [.b 11, .k 6], .rx 11 47 10, .add 13 [.k 9, .t 1], .add 12 [.b 13, .k 8], .rx 13 44 12,
  .add 15 [.k 11, .c 13], .add 14 [.b 15, .k 10, .t 2], .rx 15 30 14, .add 0 [.b 9], .rx 9 16 0, .add 2 [.b 13], .rx 13 34 2, .add 6 [.b 11], .rx 11 56 6,
  .add 4 [.b 15], .rx 15 51 4, .add 10 [.b 7], .rx 7 4 10, .add 12 [.b 3], .rx 3 53 12, .add 14 [.b 5], .rx 5 42 14, .add 8 [.b 1], .rx 1 41 8, .add 0 [.b 7],
  .rx 7 31 0, .add 2 [.b 5], .rx 5 44 2, .add 4 [.b 3], .rx 3 47 4, .add 6 [.b 1], .rx 1 46 6, .add 12 [.b 15], .rx 15 19 12, .add 14 [.b 13], .rx 13 42 14,
  .add 8 [.b 11], .rx 11 44 8, .add 10 [.b 9], .rx 9 25 10, .add 0 [.b 15], .rx 15 9 0, .add 2 [.b 11], .rx 11 48 2, .add 6 [.b 13], .rx 13 35 6, .add 4 [.b 9],
  .rx 9 52 4, .add 14 [.b 1], .rx 1 23 14, .add 8 [.b 5], .rx 5 31 8, .add 10 [.b 3], .rx 3 37 10, .add 12 [.b 7], .rx 7 20 12, .add 1 [.k 15], .add 0 [.b 1, .k 14],
  .rx 1 24 0, .add 3 [.k 0], .add 2 [.b 3, .k 16], .rx 3 13 2, .add 5 [.k 2], .add 4 [.b 5, .k 1], .rx 5 8 4, .add 7 [.k 4], .add 6 [.b 7, .k 3], .rx 7 47 6,
  .add 9 [.k 6], .add 8 [.b 9, .k 5], .rx 9 8 8, .add 11 [.k 8], .add 10 [.b 11, .k 7], .rx 11 17 10, .add 13 [.k 10, .t 2], .add 12 [.b 13, .k 9], .rx 13 22 12,
  .add 15 [.k 12, .c 14], .add 14 [.b 15, .k 11, .t 0], .rx 15 37 14, .add 0 [.b 9], .rx 9 38 0, .add 2 [.b 13], .rx 13 19 2, .add 6 [.b 11], .rx 11 10 6,
  .add 4 [.b 15], .rx 15 55 4, .add 10 [.b 7], .rx 7 49 10, .add 12 [.b 3], .rx 3 18 12, .add 14 [.b 5], .rx 5 23 14, .add 8 [.b 1], .rx 1 52 8, .add 0 [.b 7],
  .rx 7 33 0, .add 2 [.b 5], .rx 5 4 2, .add 4 [.b 3], .rx 3 51 4, .add 6 [.b 1], .rx 1 13 6, .add 12 [.b 15], .rx 15 34 12, .add 14 [.b 13], .rx 13 41 14,
  .add 8 [.b 11], .rx 11 59 8, .add 10 [.b 9], .rx 9 17 10, .add 0 [.b 15], .rx 15 5 0, .add 2 [.b 11], .rx 11 20 2, .add 6 [.b 13], .rx 13 48 6, .add 4 [.b 9],
  .rx 9 41 4, .add 14 [.b 1], .rx 1 47 14, .add 8 [.b 5], .rx 5 28 8, .add 10 [.b 3], .rx 3 16 10, .add 12 [.b 7], .rx 7 25 12]

/-- `Skein::PemuteR80P1024U` (Skein.h:3225-4772), the statements of lines 4393-4754. -/
def skein1024_3 : List Stmt := [
  .add 1 [.k 16], .add 0 [.b 1, .k 15], .rx 1 41 0, .add 3 [.k 1], .add 2 [.b 3, .k 0], .rx 3 9 2, .add 5 [.k 3], .add 4 [.b 5, .k 2], .rx 5 37 4, .add 7 [.k 5],
  .add 6 [.b 7, .k 4], .rx 7 31 6, .add 9 [.k 7], .add 8 [.b 9, .k 6], .rx 9 12 8, .add 11 [.k 9], .add 10 [.b 11, .k 8], .rx 11 47 10, .add 13 [.k 11, .t 0],
  .add 12 [.b 13, .k 10], .rx 13 44 12, .add 15 [.k 13, .c 15], .add 14 [.b 15, .k 12, .t 1], .rx 15 30 14, .add 0 [.b 9], .rx 9 16 0, .add 2 [.b 13], .rx 13 34 2,
  .add 6 [.b 11], .rx 11 56 6, .add 4 [.b 15], .rx 15 51 4, .add 10 [.b 7], .rx 7 4 10, .add 12 [.b 3], .rx 3 53 12, .add 14 [.b 5], .rx 5 42 14, .add 8 [.b 1],
  .rx 1 41 8, .add 0 [.b 7], .rx 7 31 0, .add 2 [.b 5], .rx 5 44 2, .add 4 [.b 3], .rx 3 47 4, .add 6 [.b 1], .rx 1 46 6, .add 12 [.b 15], .rx 15 19 12, .add 14 [.b 13],
  .rx 13 42 14, .add 8 [.b 11], .rx 11 44 8, .add 10 [.b 9], .rx 9 25 10, .add 0 [.b 15], .rx 15 9 0, .add 2 [.b 11], .rx 11 48 2, .add 6 [.b 13], .rx 13 35 6,
  .add 4 [.b 9], .rx 9 52 4, .add 14 [.b 1], .rx 1 23 14, .add 8 [.b 5], .rx 5 31 8, .add 10 [.b 3], .rx 3 37 10, .add 12 [.b 7], .rx 7 20 12, .add 1 [.k 0],
  .add 0 [.b 1, .k 16], .rx 1 24 0, .add 3 [.k 2], .add 2 [.b 3, .k 1], .rx 3 13 2, .add 5 [.k 4], .add 4 [.b 5, .k 3], .rx 5 8 4, .add 7 [.k 6], .add 6 [.b 7, .k 5],
  .rx 7 47 6, .add 9 [.k 8], .add 8 [.b 9, .k 7], .rx 9 8 8, .add 11 [.k 10], .add 10 [.b 11, .k 9], .rx 11 17 10, .add 13 [.k 12, .t 1], .add 12 [.b 13, .k 11],
  .rx 13 22 12, .add 15 [.k 14, .c 16], .add 14 [.b 15, .k 13, .t 2], .rx 15 37 14, .add 0 [.b 9], .rx 9 38 0, .add 2 [.b 13], .rx 13 19 2, .add 6 [.b 11], .rx 11 10 6,
  .add 4 [.b 15], .rx 15 55 4, .add 10 [.b 7], .rx 7 49 10, .add 12 [.b 3], .rx 3 18 12, .add 14 [.b 5], .rx 5 23 14, .add 8 [.b 1], .rx 1 52 8, .add 0 [.b 7],
  .rx 7 33 0, .add 2 [.b 5], .rx 5 4 2, .add 4 [.b 3], .rx 3 51 4, .add 6 [.b 1], .rx 1 13 6, .add 12 [.b 15], .rx 15 34 12, .add 14 [.b 13], .rx 13 41 14,
  .add 8 [.b 11], .rx 11 59 8, .add 10 [.b 9], .rx 9 17 10, .add 0 [.b 15], .rx 15 5 0, .add 2 [.b 11], .rx 11 20 2, .add 6 [.b 13], .rx 13 48 6, .add 4 [.b 9],
  .rx 9 41 4, .add 14 [.b 1], .rx 1 47 14, .add 8 [.b 5], .rx 5 28 8, .add 10 [.b 3], .rx 3 16 10, .add 12 [.b 7], .rx 7 25 12, .add 1 [.k 1], .add 0 [.b 1, .k 0],
  .rx 1 41 0, .add 3 [.k 3], .add 2 [.b 3, .k 2], .rx 3 9 2, .add 5 [.k 5], .add 4 [.b 5, .k 4], .rx 5 37 4, .add 7 [.k 7], .add 6 [.b 7, .k 6], .rx 7 31 6,
  .add 9 [.k 9], .add 8 [.b 9, .k 8], .rx 9 12 8, .add 11 [.k 11], .add 10 [.b 11, .k 10], .rx 11 47 10, .add 13 [.k 13, .t 2], .add 12 [.b 13, .k 12], .rx 13 44 12,
  .add 15 [.k 15, .c 17], .add 14 [.b 15, .k 14, .t 0], .rx 15 30 14, .add 0 [.b 9], .rx 9 16 0, .add 2 [.b 13], .rx 13 34 2, .add 6 [.b 11], .rx 11 56 6,
  .add 4 [.b 15], .rx 15 51 4, .add 10 [.b 7], .rx 7 4 10, .add 12 [.b 3], .rx 3 53 12, .add 14 [.b 5], .rx 5 42 14, .add 8 [.b 1], .rx 1 41 8, .add 0 [.b 7],
  .rx 7 31 0, .add 2 [.b 5], .rx 5 44 2, .add 4 [.b 3], .rx 3 47 4, .add 6 [.b 1], .rx 1 46 6, .add 12 [.b 15], .rx 15 19 12, .add 14 [.b 13], .rx 13 42 14,
  .add 8 [.b 11], .rx 11 44 8, .add 10 [.b 9], .rx 9 25 10, .add 0 [.b 15], .rx 15 9 0, .add 2 [.b 11], .rx 11 48 2, .add 6 [.b 13], .rx 13 35 6, .add 4 [.b 9],
  .rx 9 52 4, .add 14 [.b 1], .rx 1 23 14, .add 8 [.b 5], .rx 5 31 8, .add 10 [.b 3], .rx 3 37 10, .add 12 [.b 7], .rx 7 20 12, .add 1 [.k 2], .add 0 [.b 1, .k 1],
  .rx 1 24 0, .add 3 [.k 4], .add 2 [.b 3, .k 3], .rx 3 13 2, .add 5 [.k 6], .add 4 [.b 5, .k 5], .rx 5 8 4, .add 7 [.k 8], .add 6 [.b 7, .k 7], .rx 7 47 6,
  .add 9 [.k 10], .add 8 [.b 9, .k 9], .rx 9 8 8, .add 11 [.k 12], .add 10 [.b 11, .k 11], .rx 11 17 10, .add 13 [.k 14, .t 0], .add 12 [.b 13, .k 13], .rx 13 22 12,
  .add 15 [.k 16, .c 18], .add 14 [.b 15, .k 15, .t 1], .rx 15 37 14, .add 0 [.b 9], .rx 9 38 0, .add 2 [.b 13], .rx 13 19 2, .add 6 [.b 11], .rx 11 10 6,
  .add 4 [.b 15], .rx 15 55 4, .add 10 [.b 7], .rx 7 49 10, .add 12 [.b 3], .rx 3 18 12, .add 14 [.b 5], .rx 5 23 14, .add 8 [.b 1], .rx 1 52 8, .add 0 [.b 7],
  .rx 7 33 0, .add 2 [.b 5], .rx 5 4 2, .add 4 [.b 3], .rx 3 51 4, .add 6 [.b 1], .rx 1 13 6, .add 12 [.b 15], .rx 15 34 12, .add 14 [.b 13], .rx 13 41 14,
  .add 8 [.b 11], .rx 11 59 8, .add 10 [.b 9], .rx 9 17 10, .add 0 [.b 15], .rx 15 5 0, .add 2 [.b 11], .rx 11 20 2, .add 6 [.b 13], .rx 13 48 6, .add 4 [.b 9],
  .rx 9 41 4, .add 14 [.b 1], .rx 1 47 14, .add 8 [.b 5], .rx 5 28 8, .add 10 [.b 3], .rx 3 16 10, .add 12 [.b 7], .rx 7 25 12, .add 1 [.k 3], .add 0 [.b 1, .k 2],
  .rx 1 41 0, .add 3 [.k 5], .add 2 [.b 3, .k 4], .rx 3 9 2, .add 5 [.k 7], .add 4 [.b 5, .k 6], .rx 5 37 4, .add 7 [.k 9], .add 6 [.b 7, .k 8], .rx 7 31 6,
  .add 9 [.k 11], .add 8 [.b 9, .k 10], .rx 9 12 8, .add 11 [.k 13], .add 10 [.b 11, .k 12], .rx 11 47 10, .add 13 [.k 15, .t 1], .add 12 [.b 13, .k 14], .rx 13 44 12,
  .add 15 [.k 0, .c 19], .add 14 [.b 15, .k 16, .t 2], .rx 15 30 14, .add 0 [.b 9], .rx 9 16 0, .add 2 [.b 13], .rx 13 34 2, .add 6 [.b 11], .rx 11 56 6, .add 4 [.b 15],
  .rx 15 51 4, .add 10 [.b 7], .rx 7 4 10, .add 12 [.b 3], .rx 3 53 12, .add 14 [.b 5], .rx 5 42 14, .add 8 [.b 1], .rx 1 41 8, .add 0 [.b 7], .rx 7 31 0, .add 2 [.b 5],
  .rx 5 44 2, .add 4 [.b 3], .rx 3 47 4, .add 6 [.b 1], .rx 1 46 6, .add 12 [.b 15], .rx 15 19 12, .add 14 [.b 13], .rx 13 42 14, .add 8 [.b 11], .rx 11 44 8,
  .add 10 [.b 9], .rx 9 25 10, .add 0 [.b 15], .rx 15 9 0, .add 2 [.b 11], .rx 11 48 2, .add 6 [.b 13], .rx 13 35 6, .add 4 [.b 9], .rx 9 52 4, .add 14 [.b 1],
  .rx 1 23 14, .add 8 [.b 5], .rx 5 31 8, .add 10 [.b 3], .rx 3 37 10, .add 12 [.b 7], .rx 7 20 12]

/-- `Skein::PemuteR80P1024U` (Skein.h:3225-4772). -/
def skein1024 : Prog where
  body := skein1024_0 ++ (skein1024_1 ++ (skein1024_2 ++ (skein1024_3)))
  fin := [[.k 3], [.k 4], [.k 5], [.k 6], [.k 7], [.k 8], [.k 9], [.k 10], [.k 11], [.k 12], [.k 13], [.k 14], [.k 15], [.k 16, .t 2], [.k 0, .t 0], [.k 1, .c 20]]

/-- `Skein::PemuteR96P512U` (Skein.h:1401-2333), the statements of lines 1446-1739. -/
def skeinR96P512_0 : List Stmt := [
  .add 1 [.k 1], .add 0 [.b 1, .k 0], .rx 1 46 0, .add 3 [.k 3], .add 2 [.b 3, .k 2], .rx 3 36 2, .add 5 [.k 5, .t 0], .add 4 [.b 5, .k 4], .rx 5 19 4, .add 7 [.k 7],
  .add 6 [.b 7, .k 6, .t 1], .rx 7 37 6, .add 2 [.b 1], .rx 1 33 2, .add 4 [.b 7], .rx 7 27 4, .add 6 [.b 5], .rx 5 14 6, .add 0 [.b 3], .rx 3 42 0, .add 4 [.b 1],
  .rx 1 17 4, .add 6 [.b 3], .rx 3 49 6, .add 0 [.b 5], .rx 5 36 0, .add 2 [.b 7], .rx 7 39 2, .add 6 [.b 1], .rx 1 44 6, .add 0 [.b 7], .rx 7 9 0, .add 2 [.b 5],
  .rx 5 54 2, .add 4 [.b 3], .rx 3 56 4, .add 1 [.k 2], .add 0 [.b 1, .k 1], .rx 1 39 0, .add 3 [.k 4], .add 2 [.b 3, .k 3], .rx 3 30 2, .add 5 [.k 6, .t 1],
  .add 4 [.b 5, .k 5], .rx 5 34 4, .add 7 [.k 8, .c 1], .add 6 [.b 7, .k 7, .t 2], .rx 7 24 6, .add 2 [.b 1], .rx 1 13 2, .add 4 [.b 7], .rx 7 50 4, .add 6 [.b 5],
  .rx 5 10 6, .add 0 [.b 3], .rx 3 17 0, .add 4 [.b 1], .rx 1 25 4, .add 6 [.b 3], .rx 3 29 6, .add 0 [.b 5], .rx 5 39 0, .add 2 [.b 7], .rx 7 43 2, .add 6 [.b 1],
  .rx 1 8 6, .add 0 [.b 7], .rx 7 35 0, .add 2 [.b 5], .rx 5 56 2, .add 4 [.b 3], .rx 3 22 4, .add 1 [.k 3], .add 0 [.b 1, .k 2], .rx 1 46 0, .add 3 [.k 5],
  .add 2 [.b 3, .k 4], .rx 3 36 2, .add 5 [.k 7, .t 2], .add 4 [.b 5, .k 6], .rx 5 19 4, .add 7 [.k 0, .c 2], .add 6 [.b 7, .k 8, .t 0], .rx 7 37 6, .add 2 [.b 1],
  .rx 1 33 2, .add 4 [.b 7], .rx 7 27 4, .add 6 [.b 5], .rx 5 14 6, .add 0 [.b 3], .rx 3 42 0, .add 4 [.b 1], .rx 1 17 4, .add 6 [.b 3], .rx 3 49 6, .add 0 [.b 5],
  .rx 5 36 0, .add 2 [.b 7], .rx 7 39 2, .add 6 [.b 1], .rx 1 44 6, .add 0 [.b 7], .rx 7 9 0, .add 2 [.b 5], .rx 5 54 2, .add 4 [.b 3], .rx 3 56 4, .add 1 [.k 4],
  .add 0 [.b 1, .k 3], .rx 1 39 0, .add 3 [.k 6], .add 2 [.b 3, .k 5], .rx 3 30 2, .add 5 [.k 8, .t 0], .add 4 [.b 5, .k 7], .rx 5 34 4, .add 7 [.k 1, .c 3],
  .add 6 [.b 7, .k 0, .t 1], .rx 7 24 6, .add 2 [.b 1], .rx 1 13 2, .add 4 [.b 7], .rx 7 50 4, .add 6 [.b 5], .rx 5 10 6, .add 0 [.b 3], .rx 3 17 0, .add 4 [.b 1],
  .rx 1 25 4, .add 6 [.b 3], .rx 3 29 6, .add 0 [.b 5], .rx 5 39 0, .add 2 [.b 7], .rx 7 43 2, .add 6 [.b 1], .rx 1 8 6, .add 0 [.b 7], .rx 7 35 0, .add 2 [.b 5],
  .rx 5 56 2, .add 4 [.b 3], .rx 3 22 4, .add 1 [.k 5], .add 0 [.b 1, .k 4], .rx 1 46 0, .add 3 [.k 7], .add 2 [.b 3, .k 6], .rx 3 36 2, .add 5 [.k 0, .t 1],
  .add 4 [.b 5, .k 8], .rx 5 19 4, .add 7 [.k 2, .c 4], .add 6 [.b 7, .k 1, .t 2], .rx 7 37 6, .add 2 [.b 1], .rx 1 33 2, .add 4 [.b 7], .rx 7 27 4, .add 6 [.b 5],
  .rx 5 14 6, .add 0 [.b 3], .rx 3 42 0, .add 4 [.b 1], .rx 1 17 4, .add 6 [.b 3], .rx 3 49 6, .add 0 [.b 5], .rx 5 36 0, .add 2 [.b 7], .rx 7 39 2, .add 6 [.b 1],
  .rx 1 44 6, .add 0 [.b 7], .rx 7 9 0, .add 2 [.b 5], .rx 5 54 2, .add 4 [.b 3], .rx 3 56 4, .add 1 [.k 6], .add 0 [.b 1, .k 5], .rx 1 39 0, .add 3 [.k 8],
  .add 2 [.b 3, .k 7], .rx 3 30 2, .add 5 [.k 1, .t 2], .add 4 [.b 5, .k 0], .rx 5 34 4, .add 7 [.k 3, .c 5], .add 6 [.b 7, .k 2, .t 0], .rx 7 24 6, .add 2 [.b 1],
  .rx 1 13 2, .add 4 [.b 7], .rx 7 50 4, .add 6 [.b 5], .rx 5 10 6, .add 0 [.b 3], .rx 3 17 0, .add 4 [.b 1], .rx 1 25 4, .add 6 [.b 3], .rx 3 29 6, .add 0 [.b 5],
  .rx 5 39 0, .add 2 [.b 7], .rx 7 43 2, .add 6 [.b 1], .rx 1 8 6, .add 0 [.b 7], .rx 7 35 0, .add 2 [.b 5], .rx 5 56 2, .add 4 [.b 3], .rx 3 22 4, .add 1 [.k 7],
  .add 0 [.b 1, .k 6], .rx 1 46 0, .add 3 [.k 0], .add 2 [.b 3, .k 8], .rx 3 36 2, .add 5 [.k 2, .t 0], .add 4 [.b 5, .k 1], .rx 5 19 4, .add 7 [.k 4, .c 6],
  .add 6 [.b 7, .k 3, .t 1], .rx 7 37 6, .add 2 [.b 1], .rx 1 33 2, .add 4 [.b 7], .rx 7 27 4, .add 6 [.b 5], .rx 5 14 6, .add 0 [.b 3], .rx 3 42 0, .add 4 [.b 1],
  .rx 1 17 4, .add 6 [.b 3], .rx 3 49 6, .add 0 [.b 5], .rx 5 36 0, .add 2 [.b 7], .rx 7 39 2, .add 6 [.b 1], .rx 1 44 6, .add 0 [.b 7], .rx 7 9 0, .add 2 [.b 5],
  .rx 5 54 2, .add 4 [.b 3], .rx 3 56 4, .add 1 [.k 8], .add 0 [.b 1, .k 7], .rx 1 39 0, .add 3 [.k 1], .add 2 [.b 3, .k 0], .rx 3 30 2, .add 5 [.k 3, .t 1],
  .add 4 [.b 5, .k 2], .rx 5 34 4, .add 7 [.k 5, .c 7], .add 6 [.b 7, .k 4, .t 2], .rx 7 24 6, .add 2 [.b 1], .rx 1 13 2, .add 4 [.b 7], .rx 7 50 4, .add 6 [.b 5],
  .rx 5 10 6, .add 0 [.b 3], .rx 3 17 0, .add 4 [.b 1], .rx 1 25 4, .add 6 [.b 3], .rx 3 29 6, .add 0 [.b 5], .rx 5 39 0, .add 2 [.b 7], .rx 7 43 2, .add 6 [.b 1],
  .rx 1 8 6, .add 0 [.b 7], .rx 7 35 0, .add 2 [.b 5], .rx 5 56 2, .add 4 [.b 3], .rx 3 22 4]

/-- `Skein::PemuteR96P512U` (Skein.h:1401-2333), the statements of lines 1741-2031. -/
def skeinR96P512_1 : List Stmt := [
  .add 1 [.k 0], .add 0 [.b 1, .k 8], .rx 1 46 0, .add 3 [.k 2], .add 2 [.b 3, .k 1], .rx 3 36 2, .add 5 [.k 4, .t 2], .add 4 [.b 5, .k 3], .rx 5 19 4,
  .add 7 [.k 6, .c 8], .add 6 [.b 7, .k 5, .t 0], .rx 7 37 6, .add 2 [.b 1], .rx 1 33 2, .add 4 [.b 7], .rx 7 27 4, .add 6 [.b 5], .rx 5 14 6, .add 0 [.b 3], .rx 3 42 0,
  .add 4 [.b 1], .rx 1 17 4, .add 6 [.b 3], .rx 3 49 6, .add 0 [.b 5], .rx 5 36 0, .add 2 [.b 7], .rx 7 39 2, .add 6 [.b 1], .rx 1 44 6, .add 0 [.b 7], .rx 7 9 0,
  .add 2 [.b 5], .rx 5 54 2, .add 4 [.b 3], .rx 3 56 4, .add 1 [.k 1], .add 0 [.b 1, .k 0], .rx 1 39 0, .add 3 [.k 3], .add 2 [.b 3, .k 2], .rx 3 30 2,
  .add 5 [.k 5, .t 0], .add 4 [.b 5, .k 4], .rx 5 34 4, .add 7 [.k 7, .c 9], .add 6 [.b 7, .k 6, .t 1], .rx 7 24 6, .add 2 [.b 1], .rx 1 13 2, .add 4 [.b 7], .rx 7 50 4,
  .add 6 [.b 5], .rx 5 10 6, .add 0 [.b 3], .rx 3 17 0, .add 4 [.b 1], .rx 1 25 4, .add 6 [.b 3], .rx 3 29 6, .add 0 [.b 5], .rx 5 39 0, .add 2 [.b 7], .rx 7 43 2,
  .add 6 [.b 1], .rx 1 8 6, .add 0 [.b 7], .rx 7 35 0, .add 2 [.b 5], .rx 5 56 2, .add 4 [.b 3], .rx 3 22 4, .add 1 [.k 2], .add 0 [.b 1, .k 1], .rx 1 46 0,
  .add 3 [.k 4], .add 2 [.b 3, .k 3], .rx 3 36 2, .add 5 [.k 6, .t 1], .add 4 [.b 5, .k 5], .rx 5 19 4, .add 7 [.k 8, .c 10], .add 6 [.b 7, .k 7, .t 2], .rx 7 37 6,
  .add 2 [.b 1], .rx 1 33 2, .add 4 [.b 7], .rx 7 27 4, .add 6 [.b 5], .rx 5 14 6, .add 0 [.b 3], .rx 3 42 0, .add 4 [.b 1], .rx 1 17 4, .add 6 [.b 3], .rx 3 49 6,
  .add 0 [.b 5], .rx 5 36 0, .add 2 [.b 7], .rx 7 39 2, .add 6 [.b 1], .rx 1 44 6, .add 0 [.b 7], .rx 7 9 0, .add 2 [.b 5], .rx 5 54 2, .add 4 [.b 3], .rx 3 56 4,
  .add 1 [.k 3], .add 0 [.b 1, .k 2], .rx 1 39 0, .add 3 [.k 5], .add 2 [.b 3, .k 4], .rx 3 30 2, .add 5 [.k 7, .t 2], .add 4 [.b 5, .k 6], .rx 5 34 4,
  .add 7 [.k 0, .c 11], .add 6 [.b 7, .k 8, .t 0], .rx 7 24 6, .add 2 [.b 1], .rx 1 13 2, .add 4 [.b 7], .rx 7 50 4, .add 6 [.b 5], .rx 5 10 6, .add 0 [.b 3],
  .rx 3 17 0, .add 4 [.b 1], .rx 1 25 4, .add 6 [.b 3], .rx 3 29 6, .add 0 [.b 5], .rx 5 39 0, .add 2 [.b 7], .rx 7 43 2, .add 6 [.b 1], .rx 1 8 6, .add 0 [.b 7],
  .rx 7 35 0, .add 2 [.b 5], .rx 5 56 2, .add 4 [.b 3], .rx 3 22 4, .add 1 [.k 4], .add 0 [.b 1, .k 3], .rx 1 46 0, .add 3 [.k 6], .add 2 [.b 3, .k 5], .rx 3 36 2,
  .add 5 [.k 8, .t 0], .add 4 [.b 5, .k 7], .rx 5 19 4, .add 7 [.k 1, .c 12], .add 6 [.b 7, .k 0, .t 1], .rx 7 37 6, .add 2 [.b 1], .rx 1 33 2, .add 4 [.b 7],
  .rx 7 27 4, .add 6 [.b 5], .rx 5 14 6, .add 0 [.b 3], .rx 3 42 0, .add 4 [.b 1], .rx 1 17 4, .add 6 [.b 3], .rx 3 49 6, .add 0 [.b 5], .rx 5 36 0, .add 2 [.b 7],
  .rx 7 39 2, .add 6 [.b 1], .rx 1 44 6, .add 0 [.b 7], .rx 7 9 0, .add 2 [.b 5], .rx 5 54 2, .add 4 [.b 3], .rx 3 56 4, .add 1 [.k 5], .add 0 [.b 1, .k 4], .rx 1 39 0,
  .add 3 [.k 7], .add 2 [.b 3, .k 6], .rx 3 30 2, .add 5 [.k 0, .t 1], .add 4 [.b 5, .k 8], .rx 5 34 4, .add 7 [.k 2, .c 13], .add 6 [.b 7, .k 1, .t 2], .rx 7 24 6,
  .add 2 [.b 1], .rx 1 13 2, .add 4 [.b 7], .rx 7 50 4, .add 6 [.b 5], .rx 5 10 6, .add 0 [.b 3], .rx 3 17 0, .add 4 [.b 1], .rx 1 25 4, .add 6 [.b 3], .rx 3 29 6,
  .add 0 [.b 5], .rx 5 39 0, .add 2 [.b 7], .rx 7 43 2, .add 6 [.b 1], .rx 1 8 6, .add 0 [.b 7], .rx 7 35 0, .add 2 [.b 5], .rx 5 56 2, .add 4 [.b 3], .rx 3 22 4,
  .add 1 [.k 6], .add 0 [.b 1, .k 5], .rx 1 46 0, .add 3 [.k 8], .add 2 [.b 3, .k 7], .rx 3 36 2, .add 5 [.k 1, .t 2], .add 4 [.b 5, .k 0], .rx 5 19 4,
  .add 7 [.k 3, .c 14], .add 6 [.b 7, .k 2, .t 0], .rx 7 37 6, .add 2 [.b 1], .rx 1 33 2, .add 4 [.b 7], .rx 7 27 4, .add 6 [.b 5], .rx 5 14 6, .add 0 [.b 3],
  .rx 3 42 0, .add 4 [.b 1], .rx 1 17 4, .add 6 [.b 3], .rx 3 49 6, .add 0 [.b 5], .rx 5 36 0, .add 2 [.b 7], .rx 7 39 2, .add 6 [.b 1], .rx 1 44 6, .add 0 [.b 7],
  .rx 7 9 0, .add 2 [.b 5], .rx 5 54 2, .add 4 [.b 3], .rx 3 56 4, .add 1 [.k 7], .add 0 [.b 1, .k 6], .rx 1 39 0, .add 3 [.k 0], .add 2 [.b 3, .k 8], .rx 3 30 2,
  .add 5 [.k 2, .t 0], .add 4 [.b 5, .k 1], .rx 5 34 4, .add 7 [.k 4, .c 15], .add 6 [.b 7, .k 3, .t 1], .rx 7 24 6, .add 2 [.b 1], .rx 1 13 2, .add 4 [.b 7],
  .rx 7 50 4, .add 6 [.b 5], .rx 5 10 6, .add 0 [.b 3], .rx 3 17 0, .add 4 [.b 1], .rx 1 25 4, .add 6 [.b 3], .rx 3 29 6, .add 0 [.b 5], .rx 5 39 0, .add 2 [.b 7],
  .rx 7 43 2, .add 6 [.b 1], .rx 1 8 6, .add 0 [.b 7], .rx 7 35 0, .add 2 [.b 5], .rx 5 56 2, .add 4 [.b 3], .rx 3 22 4]

/-- `Skein::PemuteR96P512U` (Skein.h:1401-2333), the statements of lines 2033-2323. -/
def skeinR96P512_2 : List Stmt := [
  .add 1 [.k 8], .add 0 [.b 1, .k 7], .rx 1 46 0, .add 3 [.k 1], .add 2 [.b 3, .k 0], .rx 3 36 2, .add 5 [.k 3, .t 1], .add 4 [.b 5, .k 2], .rx 5 19 4,
  .add 7 [.k 5, .c 16], .add 6 [.b 7, .k 4, .t 2], .rx 7 37 6, .add 2 [.b 1], .rx 1 33 2, .add 4 [.b 7], .rx 7 27 4, .add 6 [.b 5], .rx 5 14 6, .add 0 [.b 3],
  .rx 3 42 0, .add 4 [.b 1], .rx 1 17 4, .add 6 [.b 3], .rx 3 49 6, .add 0 [.b 5], .rx 5 36 0, .add 2 [.b 7], .rx 7 39 2, .add 6 [.b 1], .rx 1 44 6, .add 0 [.b 7],
  .rx 7 9 0, .add 2 [.b 5], .rx 5 54 2, .add 4 [.b 3], .rx 3 56 4, .add 1 [.k 0], .add 0 [.b 1, .k 8], .rx 1 39 0, .add 3 [.k 2], .add 2 [.b 3, .k 1], .rx 3 30 2,
  .add 5 [.k 4, .t 2], .add 4 [.b 5, .k 3], .rx 5 34 4, .add 7 [.k 6, .c 17], .add 6 [.b 7, .k 5, .t 0], .rx 7 24 6, .add 2 [.b 1], .rx 1 13 2, .add 4 [.b 7],
  .rx 7 50 4, .add 6 [.b 5], .rx 5 10 6, .add 0 [.b 3], .rx 3 17 0, .add 4 [.b 1], .rx 1 25 4, .add 6 [.b 3], .rx 3 29 6, .add 0 [.b 5], .rx 5 39 0, .add 2 [.b 7],
  .rx 7 43 2, .add 6 [.b 1], .rx 1 8 6, .add 0 [.b 7], .rx 7 35 0, .add 2 [.b 5], .rx 5 56 2, .add 4 [.b 3], .rx 3 22 4, .add 1 [.k 1], .add 0 [.b 1, .k 0], .rx 1 46 0,
  .add 3 [.k 3], .add 2 [.b 3, .k 2], .rx 3 36 2, .add 5 [.k 5, .t 0], .add 4 [.b 5, .k 4], .rx 5 19 4, .add 7 [.k 7, .c 18], .add 6 [.b 7, .k 6, .t 1], .rx 7 37 6,
  .add 2 [.b 1], .rx 1 33 2, .add 4 [.b 7], .rx 7 27 4, .add 6 [.b 5], .rx 5 14 6, .add 0 [.b 3], .rx 3 42 0, .add 4 [.b 1], .rx 1 17 4, .add 6 [.b 3], .rx 3 49 6,
  .add 0 [.b 5], .rx 5 36 0, .add 2 [.b 7], .rx 7 39 2, .add 6 [.b 1], .rx 1 44 6, .add 0 [.b 7], .rx 7 9 0, .add 2 [.b 5], .rx 5 54 2, .add 4 [.b 3], .rx 3 56 4,
  .add 1 [.k 2], .add 0 [.b 1, .k 1], .rx 1 39 0, .add 3 [.k 4], .add 2 [.b 3, .k 3], .rx 3 30 2, .add 5 [.k 6, .t 1], .add 4 [.b 5, .k 5], .rx 5 34 4,
  .add 7 [.k 8, .c 19], .add 6 [.b 7, .k 7, .t 2], .rx 7 24 6, .add 2 [.b 1], .rx 1 13 2, .add 4 [.b 7], .rx 7 50 4, .add 6 [.b 5], .rx 5 10 6, .add 0 [.b 3],
  .rx 3 17 0, .add 4 [.b 1], .rx 1 25 4, .add 6 [.b 3], .rx 3 29 6, .add 0 [.b 5], .rx 5 39 0, .add 2 [.b 7], .rx 7 43 2, .add 6 [.b 1], .rx 1 8 6, .add 0 [.b 7],
  .rx 7 35 0, .add 2 [.b 5], .rx 5 56 2, .add 4 [.b 3], .rx 3 22 4, .add 1 [.k 3], .add 0 [.b 1, .k 2], .rx 1 46 0, .add 3 [.k 5], .add 2 [.b 3, .k 4], .rx 3 36 2,
  .add 5 [.k 7, .t 2], .add 4 [.b 5, .k 6], .rx 5 19 4, .add 7 [.k 0, .c 20], .add 6 [.b 7, .k 8, .t 0], .rx 7 37 6, .add 2 [.b 1], .rx 1 33 2, .add 4 [.b 7],
  .rx 7 27 4, .add 6 [.b 5], .rx 5 14 6, .add 0 [.b 3], .rx 3 42 0, .add 4 [.b 1], .rx 1 17 4, .add 6 [.b 3], .rx 3 49 6, .add 0 [.b 5], .rx 5 36 0, .add 2 [.b 7],
  .rx 7 39 2, .add 6 [.b 1], .rx 1 44 6, .add 0 [.b 7], .rx 7 9 0, .add 2 [.b 5], .rx 5 54 2, .add 4 [.b 3], .rx 3 56 4, .add 1 [.k 4], .add 0 [.b 1, .k 3], .rx 1 39 0,
  .add 3 [.k 6], .add 2 [.b 3, .k 5], .rx 3 30 2, .add 5 [.k 8, .t 0], .add 4 [.b 5, .k 7], .rx 5 34 4, .add 7 [.k 1, .c 21], .add 6 [.b 7, .k 0, .t 1], .rx 7 24 6,
  .add 2 [.b 1], .rx 1 13 2, .add 4 [.b 7], .rx 7 50 4, .add 6 [.b 5], .rx 5 10 6, .add 0 [.b 3], .rx 3 17 0, .add 4 [.b 1], .rx 1 25 4, .add 6 [.b 3], .rx 3 29 6,
  .add 0 [.b 5], .rx 5 39 0, .add 2 [.b 7], .rx 7 43 2, .add 6 [.b 1], .rx 1 8 6, .add 0 [.b 7], .rx 7 35 0, .add 2 [.b 5], .rx 5 56 2, .add 4 [.b 3], .rx 3 22 4,
  .add 1 [.k 5], .add 0 [.b 1, .k 4], .rx 1 46 0, .add 3 [.k 7], .add 2 [.b 3, .k 6], .rx 3 36 2, .add 5 [.k 0, .t 1], .add 4 [.b 5, .k 8], .rx 5 19 4,
  .add 7 [.k 2, .c 22], .add 6 [.b 7, .k 1, .t 2], .rx 7 37 6, .add 2 [.b 1], .rx 1 33 2, .add 4 [.b 7], .rx 7 27 4, .add 6 [.b 5], .rx 5 14 6, .add 0 [.b 3],
  .rx 3 42 0, .add 4 [.b 1], .rx 1 17 4, .add 6 [.b 3], .rx 3 49 6, .add 0 [.b 5], .rx 5 36 0, .add 2 [.b 7], .rx 7 39 2, .add 6 [.b 1], .rx 1 44 6, .add 0 [.b 7],
  .rx 7 9 0, .add 2 [.b 5], .rx 5 54 2, .add 4 [.b 3], .rx 3 56 4, .add 1 [.k 6], .add 0 [.b 1, .k 5], .rx 1 39 0, .add 3 [.k 8], .add 2 [.b 3, .k 7], .rx 3 30 2,
  .add 5 [.k 1, .t 2], .add 4 [.b 5, .k 0], .rx 5 34 4, .add 7 [.k 3, .c 23], .add 6 [.b 7, .k 2, .t 0], .rx 7 24 6, .add 2 [.b 1], .rx 1 13 2, .add 4 [.b 7],
  .rx 7 50 4, .add 6 [.b 5], .rx 5 10 6, .add 0 [.b 3], .rx 3 17 0, .add 4 [.b 1], .rx 1 25 4, .add 6 [.b 3], .rx 3 29 6, .add 0 [.b 5], .rx 5 39 0, .add 2 [.b 7],
  .rx 7 43 2, .add 6 [.b 1], .rx 1 8 6, .add 0 [.b 7], .rx 7 35 0, .add 2 [.b 5], .rx 5 56 2, .add 4 [.b 3], .rx 3 22 4]

/-- `Skein::PemuteR96P512U` (Skein.h:1401-2333). -/
def skeinR96P512 : Prog where
  body := skeinR96P512_0 ++ (skeinR96P512_1 ++ (skeinR96P512_2))
  fin := [[.k 0], [.k 1], [.k 2], [.k 3], [.k 4], [.k 5, .t 0], [.k 6, .t 1], [.k 7, .c 24]]

/-- `Skein::PemuteR120P1024U` (Skein.h:4784-7057), the statements of lines 4861-5225. -/
def skeinR120P1024_0 : List Stmt := [
  .add 1 [.k 1], .add 0 [.b 1, .k 0], .rx 1 24 0, .add 3 [.k 3], .add 2 [.b 3, .k 2], .rx 3 13 2, .add 5 [.k 5], .add 4 [.b 5, .k 4], .rx 5 8 4, .add 7 [.k 7],
  .add 6 [.b 7, .k 6], .rx 7 47 6, .add 9 [.k 9], .add 8 [.b 9, .k 8], .rx 9 8 8, .add 11 [.k 11], .add 10 [.b 11, .k 10], .rx 11 17 10, .add 13 [.k 13, .t 0],
  .add 12 [.b 13, .k 12], .rx 13 22 12, .add 15 [.k 15], .add 14 [.b 15, .k 14, .t 1], .rx 15 37 14, .add 0 [.b 9], .rx 9 38 0, .add 2 [.b 13], .rx 13 19 2,
  .add 6 [.b 11], .rx 11 10 6, .add 4 [.b 15], .rx 15 55 4, .add 10 [.b 7], .rx 7 49 10, .add 12 [.b 3], .rx 3 18 12, .add 14 [.b 5], .rx 5 23 14, .add 8 [.b 1],
  .rx 1 52 8, .add 0 [.b 7], .rx 7 33 0, .add 2 [.b 5], .rx 5 4 2, .add 4 [.b 3], .rx 3 51 4, .add 6 [.b 1], .rx 1 13 6, .add 12 [.b 15], .rx 15 34 12, .add 14 [.b 13],
  .rx 13 41 14, .add 8 [.b 11], .rx 11 59 8, .add 10 [.b 9], .rx 9 17 10, .add 0 [.b 15], .rx 15 5 0, .add 2 [.b 11], .rx 11 20 2, .add 6 [.b 13], .rx 13 48 6,
  .add 4 [.b 9], .rx 9 41 4, .add 14 [.b 1], .rx 1 47 14, .add 8 [.b 5], .rx 5 28 8, .add 10 [.b 3], .rx 3 16 10, .add 12 [.b 7], .rx 7 25 12, .add 1 [.k 2],
  .add 0 [.b 1, .k 1], .rx 1 41 0, .add 3 [.k 4], .add 2 [.b 3, .k 3], .rx 3 9 2, .add 5 [.k 6], .add 4 [.b 5, .k 5], .rx 5 37 4, .add 7 [.k 8], .add 6 [.b 7, .k 7],
  .rx 7 31 6, .add 9 [.k 10], .add 8 [.b 9, .k 9], .rx 9 12 8, .add 11 [.k 12], .add 10 [.b 11, .k 11], .rx 11 47 10, .add 13 [.k 14, .t 1], .add 12 [.b 13, .k 13],
  .rx 13 44 12, .add 15 [.k 16, .c 1], .add 14 [.b 15, .k 15, .t 2], .rx 15 30 14, .add 0 [.b 9], .rx 9 16 0, .add 2 [.b 13], .rx 13 34 2, .add 6 [.b 11], .rx 11 56 6,
  .add 4 [.b 15], .rx 15 51 4, .add 10 [.b 7], .rx 7 4 10, .add 12 [.b 3], .rx 3 53 12, .add 14 [.b 5], .rx 5 42 14, .add 8 [.b 1], .rx 1 41 8, .add 0 [.b 7],
  .rx 7 31 0, .add 2 [.b 5], .rx 5 44 2, .add 4 [.b 3], .rx 3 47 4, .add 6 [.b 1], .rx 1 46 6, .add 12 [.b 15], .rx 15 19 12, .add 14 [.b 13], .rx 13 42 14,
  .add 8 [.b 11], .rx 11 44 8, .add 10 [.b 9], .rx 9 25 10, .add 0 [.b 15], .rx 15 9 0, .add 2 [.b 11], .rx 11 48 2, .add 6 [.b 13], .rx 13 35 6, .add 4 [.b 9],
  .rx 9 52 4, .add 14 [.b 1], .rx 1 23 14, .add 8 [.b 5], .rx 5 31 8, .add 10 [.b 3], .rx 3 37 10, .add 12 [.b 7], .rx 7 20 12, .add 1 [.k 3], .add 0 [.b 1, .k 2],
  .rx 1 24 0, .add 3 [.k 5], .add 2 [.b 3, .k 4], .rx 3 13 2, .add 5 [.k 7], .add 4 [.b 5, .k 6], .rx 5 8 4, .add 7 [.k 9], .add 6 [.b 7, .k 8], .rx 7 47 6,
  .add 9 [.k 11], .add 8 [.b 9, .k 10], .rx 9 8 8, .add 11 [.k 13], .add 10 [.b 11, .k 12], .rx 11 17 10, .add 13 [.k 15, .t 2], .add 12 [.b 13, .k 14], .rx 13 22 12,
  .add 15 [.k 0, .c 2], .add 14 [.b 15, .k 16, .t 0], .rx 15 37 14, .add 0 [.b 9], .rx 9 38 0, .add 2 [.b 13], .rx 13 19 2, .add 6 [.b 11], .rx 11 10 6, .add 4 [.b 15],
  .rx 15 55 4, .add 10 [.b 7], .rx 7 49 10, .add 12 [.b 3], .rx 3 18 12, .add 14 [.b 5], .rx 5 23 14, .add 8 [.b 1], .rx 1 52 8, .add 0 [.b 7], .rx 7 33 0,
  .add 2 [.b 5], .rx 5 4 2, .add 4 [.b 3], .rx 3 51 4, .add 6 [.b 1], .rx 1 13 6, .add 12 [.b 15], .rx 15 34 12, .add 14 [.b 13], .rx 13 41 14, .add 8 [.b 11],
  .rx 11 59 8, .add 10 [.b 9], .rx 9 17 10, .add 0 [.b 15], .rx 15 5 0, .add 2 [.b 11], .rx 11 20 2, .add 6 [.b 13], .rx 13 48 6, .add 4 [.b 9], .rx 9 41 4,
  .add 14 [.b 1], .rx 1 47 14, .add 8 [.b 5], .rx 5 28 8, .add 10 [.b 3], .rx 3 16 10, .add 12 [.b 7], .rx 7 25 12, .add 1 [.k 4], .add 0 [.b 1, .k 3], .rx 1 41 0,
  .add 3 [.k 6], .add 2 [.b 3, .k 5], .rx 3 9 2, .add 5 [.k 8], .add 4 [.b 5, .k 7], .rx 5 37 4, .add 7 [.k 10], .add 6 [.b 7, .k 9], .rx 7 31 6, .add 9 [.k 12],
  .add 8 [.b 9, .k 11], .rx 9 12 8, .add 11 [.k 14], .add 10 [.b 11, .k 13], .rx 11 47 10, .add 13 [.k 16, .t 0], .add 12 [.b 13, .k 15], .rx 13 44 12,
  .add 15 [.k 1, .c 3], .add 14 [.b 15, .k 0, .t 1], .rx 15 30 14, .add 0 [.b 9], .rx 9 16 0, .add 2 [.b 13], .rx 13 34 2, .add 6 [.b 11], .rx 11 56 6, .add 4 [.b 15],
  .rx 15 51 4, .add 10 [.b 7], .rx 7 4 10, .add 12 [.b 3], .rx 3 53 12, .add 14 [.b 5], .rx 5 42 14, .add 8 [.b 1], .rx 1 41 8, .add 0 [.b 7], .rx 7 31 0, .add 2 [.b 5],
  .rx 5 44 2, .add 4 [.b 3], .rx 3 47 4, .add 6 [.b 1], .rx 1 46 6, .add 12 [.b 15], .rx 15 19 12, .add 14 [.b 13], .rx 13 42 14, .add 8 [.b 11], .rx 11 44 8,
  .add 10 [.b 9], .rx 9 25 10, .add 0 [.b 15], .rx 15 9 0, .add 2 [.b 11], .rx 11 48 2, .add 6 [.b 13], .rx 13 35 6, .add 4 [.b 9], .rx 9 52 4, .add 14 [.b 1],
  .rx 1 23 14, .add 8 [.b 5], .rx 5 31 8, .add 10 [.b 3], .rx 3 37 10, .add 12 [.b 7], .rx 7 20 12, .add 1 [.k 5], .add 0 [.b 1, .k 4], .rx 1 24 0, .add 3 [.k 7],
  .add 2 [.b 3, .k 6], .rx 3 13 2, .add 5 [.k 9], .add 4 [.b 5, .k 8], .rx 5 8 4, .add 7 [.k 11], .add 6 [.b 7, .k 10], .rx 7 47 6, .add 9 [.k 13], .add 8 [.b 9, .k 12],
  .rx 9 8 8, .add 11 [.k 15], .add 10 [.b 11, .k 14], .rx 11 17 10, .add 13 [.k 0, .t 1], .add 12 [.b 13, .k 16], .rx 13 22 12, .add 15 [.k 2, .c 4],
  .add 14 [.b 15, .k 1, .t 2], .rx 15 37 14, .add 0 [.b 9], .rx 9 38 0, .add 2 [.b 13], .rx 13 19 2, .add 6 [.b 11], .rx 11 10 6, .add 4 [.b 15], .rx 15 55 4,
  .add 10 [.b 7], .rx 7 49 10, .add 12 [.b 3], .rx 3 18 12, .add 14 [.b 5], .rx 5 23 14, .add 8 [.b 1], .rx 1 52 8, .add 0 [.b 7], .rx 7 33 0, .add 2 [.b 5], .rx 5 4 2,
  .add 4 [.b 3], .rx 3 51 4, .add 6 [.b 1], .rx 1 13 6, .add 12 [.b 15], .rx 15 34 12, .add 14 [.b 13], .rx 13 41 14, .add 8 [.b 11], .rx 11 59 8, .add 10 [.b 9],
  .rx 9 17 10, .add 0 [.b 15], .rx 15 5 0, .add 2 [.b 11], .rx 11 20 2, .add 6 [.b 13], .rx 13 48 6, .add 4 [.b 9], .rx 9 41 4, .add 14 [.b 1], .rx 1 47 14,
  .add 8 [.b 5], .rx 5 28 8, .add 10 [.b 3], .rx 3 16 10, .add 12 [.b 7], .rx 7 25 12]

/-- `Skein::PemuteR120P1024U` (Skein.h:4784-7057), the statements of lines 5226-5587. -/
def skeinR120P1024_1 : List Stmt := [
  .add 1 [.k 6], .add 0 [.b 1, .k 5], .rx 1 41 0, .add 3 [.k 8], .add 2 [.b 3, .k 7], .rx 3 9 2, .add 5 [.k 10], .add 4 [.b 5, .k 9], .rx 5 37 4, .add 7 [.k 12],
  .add 6 [.b 7, .k 11], .rx 7 31 6, .add 9 [.k 14], .add 8 [.b 9, .k 13], .rx 9 12 8, .add 11 [.k 16], .add 10 [.b 11, .k 15], .rx 11 47 10, .add 13 [.k 1, .t 2],
  .add 12 [.b 13, .k 0], .rx 13 44 12, .add 15 [.k 3, .c 5], .add 14 [.b 15, .k 2, .t 0], .rx 15 30 14, .add 0 [.b 9], .rx 9 16 0, .add 2 [.b 13], .rx 13 34 2,
  .add 6 [.b 11], .rx 11 56 6, .add 4 [.b 15], .rx 15 51 4, .add 10 [.b 7], .rx 7 4 10, .add 12 [.b 3], .rx 3 53 12, .add 14 [.b 5], .rx 5 42 14, .add 8 [.b 1],
  .rx 1 41 8, .add 0 [.b 7], .rx 7 31 0, .add 2 [.b 5], .rx 5 44 2, .add 4 [.b 3], .rx 3 47 4, .add 6 [.b 1], .rx 1 46 6, .add 12 [.b 15], .rx 15 19 12, .add 14 [.b 13],
  .rx 13 42 14, .add 8 [.b 11], .rx 11 44 8, .add 10 [.b 9], .rx 9 25 10, .add 0 [.b 15], .rx 15 9 0, .add 2 [.b 11], .rx 11 48 2, .add 6 [.b 13], .rx 13 35 6,
  .add 4 [.b 9], .rx 9 52 4, .add 14 [.b 1], .rx 1 23 14, .add 8 [.b 5], .rx 5 31 8, .add 10 [.b 3], .rx 3 37 10, .add 12 [.b 7], .rx 7 20 12, .add 1 [.k 7],
  .add 0 [.b 1, .k 6], .rx 1 24 0, .add 3 [.k 9], .add 2 [.b 3, .k 8], .rx 3 13 2, .add 5 [.k 11], .add 4 [.b 5, .k 10], .rx 5 8 4, .add 7 [.k 13], .add 6 [.b 7, .k 12],
  .rx 7 47 6, .add 9 [.k 15], .add 8 [.b 9, .k 14], .rx 9 8 8, .add 11 [.k 0], .add 10 [.b 11, .k 16], .rx 11 17 10, .add 13 [.k 2, .t 0], .add 12 [.b 13, .k 1],
  .rx 13 22 12, .add 15 [.k 4, .c 6], .add 14 [.b 15, .k 3, .t 1], .rx 15 37 14, .add 0 [.b 9], .rx 9 38 0, .add 2 [.b 13], .rx 13 19 2, .add 6 [.b 11], .rx 11 10 6,
  .add 4 [.b 15], .rx 15 55 4, .add 10 [.b 7], .rx 7 49 10, .add 12 [.b 3], .rx 3 18 12, .add 14 [.b 5], .rx 5 23 14, .add 8 [.b 1], .rx 1 52 8, .add 0 [.b 7],
  .rx 7 33 0, .add 2 [.b 5], .rx 5 4 2, .add 4 [.b 3], .rx 3 51 4, .add 6 [.b 1], .rx 1 13 6, .add 12 [.b 15], .rx 15 34 12, .add 14 [.b 13], .rx 13 41 14,
  .add 8 [.b 11], .rx 11 59 8, .add 10 [.b 9], .rx 9 17 10, .add 0 [.b 15], .rx 15 5 0, .add 2 [.b 11], .rx 11 20 2, .add 6 [.b 13], .rx 13 48 6, .add 4 [.b 9],
  .rx 9 41 4, .add 14 [.b 1], .rx 1 47 14, .add 8 [.b 5], .rx 5 28 8, .add 10 [.b 3], .rx 3 16 10, .add 12 [.b 7], .rx 7 25 12, .add 1 [.k 8], .add 0 [.b 1, .k 7],
  .rx 1 41 0, .add 3 [.k 10], .add 2 [.b 3, .k 9], .rx 3 9 2, .add 5 [.k 12], .add 4 [.b 5, .k 11], .rx 5 37 4, .add 7 [.k 14], .add 6 [.b 7, .k 13], .rx 7 31 6,
  .add 9 [.k 16], .add 8 [.b 9, .k 15], .rx 9 12 8, .add 11 [.k 1], .add 10 [.b 11, .k 0], .rx 11 47 10, .add 13 [.k 3, .t 1], .add 12 [.b 13, .k 2], .rx 13 44 12,
  .add 15 [.k 5, .c 7], .add 14 [.b 15, .k 4, .t 2], .rx 15 30 14, .add 0 [.b 9], .rx 9 16 0, .add 2 [.b 13], .rx 13 34 2, .add 6 [.b 11], .rx 11 56 6, .add 4 [.b 15],
  .rx 15 51 4, .add 10 [.b 7], .rx 7 4 10, .add 12 [.b 3], .rx 3 53 12, .add 14 [.b 5], .rx 5 42 14, .add 8 [.b 1], .rx 1 41 8, .add 0 [.b 7], .rx 7 31 0, .add 2 [.b 5],
  .rx 5 44 2, .add 4 [.b 3], .rx 3 47 4, .add 6 [.b 1], .rx 1 46 6, .add 12 [.b 15], .rx 15 19 12, .add 14 [.b 13], .rx 13 42 14, .add 8 [.b 11], .rx 11 44 8,
  .add 10 [.b 9], .rx 9 25 10, .add 0 [.b 15], .rx 15 9 0, .add 2 [.b 11], .rx 11 48 2, .add 6 [.b 13], .rx 13 35 6, .add 4 [.b 9], .rx 9 52 4, .add 14 [.b 1],
  .rx 1 23 14, .add 8 [.b 5], .rx 5 31 8, .add 10 [.b 3], .rx 3 37 10, .add 12 [.b 7], .rx 7 20 12, .add 1 [.k 9], .add 0 [.b 1, .k 8], .rx 1 24 0, .add 3 [.k 11],
  .add 2 [.b 3, .k 10], .rx 3 13 2, .add 5 [.k 13], .add 4 [.b 5, .k 12], .rx 5 8 4, .add 7 [.k 15], .add 6 [.b 7, .k 14], .rx 7 47 6, .add 9 [.k 0],
  .add 8 [.b 9, .k 16], .rx 9 8 8, .add 11 [.k 2], .add 10 [.b 11, .k 1], .rx 11 17 10, .add 13 [.k 4, .t 2], .add 12 [.b 13, .k 3], .rx 13 22 12, .add 15 [.k 6, .c 8],
  .add 14 [.b 15, .k 5, .t 0], .rx 15 37 14, .add 0 [.b 9], .rx 9 38 0, .add 2 [.b 13], .rx 13 19 2, .add 6 [.b 11], .rx 11 10 6, .add 4 [.b 15], .rx 15 55 4,
  .add 10 [.b 7], .rx 7 49 10, .add 12 [.b 3], .rx 3 18 12, .add 14 [.b 5], .rx 5 23 14, .add 8 [.b 1], .rx 1 52 8, .add 0 [.b 7], .rx 7 33 0, .add 2 [.b 5], .rx 5 4 2,
  .add 4 [.b 3], .rx 3 51 4, .add 6 [.b 1], .rx 1 13 6, .add 12 [.b 15], .rx 15 34 12, .add 14 [.b 13], .rx 13 41 14, .add 8 [.b 11], .rx 11 59 8, .add 10 [.b 9],
  .rx 9 17 10, .add 0 [.b 15], .rx 15 5 0, .add 2 [.b 11], .rx 11 20 2, .add 6 [.b 13], .rx 13 48 6, .add 4 [.b 9], .rx 9 41 4, .add 14 [.b 1], .rx 1 47 14,
  .add 8 [.b 5], .rx 5 28 8, .add 10 [.b 3], .rx 3 16 10, .add 12 [.b 7], .rx 7 25 12, .add 1 [.k 10], .add 0 [.b 1, .k 9], .rx 1 41 0, .add 3 [.k 12],
  .add 2 [.b 3, .k 11], .rx 3 9 2, .add 5 [.k 14], .add 4 [.b 5, .k 13], .rx 5 37 4, .add 7 [.k 16], .add 6 [.b 7, .k 15], .rx 7 31 6, .add 9 [.k 1],
  .add 8 [.b 9, .k 0], .rx 9 12 8, .add 11 [.k 3], .add 10 [.b 11, .k 2], .rx 11 47 10, .add 13 [.k 5, .t 0], .add 12 [.b 13, .k 4], .rx 13 44 12, .add 15 [.k 7, .c 9],
  .add 14 [.b 15, .k 6, .t 1], .rx 15 30 14, .add 0 [.b 9], .rx 9 16 0, .add 2 [.b 13], .rx 13 34 2, .add 6 [.b 11], .rx 11 56 6, .add 4 [.b 15], .rx 15 51 4,
  .add 10 [.b 7], .rx 7 4 10, .add 12 [.b 3], .rx 3 53 12, .add 14 [.b 5], .rx 5 42 14, .add 8 [.b 1], .rx 1 41 8, .add 0 [.b 7], .rx 7 31 0, .add 2 [.b 5], .rx 5 44 2,
  .add 4 [.b 3], .rx 3 47 4, .add 6 [.b 1], .rx 1 46 6, .add 12 [.b 15], .rx 15 19 12, .add 14 [.b 13], .rx 13 42 14, .add 8 [.b 11], .rx 11 44 8, .add 10 [.b 9],
  .rx 9 25 10, .add 0 [.b 15], .rx 15 9 0, .add 2 [.b 11], .rx 11 48 2, .add 6 [.b 13], .rx 13 35 6, .add 4 [.b 9], .rx 9 52 4, .add 14 [.b 1], .rx 1 23 14,
  .add 8 [.b 5], .rx 5 31 8, .add 10 [.b 3], .rx 3 37 10, .add 12 [.b 7], .rx 7 20 12]

/-- `Skein::PemuteR120P1024U` (Skein.h:4784-7057), the statements of lines 5589-5950. -/
def skeinR120P1024_2 : List Stmt := [
  .add 1 [.k 11], .add 0 [.b 1, .k 10], .rx 1 24 0, .add 3 [.k 13], .add 2 [.b 3, .k 12], .rx 3 13 2, .add 5 [.k 15], .add 4 [.b 5, .k 14], .rx 5 8 4, .add 7 [.k 0],
  .add 6 [.b 7, .k 16], .rx 7 47 6, .add 9 [.k 2], .add 8 [.b 9, .k 1], .rx 9 8 8, .add 11 [.k 4], .add 10 [.b 11, .k 3], .rx 11 17 10, .add 13 [.k 6, .t 1],
  .add 12 [.b 13, .k 5], .rx 13 22 12, .add 15 [.k 8, .c 10], .add 14 [.b 15, .k 7, .t 2], .rx 15 37 14, .add 0 [.b 9], .rx 9 38 0, .add 2 [.b 13], .rx 13 19 2,
  .add 6 [.b 11], .rx 11 10 6, .add 4 [.b 15], .rx 15 55 4, .add 10 [.b 7], .rx 7 49 10, .add 12 [.b 3], .rx 3 18 12, .add 14 [.b 5], .rx 5 23 14, .add 8 [.b 1],
  .rx 1 52 8, .add 0 [.b 7], .rx 7 33 0, .add 2 [.b 5], .rx 5 4 2, .add 4 [.b 3], .rx 3 51 4, .add 6 [.b 1], .rx 1 13 6, .add 12 [.b 15], .rx 15 34 12, .add 14 [.b 13],
  .rx 13 41 14, .add 8 [.b 11], .rx 11 59 8, .add 10 [.b 9], .rx 9 17 10, .add 0 [.b 15], .rx 15 5 0, .add 2 [.b 11], .rx 11 20 2, .add 6 [.b 13], .rx 13 48 6,
  .add 4 [.b 9], .rx 9 41 4, .add 14 [.b 1], .rx 1 47 14, .add 8 [.b 5], .rx 5 28 8, .add 10 [.b 3], .rx 3 16 10, .add 12 [.b 7], .rx 7 25 12, .add 1 [.k 12],
  .add 0 [.b 1, .k 11], .rx 1 41 0, .add 3 [.k 14], .add 2 [.b 3, .k 13], .rx 3 9 2, .add 5 [.k 16], .add 4 [.b 5, .k 15], .rx 5 37 4, .add 7 [.k 1],
  .add 6 [.b 7, .k 0], .rx 7 31 6, .add 9 [.k 3], .add 8 [.b 9, .k 2], .rx 9 12 8, .add 11 [.k 5], .add 10 [.b 11, .k 4], .rx 11 47 10, .add 13 [.k 7, .t 2],
  .add 12 [.b 13, .k 6], .rx 13 44 12, .add 15 [.k 9, .c 11], .add 14 [.b 15, .k 8, .t 0], .rx 15 30 14, .add 0 [.b 9], .rx 9 16 0, .add 2 [.b 13], .rx 13 34 2,
  .add 6 [.b 11], .rx 11 56 6, .add 4 [.b 15], .rx 15 51 4, .add 10 [.b 7], .rx 7 4 10, .add 12 [.b 3], .rx 3 53 12, .add 14 [.b 5], .rx 5 42 14, .add 8 [.b 1],
  .rx 1 41 8, .add 0 [.b 7], .rx 7 31 0, .add 2 [.b 5], .rx 5 44 2, .add 4 [.b 3], .rx 3 47 4, .add 6 [.b 1], .rx 1 46 6, .add 12 [.b 15], .rx 15 19 12, .add 14 [.b 13],
  .rx 13 42 14, .add 8 [.b 11], .rx 11 44 8, .add 10 [.b 9], .rx 9 25 10, .add 0 [.b 15], .rx 15 9 0, .add 2 [.b 11], .rx 11 48 2, .add 6 [.b 13], .rx 13 35 6,
  .add 4 [.b 9], .rx 9 52 4, .add 14 [.b 1], .rx 1 23 14, .add 8 [.b 5], .rx 5 31 8, .add 10 [.b 3], .rx 3 37 10, .add 12 [.b 7], .rx 7 20 12, .add 1 [.k 13],
  .add 0 [.b 1, .k 12], .rx 1 24 0, .add 3 [.k 15], .add 2 [.b 3, .k 14], .rx 3 13 2, .add 5 [.k 0], .add 4 [.b 5, .k 16], .rx 5 8 4, .add 7 [.k 2], .add 6 [.b 7, .k 1],
  .rx 7 47 6, .add 9 [.k 4], .add 8 [.b 9, .k 3], .rx 9 8 8, .add 11 [.k 6], .add 10 [.b 11, .k 5], .rx 11 17 10, .add 13 [.k 8, .t 0], .add 12 [.b 13, .k 7],
  .rx 13 22 12, .add 15 [.k 10, .c 12], .add 14 [.b 15, .k 9, .t 1], .rx 15 37 14, .add 0 [.b 9], .rx 9 38 0, .add 2 [.b 13], .rx 13 19 2, .add 6 [.b 11], .rx 11 10 6,
  .add 4 [.b 15], .rx 15 55 4, .add 10 [.b 7], .rx 7 49 10, .add 12 [.b 3], .rx 3 18 12, .add 14 [.b 5], .rx 5 23 14, .add 8 [.b 1], .rx 1 52 8, .add 0 [.b 7],
  .rx 7 33 0, .add 2 [.b 5], .rx 5 4 2, .add 4 [.b 3], .rx 3 51 4, .add 6 [.b 1], .rx 1 13 6, .add 12 [.b 15], .rx 15 34 12, .add 14 [.b 13], .rx 13 41 14,
  .add 8 [.b 11], .rx 11 59 8, .add 10 [.b 9], .rx 9 17 10, .add 0 [.b 15], .rx 15 5 0, .add 2 [.b 11], .rx 11 20 2, .add 6 [.b 13], .rx 13 48 6, .add 4 [.b 9],
  .rx 9 41 4, .add 14 [.b 1], .rx 1 47 14, .add 8 [.b 5], .rx 5 28 8, .add 10 [.b 3], .rx 3 16 10, .add 12 [.b 7], .rx 7 25 12, .add 1 [.k 14], .add 0 [.b 1, .k 13],
  .rx 1 41 0, .add 3 [.k 16], .add 2 [.b 3, .k 15], .rx 3 9 2, .add 5 [.k 1], .add 4 [.b 5, .k 0], .rx 5 37 4, .add 7 [.k 3], .add 6 [.b 7, .k 2], .rx 7 31 6,
  .add 9 [.k 5], .add 8 [.b 9, .k 4], .rx 9 12 8, .add 11 [.k 7], .add 10 [.b 11, .k 6], .rx 11 47 10, .add 13 [.k 9, .t 1], .add 12 [.b 13, .k 8], .rx 13 44 12,
  .add 15 [.k 11, .c 13], .add 14 [.b 15, .k 10, .t 2], .rx 15 30 14, .add 0 [.b 9], .rx 9 16 0, .add 2 [.b 13], .rx 13 34 2, .add 6 [.b 11], .rx 11 56 6,
  .add 4 [.b 15], .rx 15 51 4, .add 10 [.b 7], .rx 7 4 10, .add 12 [.b 3], .rx 3 53 12, .add 14 [.b 5], .rx 5 42 14, .add 8 [.b 1], .rx 1 41 8, .add 0 [.b 7],
  .rx 7 31 0, .add 2 [.b 5], .rx 5 44 2, .add 4 [.b 3], .rx 3 47 4, .add 6 [.b 1], .rx 1 46 6, .add 12 [.b 15], .rx 15 19 12, .add 14 [.b 13], .rx 13 42 14,
  .add 8 [.b 11], .rx 11 44 8, .add 10 [.b 9], .rx 9 25 10, .add 0 [.b 15], .rx 15 9 0, .add 2 [.b 11], .rx 11 48 2, .add 6 [.b 13], .rx 13 35 6, .add 4 [.b 9],
  .rx 9 52 4, .add 14 [.b 1], .rx 1 23 14, .add 8 [.b 5], .rx 5 31 8, .add 10 [.b 3], .rx 3 37 10, .add 12 [.b 7], .rx 7 20 12, .add 1 [.k 15], .add 0 [.b 1, .k 14],
  .rx 1 24 0, .add 3 [.k 0], .add 2 [.b 3, .k 16], .rx 3 13 2, .add 5 [.k 2], .add 4 [.b 5, .k 1], .rx 5 8 4, .add 7 [.k 4], .add 6 [.b 7, .k 3], .rx 7 47 6,
  .add 9 [.k 6], .add 8 [.b 9, .k 5], .rx 9 8 8, .add 11 [.k 8], .add 10 [.b 11, .k 7], .rx 11 17 10, .add 13 [.k 10, .t 2], .add 12 [.b 13, .k 9], .rx 13 22 12,
  .add 15 [.k 12, .c 14], .add 14 [.b 15, .k 11, .t 0], .rx 15 37 14, .add 0 [.b 9], .rx 9 38 0, .add 2 [.b 13], .rx 13 19 2, .add 6 [.b 11], .rx 11 10 6,
  .add 4 [.b 15], .rx 15 55 4, .add 10 [.b 7], .rx 7 49 10, .add 12 [.b 3], .rx 3 18 12, .add 14 [.b 5], .rx 5 23 14, .add 8 [.b 1], .rx 1 52 8, .add 0 [.b 7],
  .rx 7 33 0, .add 2 [.b 5], .rx 5 4 2, .add 4 [.b 3], .rx 3 51 4, .add 6 [.b 1], .rx 1 13 6, .add 12 [.b 15], .rx 15 34 12, .add 14 [.b 13], .rx 13 41 14,
  .add 8 [.b 11], .rx 11 59 8, .add 10 [.b 9], .rx 9 17 10, .add 0 [.b 15], .rx 15 5 0, .add 2 [.b 11], .rx 11 20 2, .add 6 [.b 13], .rx 13 48 6, .add 4 [.b 9],
  .rx 9 41 4, .add 14 [.b 1], .rx 1 47 14, .add 8 [.b 5], .rx 5 28 8, .add 10 [.b 3], .rx 3 16 10, .add 12 [.b 7], .rx 7 25 12]

/-- `Skein::PemuteR120P1024U` (Skein.h:4784-7057), the statements of lines 5951-6312. -/
def skeinR120P1024_3 : List Stmt := [
  .add 1 [.k 16], .add 0 [.b 1, .k 15], .rx 1 41 0, .add 3 [.k 1], .add 2 [.b 3, .k 0], .rx 3 9 2, .add 5 [.k 3], .add 4 [.b 5, .k 2], .rx 5 37 4, .add 7 [.k 5],
  .add 6 [.b 7, .k 4], .rx 7 31 6, .add 9 [.k 7], .add 8 [.b 9, .k 6], .rx 9 12 8, .add 11 [.k 9], .add 10 [.b 11, .k 8], .rx 11 47 10, .add 13 [.k 11, .t 0],
  .add 12 [.b 13, .k 10], .rx 13 44 12, .add 15 [.k 13, .c 15], .add 14 [.b 15, .k 12, .t 1], .rx 15 30 14, .add 0 [.b 9], .rx 9 16 0, .add 2 [.b 13], .rx 13 34 2,
  .add 6 [.b 11], .rx 11 56 6, .add 4 [.b 15], .rx 15 51 4, .add 10 [.b 7], .rx 7 4 10, .add 12 [.b 3], .rx 3 53 12, .add 14 [.b 5], .rx 5 42 14, .add 8 [.b 1],
  .rx 1 41 8, .add 0 [.b 7], .rx 7 31 0, .add 2 [.b 5], .rx 5 44 2, .add 4 [.b 3], .rx 3 47 4, .add 6 [.b 1], .rx 1 46 6, .add 12 [.b 15], .rx 15 19 12, .add 14 [.b 13],
  .rx 13 42 14, .add 8 [.b 11], .rx 11 44 8, .add 10 [.b 9], .rx 9 25 10, .add 0 [.b 15], .rx 15 9 0, .add 2 [.b 11], .rx 11 48 2, .add 6 [.b 13], .rx 13 35 6,
  .add 4 [.b 9], .rx 9 52 4, .add 14 [.b 1], .rx 1 23 14, .add 8 [.b 5], .rx 5 31 8, .add 10 [.b 3], .rx 3 37 10, .add 12 [.b 7], .rx 7 20 12, .add 1 [.k 0],
  .add 0 [.b 1, .k 16], .rx 1 24 0, .add 3 [.k 2], .add 2 [.b 3, .k 1], .rx 3 13 2, .add 5 [.k 4], .add 4 [.b 5, .k 3], .rx 5 8 4, .add 7 [.k 6], .add 6 [.b 7, .k 5],
  .rx 7 47 6, .add 9 [.k 8], .add 8 [.b 9, .k 7], .rx 9 8 8, .add 11 [.k 10], .add 10 [.b 11, .k 9], .rx 11 17 10, .add 13 [.k 12, .t 1], .add 12 [.b 13, .k 11],
  .rx 13 22 12, .add 15 [.k 14, .c 16], .add 14 [.b 15, .k 13, .t 2], .rx 15 37 14, .add 0 [.b 9], .rx 9 38 0, .add 2 [.b 13], .rx 13 19 2, .add 6 [.b 11], .rx 11 10 6,
  .add 4 [.b 15], .rx 15 55 4, .add 10 [.b 7], .rx 7 49 10, .add 12 [.b 3], .rx 3 18 12, .add 14 [.b 5], .rx 5 23 14, .add 8 [.b 1], .rx 1 52 8, .add 0 [.b 7],
  .rx 7 33 0, .add 2 [.b 5], .rx 5 4 2, .add 4 [.b 3], .rx 3 51 4, .add 6 [.b 1], .rx 1 13 6, .add 12 [.b 15], .rx 15 34 12, .add 14 [.b 13], .rx 13 41 14,
  .add 8 [.b 11], .rx 11 59 8, .add 10 [.b 9], .rx 9 17 10, .add 0 [.b 15], .rx 15 5 0, .add 2 [.b 11], .rx 11 20 2, .add 6 [.b 13], .rx 13 48 6, .add 4 [.b 9],
  .rx 9 41 4, .add 14 [.b 1], .rx 1 47 14, .add 8 [.b 5], .rx 5 28 8, .add 10 [.b 3], .rx 3 16 10, .add 12 [.b 7], .rx 7 25 12, .add 1 [.k 1], .add 0 [.b 1, .k 0],
  .rx 1 41 0, .add 3 [.k 3], .add 2 [.b 3, .k 2], .rx 3 9 2, .add 5 [.k 5], .add 4 [.b 5, .k 4], .rx 5 37 4, .add 7 [.k 7], .add 6 [.b 7, .k 6], .rx 7 31 6,
  .add 9 [.k 9], .add 8 [.b 9, .k 8], .rx 9 12 8, .add 11 [.k 11], .add 10 [.b 11, .k 10], .rx 11 47 10, .add 13 [.k 13, .t 2], .add 12 [.b 13, .k 12], .rx 13 44 12,
  .add 15 [.k 15, .c 17], .add 14 [.b 15, .k 14, .t 0], .rx 15 30 14, .add 0 [.b 9], .rx 9 16 0, .add 2 [.b 13], .rx 13 34 2, .add 6 [.b 11], .rx 11 56 6,
  .add 4 [.b 15], .rx 15 51 4, .add 10 [.b 7], .rx 7 4 10, .add 12 [.b 3], .rx 3 53 12, .add 14 [.b 5], .rx 5 42 14, .add 8 [.b 1], .rx 1 41 8, .add 0 [.b 7],
  .rx 7 31 0, .add 2 [.b 5], .rx 5 44 2, .add 4 [.b 3], .rx 3 47 4, .add 6 [.b 1], .rx 1 46 6, .add 12 [.b 15], .rx 15 19 12, .add 14 [.b 13], .rx 13 42 14,
  .add 8 [.b 11], .rx 11 44 8, .add 10 [.b 9], .rx 9 25 10, .add 0 [.b 15], .rx 15 9 0, .add 2 [.b 11], .rx 11 48 2, .add 6 [.b 13], .rx 13 35 6, .add 4 [.b 9],
  .rx 9 52 4, .add 14 [.b 1], .rx 1 23 14, .add 8 [.b 5], .rx 5 31 8, .add 10 [.b 3], .rx 3 37 10, .add 12 [.b 7], .rx 7 20 12, .add 1 [.k 2], .add 0 [.b 1, .k 1],
  .rx 1 24 0, .add 3 [.k 4], .add 2 [.b 3, .k 3], .rx 3 13 2, .add 5 [.k 6], .add 4 [.b 5, .k 5], .rx 5 8 4, .add 7 [.k 8], .add 6 [.b 7, .k 7], .rx 7 47 6,
  .add 9 [.k 10], .add 8 [.b 9, .k 9], .rx 9 8 8, .add 11 [.k 12], .add 10 [.b 11, .k 11], .rx 11 17 10, .add 13 [.k 14, .t 0], .add 12 [.b 13, .k 13], .rx 13 22 12,
  .add 15 [.k 16, .c 18], .add 14 [.b 15, .k 15, .t 1], .rx 15 37 14, .add 0 [.b 9], .rx 9 38 0, .add 2 [.b 13], .rx 13 19 2, .add 6 [.b 11], .rx 11 10 6,
  .add 4 [.b 15], .rx 15 55 4, .add 10 [.b 7], .rx 7 49 10, .add 12 [.b 3], .rx 3 18 12, .add 14 [.b 5], .rx 5 23 14, .add 8 [.b 1], .rx 1 52 8, .add 0 [.b 7],
  .rx 7 33 0, .add 2 [.b 5], .rx 5 4 2, .add 4 [.b 3], .rx 3 51 4, .add 6 [.b 1], .rx 1 13 6, .add 12 [.b 15], .rx 15 34 12, .add 14 [.b 13], .rx 13 41 14,
  .add 8 [.b 11], .rx 11 59 8, .add 10 [.b 9], .rx 9 17 10, .add 0 [.b 15], .rx 15 5 0, .add 2 [.b 11], .rx 11 20 2, .add 6 [.b 13], .rx 13 48 6, .add 4 [.b 9],
  .rx 9 41 4, .add 14 [.b 1], .rx 1 47 14, .add 8 [.b 5], .rx 5 28 8, .add 10 [.b 3], .rx 3 16 10, .add 12 [.b 7], .rx 7 25 12, .add 1 [.k 3], .add 0 [.b 1, .k 2],
  .rx 1 41 0, .add 3 [.k 5], .add 2 [.b 3, .k 4], .rx 3 9 2, .add 5 [.k 7], .add 4 [.b 5, .k 6], .rx 5 37 4, .add 7 [.k 9], .add 6 [.b 7, .k 8], .rx 7 31 6,
  .add 9 [.k 11], .add 8 [.b 9, .k 10], .rx 9 12 8, .add 11 [.k 13], .add 10 [.b 11, .k 12], .rx 11 47 10, .add 13 [.k 15, .t 1], .add 12 [.b 13, .k 14], .rx 13 44 12,
  .add 15 [.k 0, .c 19], .add 14 [.b 15, .k 16, .t 2], .rx 15 30 14, .add 0 [.b 9], .rx 9 16 0, .add 2 [.b 13], .rx 13 34 2, .add 6 [.b 11], .rx 11 56 6, .add 4 [.b 15],
  .rx 15 51 4, .add 10 [.b 7], .rx 7 4 10, .add 12 [.b 3], .rx 3 53 12, .add 14 [.b 5], .rx 5 42 14, .add 8 [.b 1], .rx 1 41 8, .add 0 [.b 7], .rx 7 31 0, .add 2 [.b 5],
  .rx 5 44 2, .add 4 [.b 3], .rx 3 47 4, .add 6 [.b 1], .rx 1 46 6, .add 12 [.b 15], .rx 15 19 12, .add 14 [.b 13], .rx 13 42 14, .add 8 [.b 11], .rx 11 44 8,
  .add 10 [.b 9], .rx 9 25 10, .add 0 [.b 15], .rx 15 9 0, .add 2 [.b 11], .rx 11 48 2, .add 6 [.b 13], .rx 13 35 6, .add 4 [.b 9], .rx 9 52 4, .add 14 [.b 1],
  .rx 1 23 14, .add 8 [.b 5], .rx 5 31 8, .add 10 [.b 3], .rx 3 37 10, .add 12 [.b 7], .rx 7 20 12]

/-- `Skein::PemuteR120P1024U` (Skein.h:4784-7057), the statements of lines 6315-6677. -/
def skeinR120P1024_4 : List Stmt := [
  .add 1 [.k 4], .add 0 [.b 1, .k 3], .rx 1 24 0, .add 3 [.k 6], .add 2 [.b 3, .k 5], .rx 3 13 2, .add 5 [.k 8], .add 4 [.b 5, .k 7], .rx 5 8 4, .add 7 [.k 10],
  .add 6 [.b 7, .k 9], .rx 7 47 6, .add 9 [.k 12], .add 8 [.b 9, .k 11], .rx 9 8 8, .add 11 [.k 14], .add 10 [.b 11, .k 13], .rx 11 17 10, .add 13 [.k 16, .t 2],
  .add 12 [.b 13, .k 15], .rx 13 22 12, .add 15 [.k 1, .c 20], .add 14 [.b 15, .k 0, .t 0], .rx 15 37 14, .add 0 [.b 9], .rx 9 38 0, .add 2 [.b 13], .rx 13 19 2,
  .add 6 [.b 11], .rx 11 10 6, .add 4 [.b 15], .rx 15 55 4, .add 10 [.b 7], .rx 7 49 10, .add 12 [.b 3], .rx 3 18 12, .add 14 [.b 5], .rx 5 23 14, .add 8 [.b 1],
  .rx 1 52 8, .add 0 [.b 7], .rx 7 33 0, .add 2 [.b 5], .rx 5 4 2, .add 4 [.b 3], .rx 3 51 4, .add 6 [.b 1], .rx 1 13 6, .add 12 [.b 15], .rx 15 34 12, .add 14 [.b 13],
  .rx 13 41 14, .add 8 [.b 11], .rx 11 59 8, .add 10 [.b 9], .rx 9 17 10, .add 0 [.b 15], .rx 15 5 0, .add 2 [.b 11], .rx 11 20 2, .add 6 [.b 13], .rx 13 48 6,
  .add 4 [.b 9], .rx 9 41 4, .add 14 [.b 1], .rx 1 47 14, .add 8 [.b 5], .rx 5 28 8, .add 10 [.b 3], .rx 3 16 10, .add 12 [.b 7], .rx 7 25 12, .add 1 [.k 5],
  .add 0 [.b 1, .k 4], .rx 1 41 0, .add 3 [.k 7], .add 2 [.b 3, .k 6], .rx 3 9 2, .add 5 [.k 9], .add 4 [.b 5, .k 8], .rx 5 37 4, .add 7 [.k 11], .add 6 [.b 7, .k 10],
  .rx 7 31 6, .add 9 [.k 13], .add 8 [.b 9, .k 12], .rx 9 12 8, .add 11 [.k 15], .add 10 [.b 11, .k 14], .rx 11 47 10, .add 13 [.k 0, .t 0], .add 12 [.b 13, .k 16],
  .rx 13 44 12, .add 15 [.k 2, .c 21], .add 14 [.b 15, .k 1, .t 1], .rx 15 30 14, .add 0 [.b 9], .rx 9 16 0, .add 2 [.b 13], .rx 13 34 2, .add 6 [.b 11], .rx 11 56 6,
  .add 4 [.b 15], .rx 15 51 4, .add 10 [.b 7], .rx 7 4 10, .add 12 [.b 3], .rx 3 53 12, .add 14 [.b 5], .rx 5 42 14, .add 8 [.b 1], .rx 1 41 8, .add 0 [.b 7],
  .rx 7 31 0, .add 2 [.b 5], .rx 5 44 2, .add 4 [.b 3], .rx 3 47 4, .add 6 [.b 1], .rx 1 46 6, .add 12 [.b 15], .rx 15 19 12, .add 14 [.b 13], .rx 13 42 14,
  .add 8 [.b 11], .rx 11 44 8, .add 10 [.b 9], .rx 9 25 10, .add 0 [.b 15], .rx 15 9 0, .add 2 [.b 11], .rx 11 48 2, .add 6 [.b 13], .rx 13 35 6, .add 4 [.b 9],
  .rx 9 52 4, .add 14 [.b 1], .rx 1 23 14, .add 8 [.b 5], .rx 5 31 8, .add 10 [.b 3], .rx 3 37 10, .add 12 [.b 7], .rx 7 20 12, .add 1 [.k 6], .add 0 [.b 1, .k 5],
  .rx 1 24 0, .add 3 [.k 8], .add 2 [.b 3, .k 7], .rx 3 13 2, .add 5 [.k 10], .add 4 [.b 5, .k 9], .rx 5 8 4, .add 7 [.k 12], .add 6 [.b 7, .k 11], .rx 7 47 6,
  .add 9 [.k 14], .add 8 [.b 9, .k 13], .rx 9 8 8, .add 11 [.k 16], .add 10 [.b 11, .k 15], .rx 11 17 10, .add 13 [.k 1, .t 1], .add 12 [.b 13, .k 0], .rx 13 22 12,
  .add 15 [.k 3, .c 22], .add 14 [.b 15, .k 2, .t 2], .rx 15 37 14, .add 0 [.b 9], .rx 9 38 0, .add 2 [.b 13], .rx 13 19 2, .add 6 [.b 11], .rx 11 10 6, .add 4 [.b 15],
  .rx 15 55 4, .add 10 [.b 7], .rx 7 49 10, .add 12 [.b 3], .rx 3 18 12, .add 14 [.b 5], .rx 5 23 14, .add 8 [.b 1], .rx 1 52 8, .add 0 [.b 7], .rx 7 33 0,
  .add 2 [.b 5], .rx 5 4 2, .add 4 [.b 3], .rx 3 51 4, .add 6 [.b 1], .rx 1 13 6, .add 12 [.b 15], .rx 15 34 12, .add 14 [.b 13], .rx 13 41 14, .add 8 [.b 11],
  .rx 11 59 8, .add 10 [.b 9], .rx 9 17 10, .add 0 [.b 15], .rx 15 5 0, .add 2 [.b 11], .rx 11 20 2, .add 6 [.b 13], .rx 13 48 6, .add 4 [.b 9], .rx 9 41 4,
  .add 14 [.b 1], .rx 1 47 14, .add 8 [.b 5], .rx 5 28 8, .add 10 [.b 3], .rx 3 16 10, .add 12 [.b 7], .rx 7 25 12, .add 1 [.k 7], .add 0 [.b 1, .k 6], .rx 1 41 0,
  .add 3 [.k 9], .add 2 [.b 3, .k 8], .rx 3 9 2, .add 5 [.k 11], .add 4 [.b 5, .k 10], .rx 5 37 4, .add 7 [.k 13], .add 6 [.b 7, .k 12], .rx 7 31 6, .add 9 [.k 15],
  .add 8 [.b 9, .k 14], .rx 9 12 8, .add 11 [.k 0], .add 10 [.b 11, .k 16], .rx 11 47 10, .add 13 [.k 2, .t 2], .add 12 [.b 13, .k 1], .rx 13 44 12,
  .add 15 [.k 4, .c 23], .add 14 [.b 15, .k 3, .t 0], .rx 15 30 14, .add 0 [.b 9], .rx 9 16 0, .add 2 [.b 13], .rx 13 34 2, .add 6 [.b 11], .rx 11 56 6, .add 4 [.b 15],
  .rx 15 51 4, .add 10 [.b 7], .rx 7 4 10, .add 12 [.b 3], .rx 3 53 12, .add 14 [.b 5], .rx 5 42 14, .add 8 [.b 1], .rx 1 41 8, .add 0 [.b 7], .rx 7 31 0, .add 2 [.b 5],
  .rx 5 44 2, .add 4 [.b 3], .rx 3 47 4, .add 6 [.b 1], .rx 1 46 6, .add 12 [.b 15], .rx 15 19 12, .add 14 [.b 13], .rx 13 42 14, .add 8 [.b 11], .rx 11 44 8,
  .add 10 [.b 9], .rx 9 25 10, .add 0 [.b 15], .rx 15 9 0, .add 2 [.b 11], .rx 11 48 2, .add 6 [.b 13], .rx 13 35 6, .add 4 [.b 9], .rx 9 52 4, .add 14 [.b 1],
  .rx 1 23 14, .add 8 [.b 5], .rx 5 31 8, .add 10 [.b 3], .rx 3 37 10, .add 12 [.b 7], .rx 7 20 12, .add 1 [.k 8], .add 0 [.b 1, .k 7], .rx 1 24 0, .add 3 [.k 10],
  .add 2 [.b 3, .k 9], .rx 3 13 2, .add 5 [.k 12], .add 4 [.b 5, .k 11], .rx 5 8 4, .add 7 [.k 14], .add 6 [.b 7, .k 13], .rx 7 47 6, .add 9 [.k 16],
  .add 8 [.b 9, .k 15], .rx 9 8 8, .add 11 [.k 1], .add 10 [.b 11, .k 0], .rx 11 17 10, .add 13 [.k 3, .t 0], .add 12 [.b 13, .k 2], .rx 13 22 12, .add 15 [.k 5, .c 24],
  .add 14 [.b 15, .k 4, .t 1], .rx 15 37 14, .add 0 [.b 9], .rx 9 38 0, .add 2 [.b 13], .rx 13 19 2, .add 6 [.b 11], .rx 11 10 6, .add 4 [.b 15], .rx 15 55 4,
  .add 10 [.b 7], .rx 7 49 10, .add 12 [.b 3], .rx 3 18 12, .add 14 [.b 5], .rx 5 23 14, .add 8 [.b 1], .rx 1 52 8, .add 0 [.b 7], .rx 7 33 0, .add 2 [.b 5], .rx 5 4 2,
  .add 4 [.b 3], .rx 3 51 4, .add 6 [.b 1], .rx 1 13 6, .add 12 [.b 15], .rx 15 34 12, .add 14 [.b 13], .rx 13 41 14, .add 8 [.b 11], .rx 11 59 8, .add 10 [.b 9],
  .rx 9 17 10, .add 0 [.b 15], .rx 15 5 0, .add 2 [.b 11], .rx 11 20 2, .add 6 [.b 13], .rx 13 48 6, .add 4 [.b 9], .rx 9 41 4, .add 14 [.b 1], .rx 1 47 14,
  .add 8 [.b 5], .rx 5 28 8, .add 10 [.b 3], .rx 3 16 10, .add 12 [.b 7], .rx 7 25 12]

/-- `Skein::PemuteR120P1024U` (Skein.h:4784-7057), the statements of lines 6678-7039. -/
def skeinR120P1024_5 : List Stmt := [
  .add 1 [.k 9], .add 0 [.b 1, .k 8], .rx 1 41 0, .add 3 [.k 11], .add 2 [.b 3, .k 10], .rx 3 9 2, .add 5 [.k 13], .add 4 [.b 5, .k 12], .rx 5 37 4, .add 7 [.k 15],
  .add 6 [.b 7, .k 14], .rx 7 31 6, .add 9 [.k 0], .add 8 [.b 9, .k 16], .rx 9 12 8, .add 11 [.k 2], .add 10 [.b 11, .k 1], .rx 11 47 10, .add 13 [.k 4, .t 1],
  .add 12 [.b 13, .k 3], .rx 13 44 12, .add 15 [.k 6, .c 25], .add 14 [.b 15, .k 5, .t 2], .rx 15 30 14, .add 0 [.b 9], .rx 9 16 0, .add 2 [.b 13], .rx 13 34 2,
  .add 6 [.b 11], .rx 11 56 6, .add 4 [.b 15], .rx 15 51 4, .add 10 [.b 7], .rx 7 4 10, .add 12 [.b 3], .rx 3 53 12, .add 14 [.b 5], .rx 5 42 14, .add 8 [.b 1],
  .rx 1 41 8, .add 0 [.b 7], .rx 7 31 0, .add 2 [.b 5], .rx 5 44 2, .add 4 [.b 3], .rx 3 47 4, .add 6 [.b 1], .rx 1 46 6, .add 12 [.b 15], .rx 15 19 12, .add 14 [.b 13],
  .rx 13 42 14, .add 8 [.b 11], .rx 11 44 8, .add 10 [.b 9], .rx 9 25 10, .add 0 [.b 15], .rx 15 9 0, .add 2 [.b 11], .rx 11 48 2, .add 6 [.b 13], .rx 13 35 6,
  .add 4 [.b 9], .rx 9 52 4, .add 14 [.b 1], .rx 1 23 14, .add 8 [.b 5], .rx 5 31 8, .add 10 [.b 3], .rx 3 37 10, .add 12 [.b 7], .rx 7 20 12, .add 1 [.k 10],
  .add 0 [.b 1, .k 9], .rx 1 24 0, .add 3 [.k 12], .add 2 [.b 3, .k 11], .rx 3 13 2, .add 5 [.k 14], .add 4 [.b 5, .k 13], .rx 5 8 4, .add 7 [.k 16],
  .add 6 [.b 7, .k 15], .rx 7 47 6, .add 9 [.k 1], .add 8 [.b 9, .k 0], .rx 9 8 8, .add 11 [.k 3], .add 10 [.b 11, .k 2], .rx 11 17 10, .add 13 [.k 5, .t 2],
  .add 12 [.b 13, .k 4], .rx 13 22 12, .add 15 [.k 7, .c 26], .add 14 [.b 15, .k 6, .t 0], .rx 15 37 14, .add 0 [.b 9], .rx 9 38 0, .add 2 [.b 13], .rx 13 19 2,
  .add 6 [.b 11], .rx 11 10 6, .add 4 [.b 15], .rx 15 55 4, .add 10 [.b 7], .rx 7 49 10, .add 12 [.b 3], .rx 3 18 12, .add 14 [.b 5], .rx 5 23 14, .add 8 [.b 1],
  .rx 1 52 8, .add 0 [.b 7], .rx 7 33 0, .add 2 [.b 5], .rx 5 4 2, .add 4 [.b 3], .rx 3 51 4, .add 6 [.b 1], .rx 1 13 6, .add 12 [.b 15], .rx 15 34 12, .add 14 [.b 13],
  .rx 13 41 14, .add 8 [.b 11], .rx 11 59 8, .add 10 [.b 9], .rx 9 17 10, .add 0 [.b 15], .rx 15 5 0, .add 2 [.b 11], .rx 11 20 2, .add 6 [.b 13], .rx 13 48 6,
  .add 4 [.b 9], .rx 9 41 4, .add 14 [.b 1], .rx 1 47 14, .add 8 [.b 5], .rx 5 28 8, .add 10 [.b 3], .rx 3 16 10, .add 12 [.b 7], .rx 7 25 12, .add 1 [.k 11],
  .add 0 [.b 1, .k 10], .rx 1 41 0, .add 3 [.k 13], .add 2 [.b 3, .k 12], .rx 3 9 2, .add 5 [.k 15], .add 4 [.b 5, .k 14], .rx 5 37 4, .add 7 [.k 0],
  .add 6 [.b 7, .k 16], .rx 7 31 6, .add 9 [.k 2], .add 8 [.b 9, .k 1], .rx 9 12 8, .add 11 [.k 4], .add 10 [.b 11, .k 3], .rx 11 47 10, .add 13 [.k 6, .t 0],
  .add 12 [.b 13, .k 5], .rx 13 44 12, .add 15 [.k 8, .c 27], .add 14 [.b 15, .k 7, .t 1], .rx 15 30 14, .add 0 [.b 9], .rx 9 16 0, .add 2 [.b 13], .rx 13 34 2,
  .add 6 [.b 11], .rx 11 56 6, .add 4 [.b 15], .rx 15 51 4, .add 10 [.b 7], .rx 7 4 10, .add 12 [.b 3], .rx 3 53 12, .add 14 [.b 5], .rx 5 42 14, .add 8 [.b 1],
  .rx 1 41 8, .add 0 [.b 7], .rx 7 31 0, .add 2 [.b 5], .rx 5 44 2, .add 4 [.b 3], .rx 3 47 4, .add 6 [.b 1], .rx 1 46 6, .add 12 [.b 15], .rx 15 19 12, .add 14 [.b 13],
  .rx 13 42 14, .add 8 [.b 11], .rx 11 44 8, .add 10 [.b 9], .rx 9 25 10, .add 0 [.b 15], .rx 15 9 0, .add 2 [.b 11], .rx 11 48 2, .add 6 [.b 13], .rx 13 35 6,
  .add 4 [.b 9], .rx 9 52 4, .add 14 [.b 1], .rx 1 23 14, .add 8 [.b 5], .rx 5 31 8, .add 10 [.b 3], .rx 3 37 10, .add 12 [.b 7], .rx 7 20 12, .add 1 [.k 12],
  .add 0 [.b 1, .k 11], .rx 1 24 0, .add 3 [.k 14], .add 2 [.b 3, .k 13], .rx 3 13 2, .add 5 [.k 16], .add 4 [.b 5, .k 15], .rx 5 8 4, .add 7 [.k 1],
  .add 6 [.b 7, .k 0], .rx 7 47 6, .add 9 [.k 3], .add 8 [.b 9, .k 2], .rx 9 8 8, .add 11 [.k 5], .add 10 [.b 11, .k 4], .rx 11 17 10, .add 13 [.k 7, .t 1],
  .add 12 [.b 13, .k 6], .rx 13 22 12, .add 15 [.k 9, .c 28], .add 14 [.b 15, .k 8, .t 2], .rx 15 37 14, .add 0 [.b 9], .rx 9 38 0, .add 2 [.b 13], .rx 13 19 2,
  .add 6 [.b 11], .rx 11 10 6, .add 4 [.b 15], .rx 15 55 4, .add 10 [.b 7], .rx 7 49 10, .add 12 [.b 3], .rx 3 18 12, .add 14 [.b 5], .rx 5 23 14, .add 8 [.b 1],
  .rx 1 52 8, .add 0 [.b 7], .rx 7 33 0, .add 2 [.b 5], .rx 5 4 2, .add 4 [.b 3], .rx 3 51 4, .add 6 [.b 1], .rx 1 13 6, .add 12 [.b 15], .rx 15 34 12, .add 14 [.b 13],
  .rx 13 41 14, .add 8 [.b 11], .rx 11 59 8, .add 10 [.b 9], .rx 9 17 10, .add 0 [.b 15], .rx 15 5 0, .add 2 [.b 11], .rx 11 20 2, .add 6 [.b 13], .rx 13 48 6,
  .add 4 [.b 9], .rx 9 41 4, .add 14 [.b 1], .rx 1 47 14, .add 8 [.b 5], .rx 5 28 8, .add 10 [.b 3], .rx 3 16 10, .add 12 [.b 7], .rx 7 25 12, .add 1 [.k 13],
  .add 0 [.b 1, .k 12], .rx 1 41 0, .add 3 [.k 15], .add 2 [.b 3, .k 14], .rx 3 9 2, .add 5 [.k 0], .add 4 [.b 5, .k 16], .rx 5 37 4, .add 7 [.k 2], .add 6 [.b 7, .k 1],
  .rx 7 31 6, .add 9 [.k 4], .add 8 [.b 9, .k 3], .rx 9 12 8, .add 11 [.k 6], .add 10 [.b 11, .k 5], .rx 11 47 10, .add 13 [.k 8, .t 2], .add 12 [.b 13, .k 7],
  .rx 13 44 12, .add 15 [.k 10, .c 29], .add 14 [.b 15, .k 9, .t 0], .rx 15 30 14, .add 0 [.b 9], .rx 9 16 0, .add 2 [.b 13], .rx 13 34 2, .add 6 [.b 11], .rx 11 56 6,
  .add 4 [.b 15], .rx 15 51 4, .add 10 [.b 7], .rx 7 4 10, .add 12 [.b 3], .rx 3 53 12, .add 14 [.b 5], .rx 5 42 14, .add 8 [.b 1], .rx 1 41 8, .add 0 [.b 7],
  .rx 7 31 0, .add 2 [.b 5], .rx 5 44 2, .add 4 [.b 3], .rx 3 47 4, .add 6 [.b 1], .rx 1 46 6, .add 12 [.b 15], .rx 15 19 12, .add 14 [.b 13], .rx 13 42 14,
  .add 8 [.b 11], .rx 11 44 8, .add 10 [.b 9], .rx 9 25 10, .add 0 [.b 15], .rx 15 9 0, .add 2 [.b 11], .rx 11 48 2, .add 6 [.b 13], .rx 13 35 6, .add 4 [.b 9],
  .rx 9 52 4, .add 14 [.b 1], .rx 1 23 14, .add 8 [.b 5], .rx 5 31 8, .add 10 [.b 3], .rx 3 37 10, .add 12 [.b 7], .rx 7 20 12]

/-- `Skein::PemuteR120P1024U` (Skein.h:4784-7057). -/
def skeinR120P1024 : Prog where
  body := skeinR120P1024_0 ++ (skeinR120P1024_1 ++ (skeinR120P1024_2 ++ (skeinR120P1024_3 ++ (skeinR120P1024_4 ++ (skeinR120P1024_5)))))
  fin := [[.k 3], [.k 4], [.k 5], [.k 6], [.k 7], [.k 8], [.k 9], [.k 10], [.k 11], [.k 12], [.k 13], [.k 14], [.k 15], [.k 16, .t 2], [.k 0, .t 0], [.k 1, .c 30]]

end Cex.Threefish
