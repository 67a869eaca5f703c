import Verif.Threefish.Compact

/-!
# The compact and the wide functions

Transcribed by script. For each size the loop of Skein.h, that of Threefish.h and the loops of the two wide functions of Threefish.h have
the same statements, apart from the names of the arrays and the word type; the script compared them, and it compared the assignments before
the loop with what `CProg.run` does.
-/

namespace Cex.Threefish

/-- `PemuteP256C` (Skein.h:64-142, Threefish.h:191-268), `PemuteP4x256H` and `PemuteP8x256H` (Threefish.h:767-852, Threefish.h:666-751). -/
def loop256 : CProg where
  cmds := [
    .add 1 [.kx, .ty], .mx (.ne 0) false 1 4, .add 0 [.b 1, .kx], .rx 1 14 0, .mx (.gt 1) false 2 3, .add 3 [.kx, .c 0], .mx (.gt 0) false 1 4,
    .my (.ne 2) true 1 2, .add 2 [.b 3, .kx, .ty], .rx 3 16 2, .add 0 [.b 3], .rx 3 52 0, .add 2 [.b 1], .rx 1 57 2, .add 0 [.b 1], .rx 1 23 0, .add 2 [.b 3],
    .rx 3 40 2, .add 0 [.b 3], .rx 3 5 0, .add 2 [.b 1], .rx 1 37 2, .add 1 [.kx, .ty], .mx (.ne 0) false 1 4, .add 0 [.b 1, .kx], .rx 1 25 0,
    .mx (.gt 1) false 2 3, .add 3 [.kx, .c 1], .mx (.ne 0) false 1 4, .my (.ne 2) true 1 2, .add 2 [.b 3, .kx, .ty], .rx 3 33 2, .add 0 [.b 3], .rx 3 46 0,
    .add 2 [.b 1], .rx 1 12 2, .add 0 [.b 1], .rx 1 58 0, .add 2 [.b 3], .rx 3 22 2, .add 0 [.b 3], .rx 3 32 0, .add 2 [.b 1], .rx 1 32 2]
  fin := [[.k 3], [.k 4, .t 0], [.k 0, .t 1], [.k 1, .rounds]]

/-- `PemuteP512C` (Skein.h:538-664, Threefish.h:871-998), `PemuteP4x512H` and `PemuteP8x512H` (Threefish.h:2118-2261, Threefish.h:1959-2102). -/
def loop512 : CProg where
  cmds := [
    .add 1 [.kx], .mx (.ne 0) false 1 8, .add 0 [.b 1, .kx], .rx 1 46 0, .mx (.lt 6) true 3 6, .add 3 [.kx], .mx (.ne 0) false 1 8, .add 2 [.b 3, .kx],
    .rx 3 36 2, .mx (.lt 6) true 3 6, .add 5 [.kx, .ty], .mx (.ne 0) false 1 8, .add 4 [.b 5, .kx], .rx 5 19 4, .mx (.lt 6) true 3 6, .add 7 [.kx, .c 0],
    .mx (.ne 0) false 1 8, .my (.ne 2) true 1 2, .add 6 [.b 7, .kx, .ty], .rx 7 37 6, .add 2 [.b 1], .rx 1 33 2, .add 4 [.b 7], .rx 7 27 4, .add 6 [.b 5],
    .rx 5 14 6, .add 0 [.b 3], .rx 3 42 0, .add 4 [.b 1], .rx 1 17 4, .add 6 [.b 3], .rx 3 49 6, .add 0 [.b 5], .rx 5 36 0, .add 2 [.b 7], .rx 7 39 2,
    .add 6 [.b 1], .rx 1 44 6, .add 0 [.b 7], .rx 7 9 0, .add 2 [.b 5], .rx 5 54 2, .add 4 [.b 3], .rx 3 56 4, .mx (.gt 3) false 4 5, .add 1 [.kx],
    .mx (.ne 0) false 1 8, .add 0 [.b 1, .kx], .rx 1 39 0, .mx (.lt 6) true 3 6, .add 3 [.kx], .mx (.ne 0) false 1 8, .add 2 [.b 3, .kx], .rx 3 30 2,
    .mx (.lt 6) true 3 6, .add 5 [.kx, .ty], .mx (.ne 0) false 1 8, .add 4 [.b 5, .kx], .rx 5 34 4, .mx (.lt 6) true 3 6, .add 7 [.kx, .c 1],
    .mx (.ne 0) false 1 8, .my (.ne 2) true 1 2, .add 6 [.b 7, .kx, .ty], .rx 7 24 6, .add 2 [.b 1], .rx 1 13 2, .add 4 [.b 7], .rx 7 50 4, .add 6 [.b 5],
    .rx 5 10 6, .add 0 [.b 3], .rx 3 17 0, .add 4 [.b 1], .rx 1 25 4, .add 6 [.b 3], .rx 3 29 6, .add 0 [.b 5], .rx 5 39 0, .add 2 [.b 7], .rx 7 43 2,
    .add 6 [.b 1], .rx 1 8 6, .add 0 [.b 7], .rx 7 35 0, .add 2 [.b 5], .rx 5 56 2, .add 4 [.b 3], .rx 3 22 4, .mx (.gt 3) false 4 5]
  fin := [[.k 0], [.k 1], [.k 2], [.k 3], [.k 4], [.k 5, .t 0], [.k 6, .t 1], [.k 7, .rounds]]

/-- `PemuteP1024C` (Skein.h:2991-3213, Threefish.h:2280-2503), `PemuteP4x1024H` and `PemuteP8x1024H` (Threefish.h:5074-5329, Threefish.h:4803-5058). -/
def loop1024 : CProg where
  cmds := [
    .add 1 [.kx], .mx (.ne 0) false 1 16, .add 0 [.b 1, .kx], .rx 1 24 0, .mx (.lt 14) true 3 14, .add 3 [.kx], .mx (.ne 0) false 1 16, .add 2 [.b 3, .kx],
    .rx 3 13 2, .mx (.lt 14) true 3 14, .add 5 [.kx], .mx (.ne 0) false 1 16, .add 4 [.b 5, .kx], .rx 5 8 4, .mx (.lt 14) true 3 14, .add 7 [.kx],
    .mx (.ne 0) false 1 16, .add 6 [.b 7, .kx], .rx 7 47 6, .mx (.lt 14) true 3 14, .add 9 [.kx], .mx (.ne 0) false 1 16, .add 8 [.b 9, .kx], .rx 9 8 8,
    .mx (.lt 14) true 3 14, .add 11 [.kx], .mx (.ne 0) false 1 16, .add 10 [.b 11, .kx], .rx 11 17 10, .mx (.lt 14) true 3 14, .add 13 [.kx, .ty],
    .mx (.ne 0) false 1 16, .add 12 [.b 13, .kx], .rx 13 22 12, .mx (.lt 14) true 3 14, .add 15 [.kx, .c 0], .mx (.ne 0) false 1 16, .my (.ne 2) true 1 2,
    .add 14 [.b 15, .kx, .ty], .rx 15 37 14, .add 0 [.b 9], .rx 9 38 0, .add 2 [.b 13], .rx 13 19 2, .add 6 [.b 11], .rx 11 10 6, .add 4 [.b 15], .rx 15 55 4,
    .add 10 [.b 7], .rx 7 49 10, .add 12 [.b 3], .rx 3 18 12, .add 14 [.b 5], .rx 5 23 14, .add 8 [.b 1], .rx 1 52 8, .add 0 [.b 7], .rx 7 33 0, .add 2 [.b 5],
    .rx 5 4 2, .add 4 [.b 3], .rx 3 51 4, .add 6 [.b 1], .rx 1 13 6, .add 12 [.b 15], .rx 15 34 12, .add 14 [.b 13], .rx 13 41 14, .add 8 [.b 11], .rx 11 59 8,
    .add 10 [.b 9], .rx 9 17 10, .add 0 [.b 15], .rx 15 5 0, .add 2 [.b 11], .rx 11 20 2, .add 6 [.b 13], .rx 13 48 6, .add 4 [.b 9], .rx 9 41 4,
    .add 14 [.b 1], .rx 1 47 14, .add 8 [.b 5], .rx 5 28 8, .add 10 [.b 3], .rx 3 16 10, .add 12 [.b 7], .rx 7 25 12, .mx (.gt 11) false 12 5, .add 1 [.kx],
    .mx (.ne 0) false 1 16, .add 0 [.b 1, .kx], .rx 1 41 0, .mx (.lt 14) true 3 14, .add 3 [.kx], .mx (.ne 0) false 1 16, .add 2 [.b 3, .kx], .rx 3 9 2,
    .mx (.lt 14) true 3 14, .add 5 [.kx], .mx (.ne 0) false 1 16, .add 4 [.b 5, .kx], .rx 5 37 4, .mx (.lt 14) true 3 14, .add 7 [.kx], .mx (.ne 0) false 1 16,
    .add 6 [.b 7, .kx], .rx 7 31 6, .mx (.lt 14) true 3 14, .add 9 [.kx], .mx (.ne 0) false 1 16, .add 8 [.b 9, .kx], .rx 9 12 8, .mx (.lt 14) true 3 14,
    .add 11 [.kx], .mx (.ne 0) false 1 16, .add 10 [.b 11, .kx], .rx 11 47 10, .mx (.lt 14) true 3 14, .add 13 [.kx, .ty], .mx (.ne 0) false 1 16,
    .add 12 [.b 13, .kx], .rx 13 44 12, .mx (.lt 14) true 3 14, .add 15 [.kx, .c 1], .mx (.ne 0) false 1 16, .my (.ne 2) true 1 2, .add 14 [.b 15, .kx, .ty],
    .rx 15 30 14, .add 0 [.b 9], .rx 9 16 0, .add 2 [.b 13], .rx 13 34 2, .add 6 [.b 11], .rx 11 56 6, .add 4 [.b 15], .rx 15 51 4, .add 10 [.b 7], .rx 7 4 10,
    .add 12 [.b 3], .rx 3 53 12, .add 14 [.b 5], .rx 5 42 14, .add 8 [.b 1], .rx 1 41 8, .add 0 [.b 7], .rx 7 31 0, .add 2 [.b 5], .rx 5 44 2, .add 4 [.b 3],
    .rx 3 47 4, .add 6 [.b 1], .rx 1 46 6, .add 12 [.b 15], .rx 15 19 12, .add 14 [.b 13], .rx 13 42 14, .add 8 [.b 11], .rx 11 44 8, .add 10 [.b 9],
    .rx 9 25 10, .add 0 [.b 15], .rx 15 9 0, .add 2 [.b 11], .rx 11 48 2, .add 6 [.b 13], .rx 13 35 6, .add 4 [.b 9], .rx 9 52 4, .add 14 [.b 1], .rx 1 23 14,
    .add 8 [.b 5], .rx 5 31 8, .add 10 [.b 3], .rx 3 37 10, .add 12 [.b 7], .rx 7 20 12, .mx (.gt 11) false 12 5]
  fin := [[.k 3], [.k 4], [.k 5], [.k 6], [.k 7], [.k 8], [.k 9], [.k 10], [.k 11], [.k 12], [.k 13], [.k 14], [.k 15], [.k 16, .t 2], [.k 0, .t 0], [.k 1, .rounds]]

end Cex.Threefish
