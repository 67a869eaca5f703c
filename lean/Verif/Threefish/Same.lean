import Verif.Threefish.CompactLemmas
import Verif.Threefish.LoopProgs
import Verif.Threefish.SkeinProgs
import Verif.Threefish.ThreeProgs

/-!
# The programs of the source against the generated ones

Equalities between lists of statements, decided by evaluation; nothing depends on the values of the words.
-/

namespace Cex.Threefish

theorem skein256_eq : skein256 = gen alg256 72 := by decide +kernel
theorem skein512_eq : skein512 = gen alg512 72 := by decide +kernel
theorem skein1024_eq : skein1024 = gen alg1024 80 := by decide +kernel
theorem three256_eq : three256 = gen alg256 72 := by decide +kernel
theorem three512_body : three512.body = genBody alg512 96 := by decide +kernel
theorem three1024_body : three1024.body = genBody alg1024 120 := by decide +kernel
theorem skeinR96_eq : skeinR96P512 = three512 := by decide +kernel
theorem skeinR120_eq : skeinR120P1024 = three1024 := by decide +kernel

theorem loop256_72 : loop256.written 72 = skein256 := by decide +kernel
theorem loop512_72 : loop512.written 72 = skein512 := by decide +kernel
theorem loop1024_80 : loop1024.written 80 = skein1024 := by decide +kernel
theorem loop512_96 : loop512.written 96 = three512 := by decide +kernel
theorem loop1024_120 : loop1024.written 120 = three1024 := by decide +kernel

end Cex.Threefish
