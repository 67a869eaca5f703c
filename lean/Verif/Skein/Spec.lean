import Verif.IntTools.Spec
import Verif.Threefish.Spec

/-!
# Skein

Written from *The Skein Hash Function Family*, version 1.3, sections 3.4 and 3.5. `E` is the tweakable block cipher on blocks of `n` words
(Threefish); a block has `8 * n` bytes. Only the hash with as many output bytes as a block has is described.
-/

namespace Cex.Skein.Paper
open Cex Cex.Threefish

/-- A tweakable block cipher: key, tweak, plaintext. -/
abbrev Tbc (n : Nat) := (Fin n → W) → W × W → (Fin n → W) → Fin n → W

variable {n : Nat}

/-- `BytesToWords`: the little-endian words of a block. -/
def words (n : Nat) (b : List Byte) (i : Fin n) : W := BitVec.ofNat 64 (leVal ((b.drop (i.val * 8)).take 8))

/-- `WordsToBytes`. -/
def bytes (h : Fin n → W) : List Byte := (List.ofFn h).flatMap fun x => leEnc 8 x.toNat

/-- Zero padding to a whole block. -/
def pad (n : Nat) (b : List Byte) : List Byte := b ++ List.replicate (8 * n - b.length) 0

/-- Section 3.4, Table 5: the tweak. Bits 0 to 95 are the position, 120 to 125 the type, 126 is set for the first and 127 for the final block. -/
def tweak (type pos : Nat) (first final : Bool) : W × W :=
  let t := pos + type * 2 ^ 120 + (if first then 2 ^ 126 else 0) + (if final then 2 ^ 127 else 0)
  (BitVec.ofNat 64 t, BitVec.ofNat 64 (t / 2 ^ 64))

/-- Table 6: the types. -/
def tCfg : Nat := 4
def tMsg : Nat := 48
def tOut : Nat := 63

/-- One block of UBI: encryption under the chaining value, with feed-forward. -/
def block (E : Tbc n) (G : Fin n → W) (T : W × W) (m : Fin n → W) : Fin n → W := fun i => E G T m i ^^^ m i

/-- Section 3.4: UBI of `m`, of which `pos` bytes are already done; `tw` gives the tweak from position and flags. A message that is empty is
one block of zeros. -/
def ubiFrom (E : Tbc n) (tw : Nat → Bool → Bool → W × W) (G : Fin n → W) (pos : Nat) (m : List Byte) : Fin n → W :=
  if 0 < n ∧ 8 * n < m.length then
    ubiFrom E tw (block E G (tw (pos + 8 * n) (pos = 0) false) (words n (m.take (8 * n)))) (pos + 8 * n) (m.drop (8 * n))
  else block E G (tw (pos + m.length) (pos = 0) true) (words n (pad n m))
termination_by m.length
decreasing_by rw [List.length_drop]; omega

/-- `UBI(G, M, type)`. -/
def ubi (E : Tbc n) (G : Fin n → W) (m : List Byte) (type : Nat) : Fin n → W := ubiFrom E (tweak type) G 0 m

/-- Section 3.5.2, Table 7: the configuration string: schema "SHA3", version 1, output length in bits, the three tree bytes. -/
def config (bits yl yf ym : Nat) : List Byte :=
  leEnc 4 0x33414853 ++ leEnc 2 1 ++ leEnc 2 0 ++ leEnc 8 bits ++ leEnc 1 yl ++ leEnc 1 yf ++ leEnc 1 ym ++ List.replicate 13 0

/-- Section 3.5.4: the initial chaining value of a hash without key and tree. -/
def iv (E : Tbc n) : Fin n → W := ubi E (fun _ => 0) (config (64 * n) 0 0 0) tCfg

/-- Section 3.5.3, the output function, for one block of output: UBI of the number 0. -/
def output (E : Tbc n) (G : Fin n → W) : Fin n → W := ubi E G (leEnc 8 0) tOut

/-- Section 3.5.4: `Skein(N_b, 8 * N_b, M)`. -/
def skein (E : Tbc n) (m : List Byte) : List Byte := bytes (output E (ubi E (iv E) m tMsg))

def skein256 : List Byte → List Byte := skein threefish256
def skein512 : List Byte → List Byte := skein threefish512
def skein1024 : List Byte → List Byte := skein threefish1024

end Cex.Skein.Paper
