import Verif.McEliece.Model

/-!
# Model of the Benes network of McEliece (CEX/MPKCUtils.cpp:13-132, 702-758, 947-993)

The 1024 bytes of `R` are 128 little-endian words (`LeBytesTo64Raw`, `Le64ToBytesRaw`), the control bits 25 blocks of 64 words. The arrays `riv` and `rih` of 2 × 64 words are one array of 128 words, first `[0][0..63]`, then `[1][0..63]`; `LayerEx(rih[0], …)` reads and writes `Data[64..127]`, that is `rih[1]`, through a pointer to `rih[0]`, which the model takes as the contiguous array.
-/

namespace Cex.McEliece.Benes

/-- 128 words. -/
abbrev W := Fin 128 → BitVec 64

/-- `masks[d][0]` (MPKCUtils.cpp:961). -/
def m0 : Fin 6 → BitVec 64
  | 0 => 0x5555555555555555#64
  | 1 => 0x3333333333333333#64
  | 2 => 0x0F0F0F0F0F0F0F0F#64
  | 3 => 0x00FF00FF00FF00FF#64
  | 4 => 0x0000FFFF0000FFFF#64
  | 5 => 0x00000000FFFFFFFF#64

/-- `masks[d][1]`. -/
def m1 : Fin 6 → BitVec 64
  | 0 => 0xAAAAAAAAAAAAAAAA#64
  | 1 => 0xCCCCCCCCCCCCCCCC#64
  | 2 => 0xF0F0F0F0F0F0F0F0#64
  | 3 => 0xFF00FF00FF00FF00#64
  | 4 => 0xFFFF0000FFFF0000#64
  | 5 => 0xFFFFFFFF00000000#64

/-- The other word of the pair: the pairs of `s = 2^l` are `j` and `j + s` with bit `l` of `j` clear. -/
def mate (l : Nat) (j : Fin 128) : Fin 128 := ⟨(j.val ^^^ 2 ^ l) % 128, Nat.mod_lt _ (by decide)⟩

/-- One pass of the loop over `d` of `Transpose64x64` (MPKCUtils.cpp:977-990), on both halves: the pairs are disjoint, so each word is given by the old words. -/
def stage (d : Fin 6) (D : W) : W := fun j =>
  if j.val.testBit d.val then ((D (mate d.val j) &&& m1 d) >>> 2 ^ d.val) ||| (D j &&& m1 d)
  else (D j &&& m0 d) ||| ((D (mate d.val j) &&& m0 d) <<< 2 ^ d.val)

/-- `Transpose64x64` (MPKCUtils.cpp:947-993) of both halves. -/
def tr (D : W) : W := stage 0 (stage 1 (stage 2 (stage 3 (stage 4 (stage 5 D)))))

/-- `Transpose64x64` of 64 words; the second half is not used. -/
def tr64 (b : Fin 64 → BitVec 64) : Fin 64 → BitVec 64 := fun i =>
  tr (fun j => b ⟨j.val % 64, Nat.mod_lt _ (by decide)⟩) ⟨i.val, by omega⟩

/-- `d = (x ^ y) & bits[k]; x ^= d; y ^= d` for all pairs of a layer (MPKCUtils.cpp:720-728, 750-754). -/
def layer (l : Nat) (k : Fin 128 → Fin 64) (b : Fin 64 → BitVec 64) (D : W) : W := fun j =>
  D j ^^^ ((D j ^^^ D (mate l j)) &&& b (k j))

/-- The number of the pair of `j` in the order of the loops: `(i / 2s)·s + (j - i)`. -/
def pair (l n : Nat) : Nat := n / (2 * 2 ^ l) * 2 ^ l + n % 2 ^ l

/-- `LayerEx` (MPKCUtils.cpp:734-758). -/
def layerEx (l : Nat) (b : Fin 64 → BitVec 64) : W → W :=
  layer l (fun j => ⟨pair l j.val % 64, Nat.mod_lt _ (by decide)⟩) b

/-- `LayerIn` (MPKCUtils.cpp:702-732): the halves take the control words in turn. -/
def layerIn (l : Nat) (b : Fin 64 → BitVec 64) : W → W :=
  layer l (fun j => ⟨(2 * pair l (j.val % 64) + j.val / 64) % 64, Nat.mod_lt _ (by decide)⟩) b

/-- `riv[h][i] = R[2i + h]` (MPKCUtils.cpp:43-47). -/
def load (R : W) : W := fun j => R ⟨(2 * (j.val % 64) + j.val / 64) % 128, Nat.mod_lt _ (by decide)⟩

/-- `R[2i + h] = riv[h][i]` (MPKCUtils.cpp:117-121). -/
def store (D : W) : W := fun w => D ⟨(w.val % 2 * 64 + w.val / 2) % 128, Nat.mod_lt _ (by decide)⟩

/-- `ApplyBenes` with the control words of layer `t` in `c t` (MPKCUtils.cpp:49-121). -/
def run (c : Nat → Fin 64 → BitVec 64) (R : W) : W :=
  let D := tr (load R)
  let D := layerEx 6 (tr64 (c 6)) (layerEx 5 (tr64 (c 5)) (layerEx 4 (tr64 (c 4)) (layerEx 3 (tr64 (c 3)) (layerEx 2 (tr64 (c 2)) (layerEx 1 (tr64 (c 1)) (layerEx 0 (tr64 (c 0)) D))))))
  let D := tr D
  let D := layerIn 5 (c 12) (layerIn 4 (c 11) (layerIn 3 (c 10) (layerIn 2 (c 9) (layerIn 1 (c 8) (layerIn 0 (c 7) D)))))
  let D := layerIn 0 (c 17) (layerIn 1 (c 16) (layerIn 2 (c 15) (layerIn 3 (c 14) (layerIn 4 (c 13) D))))
  let D := tr D
  let D := layerEx 0 (tr64 (c 24)) (layerEx 1 (tr64 (c 23)) (layerEx 2 (tr64 (c 22)) (layerEx 3 (tr64 (c 21)) (layerEx 4 (tr64 (c 20)) (layerEx 5 (tr64 (c 19)) (layerEx 6 (tr64 (c 18)) D))))))
  store (tr D)

/-- `ApplyBenes` (MPKCUtils.cpp:13-122): with `Reverse` the blocks are read from the last (offset 12288 = 24·512) to the first (`bptr += 512 - 1024`). -/
def applyBenes (c : Nat → Fin 64 → BitVec 64) (reverse : Bool) : W → W :=
  run (if reverse then fun t => c (24 - t) else c)

/-- `BitReverse` (MPKCUtils.cpp:124-132). -/
def bitReverse (a : BitVec 16) : BitVec 16 :=
  let a := (a &&& 0x00FF#16) <<< 8 ||| (a &&& 0xFF00#16) >>> 8
  let a := (a &&& 0x0F0F#16) <<< 4 ||| (a &&& 0xF0F0#16) >>> 4
  let a := (a &&& 0x3333#16) <<< 2 ||| (a &&& 0xCCCC#16) >>> 2
  let a := (a &&& 0x5555#16) <<< 1 ||| (a &&& 0xAAAA#16) >>> 1
  a >>> 3

/-- `L |= bit << b` for the first `n` bits of a word. -/
def orBits (f : Nat → Bool) (n : Nat) : BitVec 64 :=
  (List.range n).foldl (fun x b => x ||| (if f b then 1#64 <<< b else 0#64)) 0#64

/-- The bit `j` of `BitReverse(i)` for all `i` as one string of 8192 bits (MPKCN6960T119.cpp:56-70, `L[j]`); bit `i` is bit `i % 64` of word `i / 64`. -/
def plane (j : Nat) : W := fun w => orBits (fun b => (bitReverse (BitVec.ofNat 16 (64 * w.val + b))).getLsbD j) 64

/-- `S[i] <<= 1; S[i] |= bit` from bit 12 down to bit 0 (MPKCN6960T119.cpp:77-85). -/
def gather (f : Nat → Bool) : BitVec 16 :=
  (List.range 13).reverse.foldl (fun s j => s <<< 1 ||| (if f j then 1#16 else 0#16)) 0#16

/-- `SupportGen` (MPKCN6960T119.cpp:51-87), before the cut to `SYS_N` elements: `S[i]` is put together from bit `i` of the 13 permuted strings. -/
def supportGen (c : Nat → Fin 64 → BitVec 64) (i : Nat) (h : i < 8192) : BitVec 16 :=
  gather fun j => (applyBenes c false (plane j) ⟨i / 64, by omega⟩).getLsbD (i % 64)

end Cex.McEliece.Benes
