import Verif.Keccak.Model
import Verif.IntTools.Enc
import Verif.Kyber.ArithModel

/-!
# Model of the sampling functions of Kyber (CEX/KyberBase.cpp), scalar build

`P` is the Keccak permutation. Loops with no bound known in advance take `fuel` and end in `Fault.diverges` when it is used up.
-/

namespace Cex.Kyber
open Cex

variable (P : List Byte → M (List Byte))

/-- A loop that turns `G` groups of `g` bytes into `m` coefficients each. -/
def groupLoop (G m g : Nat) (h : List Byte → List Int) (bs : List Byte) (r : List Int) : M (List Int) :=
  loopN G 0 (fun i r => do
    let w ← slice bs (g * i) g
    blit r (m * i) (h w)) r

/-- The sum of `d` in `Cbd2` (KyberBase.cpp:1357-1359); `LeBytesTo32` is the little endian value (C01). -/
def cbd2Sum (t : Nat) : Nat := ((t &&& 0x55555555) + ((t >>> 1) &&& 0x55555555)) % 4294967296

/-- One group of `Cbd2` (KyberBase.cpp:1357-1366). -/
def cbd2Group (w : List Byte) : List Int :=
  (List.range 8).map fun j => (((cbd2Sum (leVal w) >>> (4 * j)) % 4 : Nat) : Int) - ((cbd2Sum (leVal w) >>> (4 * j + 2)) % 4 : Nat)

/-- `Cbd2` (KyberBase.cpp:1348-1368). -/
def cbd2 (r : List Int) (buf : List Byte) : M (List Int) := groupLoop 32 8 4 cbd2Group buf r

/-- The sum of `d` in `Cbd3` (KyberBase.cpp:1392-1395, `LoadLe24` 1370-1379). -/
def cbd3Sum (t : Nat) : Nat := ((t &&& 0x249249) + ((t >>> 1) &&& 0x249249) + ((t >>> 2) &&& 0x249249)) % 4294967296

/-- One group of `Cbd3` (KyberBase.cpp:1392-1402). -/
def cbd3Group (w : List Byte) : List Int :=
  (List.range 4).map fun j => (((cbd3Sum (leVal w) >>> (6 * j)) % 8 : Nat) : Int) - ((cbd3Sum (leVal w) >>> (6 * j + 3)) % 8 : Nat)

/-- `Cbd3` (KyberBase.cpp:1381-1404). -/
def cbd3 (r : List Int) (buf : List Byte) : M (List Int) := groupLoop 64 4 3 cbd3Group buf r

/-- `PolyCbdEta1` (KyberBase.cpp:128-138). -/
def polyCbdEta1 (r : List Int) (buf : List Byte) (eta : Nat) : M (List Int) := if eta = 2 then cbd2 r buf else cbd3 r buf

/-- The bytes for one noise polynomial (KyberBase.cpp:192-197, 204-209). -/
def noiseBytes (seed : List Byte) (off : Nat) (nonce : Byte) (eta : Nat) : M (List Byte) := do
  let ext ← copy seed off (List.replicate 33 0) 0 32
  let ext ← wr ext 32 nonce
  Keccak.xof P ext 0 33 (List.replicate (eta * 64) 0) 0 (eta * 64) 136

/-- `PolyGetNoiseEta1` (KyberBase.cpp:190-200). -/
def getNoiseEta1 (r : List Int) (seed : List Byte) (off : Nat) (nonce : Byte) (eta : Nat) : M (List Int) := do
  polyCbdEta1 r (← noiseBytes P seed off nonce eta) eta

/-- `PolyGetNoiseEta2` (KyberBase.cpp:202-211), `KYBER_ETA2 = 2`. -/
def getNoiseEta2 (r : List Int) (seed : List Byte) (off : Nat) (nonce : Byte) : M (List Int) := do
  cbd2 r (← noiseBytes P seed off nonce 2)

/-- The loop of `RejUniform` (KyberBase.cpp:456-473). -/
def rejLoop (off rlen : Nat) (buf : List Byte) (len : Nat) : (fuel ctr pos : Nat) → List Int → M (List Int × Nat)
  | 0, _, _, _ => .error .diverges
  | n + 1, ctr, pos, r =>
    if ctr < rlen ∧ pos + 3 ≤ len then do
      let b0 ← rd buf pos
      let b1 ← rd buf (pos + 1)
      let b2 ← rd buf (pos + 2)
      let v0 := (b0.toNat ||| (b1.toNat <<< 8)) % 4096
      let v1 := ((b1.toNat >>> 4) ||| (b2.toNat <<< 4)) % 4096
      let (r, ctr) ← (if v0 < 3329 then do
          let r ← wr r (off + ctr) (v0 : Int)
          pure (r, ctr + 1)
        else pure (r, ctr))
      let (r, ctr) ← (if ctr < rlen ∧ v1 < 3329 then do
          let r ← wr r (off + ctr) (v1 : Int)
          pure (r, ctr + 1)
        else pure (r, ctr))
      rejLoop off rlen buf len n ctr (pos + 3) r
    else return (r, ctr)

/-- `RejUniform` (KyberBase.cpp:446-476). -/
def rejUniform (r : List Int) (off rlen : Nat) (buf : List Byte) (len : Nat) : M (List Int × Nat) := rejLoop off rlen buf len (len + 1) 0 0 r

/-- The loop that draws more bytes (KyberBase.cpp:1494-1506); `rate` is the rate given to `Squeeze` (`KECCAK1024_RATE_SIZE`, 32, at 1503). -/
def refill (rate : Nat) : (fuel : Nat) → (st buf : List Byte) → (len : Nat) → List Int → (ctr : Nat) → M (List Int × List Byte)
  | 0, _, buf, _, r, ctr => if ctr < 256 then .error .diverges else return (r, buf)
  | n + 1, st, buf, len, r, ctr =>
    if ctr < 256 then do
      let off := len % 3
      let buf ← loopN off 0 (fun k buf => do wr buf k (← rd buf (len - off + k))) buf
      let (st, buf) ← Keccak.squeeze P rate 1 st buf off
      let len := off + 168
      let (r, m) ← rejUniform r ctr (256 - ctr) buf len
      refill rate n st buf len r (ctr + m)
    else return (r, buf)

/-- One polynomial of the matrix (KyberBase.cpp:1488-1506); the state is zero before. Result: polynomial and `buf`. -/
def genPoly (rate fuel : Nat) (ext buf : List Byte) (r : List Int) : M (List Int × List Byte) := do
  let st ← Keccak.absorb P ext 0 34 168 0x1F (List.replicate 200 0)
  let (st, buf) ← Keccak.squeeze P 168 3 st buf 0
  let (r, ctr) ← rejUniform r 0 256 buf 504
  refill P rate fuel st buf 504 r ctr

/-- The seed of entry `(i, j)` (KyberBase.cpp:1477-1486). -/
def extSeed (ext : List Byte) (transposed : Bool) (i j : Nat) : M (List Byte) := do
  let ext ← wr ext 32 (BitVec.ofNat 8 (if transposed then i else j))
  wr ext 33 (BitVec.ofNat 8 (if transposed then j else i))

/-- Local variables of `GenMatrix`. -/
structure Gen where
  mat : List (List (List Int))
  ext : List Byte
  buf : List Byte

/-- One entry of the matrix (KyberBase.cpp:1477-1508). -/
def genEntry (rate fuel : Nat) (transposed : Bool) (i j : Nat) (g : Gen) : M Gen := do
  let ext ← extSeed g.ext transposed i j
  let row ← rd g.mat i
  let p ← rd row j
  let (p, buf) ← genPoly P rate fuel ext g.buf p
  let row ← wr row j p
  let mat ← wr g.mat i row
  return ⟨mat, ext, buf⟩

/-- `GenMatrix` (KyberBase.cpp:1462-1511). -/
def genMatrix (rate fuel : Nat) (mat : List (List (List Int))) (seed : List Byte) (transposed : Bool) (K : Nat) : M (List (List (List Int))) := do
  let ext ← copy seed 0 (List.replicate 34 0) 0 32
  let g ← loopN K 0 (fun i g => loopN K 0 (fun j g => genEntry P rate fuel transposed i j g) g) ⟨mat, ext, List.replicate 506 0⟩
  return g.mat

end Cex.Kyber
