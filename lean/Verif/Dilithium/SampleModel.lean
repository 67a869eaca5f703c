import Verif.Keccak.IncModel
import Verif.Dilithium.CodecModel
import Verif.Lattice.Vec

/-!
# Model of the sampling functions of Dilithium (CEX/DLTMPolyMath.cpp), scalar build

`P` is the Keccak permutation. Loops with no bound known in advance take `fuel` and end in `Fault.diverges` when it is used up.
-/

namespace Cex.Dilithium
open Cex Cex.Lattice

variable (P : List Byte → M (List Byte))

/-- `tmps` in the samplers: the seed and the nonce (DLTMPolyMath.cpp:1526, 1534-1536; 1562, 1566-1568; 1684-1688). -/
def seedNonce (seed : List Byte) (nonce : Nat) : M (List Byte) := do
  let t ← copy seed 0 (List.replicate (seed.length + 2) 0) 0 seed.length
  let t ← wr t seed.length (BitVec.ofNat 8 nonce)
  wr t (seed.length + 1) (BitVec.ofNat 8 (nonce >>> 8))

/-- The loop of `RejUniform` (DLTMPolyMath.cpp:1754-1769). -/
def rejLoop (off alen : Nat) (buf : List Byte) (len : Nat) : (fuel ctr pos : Nat) → List Int → M (List Int × Nat)
  | 0, _, _, _ => .error .diverges
  | n + 1, ctr, pos, a =>
    if ctr < alen ∧ pos + 3 ≤ len then do
      let b0 ← rd buf pos
      let b1 ← rd buf (pos + 1)
      let b2 ← rd buf (pos + 2)
      let t := (b0.toNat ||| (b1.toNat <<< 8) ||| (b2.toNat <<< 16)) &&& 0x7FFFFF
      if t < 8380417 then do
        let a ← wr a (off + ctr) (t : Int)
        rejLoop off alen buf len n (ctr + 1) (pos + 3) a
      else rejLoop off alen buf len n ctr (pos + 3) a
    else return (a, ctr)

/-- `RejUniform` (DLTMPolyMath.cpp:1745-1772). -/
def rejUniform (a : List Int) (off alen : Nat) (buf : List Byte) (len : Nat) : M (List Int × Nat) := rejLoop off alen buf len (len + 1) 0 0 a

/-- The loop of `PolyUniform` that draws more bytes (DLTMPolyMath.cpp:1543-1555). -/
def refill : (fuel : Nat) → (st buf : List Byte) → (len : Nat) → List Int → (ctr : Nat) → M (List Int)
  | 0, _, _, _, a, ctr => if ctr < 256 then .error .diverges else return a
  | n + 1, st, buf, len, a, ctr =>
    if ctr < 256 then do
      let off := len % 3
      let buf ← loopN off 0 (fun i buf => do wr buf i (← rd buf (len - off + i))) buf
      let len := 168 + off
      let (st, buf) ← Keccak.squeeze P 168 1 st buf off
      let (a, m) ← rejUniform a ctr (a.length - ctr) buf len
      refill n st buf len a (ctr + m)
    else return a

/-- `PolyUniform` (DLTMPolyMath.cpp:1521-1556). -/
def polyUniform (fuel : Nat) (a : List Int) (seed : List Byte) (nonce : Nat) : M (List Int) := do
  let t ← seedNonce seed nonce
  let st ← Keccak.absorb P t 0 t.length 168 0x1F (List.replicate 200 0)
  let (st, buf) ← Keccak.squeeze P 168 5 st (List.replicate 842 0) 0
  let (a, ctr) ← rejUniform a 0 a.length buf 840
  refill P fuel st buf 840 a ctr

/-- A value of type `uint32_t` assigned to `int32_t`. -/
def asI32 (n : Nat) : Int := if n % 4294967296 < 2147483648 then (n % 4294967296 : Nat) else (n % 4294967296 : Nat) - 4294967296

/-- One half of a byte in `RejEta` (DLTMPolyMath.cpp:1712-1717, 1719-1724, 1728-1732, 1734-1738): the coefficient, if accepted. -/
def etaValue (eta t : Nat) : Option Int :=
  if eta = 2 then (if t < 15 then some (asI32 (2 + 4294967296 - (t - ((205 * t) >>> 10) * 5))) else none)
  else if eta = 4 then (if t < 9 then some (asI32 (4 + 4294967296 - t)) else none)
  else none

/-- `RejEta` writes `A[ctr]` (DLTMPolyMath.cpp:1715, 1722, 1730, 1736): `AOffset` is not used. -/
def etaPut (eta alen t : Nat) (a : List Int) (ctr : Nat) : M (List Int × Nat) :=
  if ctr < alen then match etaValue eta t with
    | some v => do return (← wr a ctr v, ctr + 1)
    | none => return (a, ctr)
  else return (a, ctr)

/-- `RejEta` (DLTMPolyMath.cpp:1695-1743). The second half is taken when `ctr < ALength`; for the first half this is the loop condition. -/
def rejEta (a : List Int) (_off alen : Nat) (buf : List Byte) (len eta : Nat) : M (List Int × Nat) :=
  loopN len 0 (fun pos (s : List Int × Nat) =>
    if s.2 < alen then do
      let b ← rd buf pos
      let s ← etaPut eta alen (b.toNat &&& 0x0F) s.1 s.2
      etaPut eta alen (b.toNat >>> 4) s.1 s.2
    else return s) (a, 0)

/-- The loop of `PolyUniformEta` that draws more bytes (DLTMPolyMath.cpp:1576-1580). -/
def refillEta (eta : Nat) : (fuel : Nat) → (st buf : List Byte) → List Int → (ctr : Nat) → M (List Int)
  | 0, _, _, a, ctr => if ctr < 256 then .error .diverges else return a
  | n + 1, st, buf, a, ctr =>
    if ctr < 256 then do
      let (st, buf) ← Keccak.squeeze P 168 1 st buf 0
      let (a, m) ← rejEta a ctr (a.length - ctr) buf 168 eta
      refillEta eta n st buf a (ctr + m)
    else return a

/-- `PolyUniformEta` (DLTMPolyMath.cpp:1558-1581). -/
def polyUniformEta (fuel : Nat) (a : List Int) (seed : List Byte) (nonce eta blocks : Nat) : M (List Int) := do
  let t ← seedNonce seed nonce
  let st ← Keccak.absorb P t 0 t.length 168 0x1F (List.replicate 200 0)
  let (st, buf) ← Keccak.squeeze P 168 blocks st (List.replicate (blocks * 168) 0) 0
  let (a, ctr) ← rejEta a 0 a.length buf (blocks * 168) eta
  refillEta P eta fuel st buf a ctr

/-- `PolyUniformGamma1M1` (DLTMPolyMath.cpp:1679-1693). -/
def polyUniformGamma1M1 (a : List Int) (seed : List Byte) (nonce gamma1 : Nat) : M (List Int) := do
  let t ← seedNonce seed nonce
  let st ← Keccak.absorb P t 0 t.length 136 0x1F (List.replicate 200 0)
  let (_, buf) ← Keccak.squeeze P 136 5 st (List.replicate 684 0) 0
  polyZUnpack a buf 0 gamma1

/-- The loop that finds a byte not above `i` (DLTMPolyMath.cpp:1292-1303). Result: `b`, state, buffer and position. -/
def nextByte (i : Nat) : (fuel : Nat) → (st buf : List Byte) → (pos : Nat) → M (Byte × List Byte × List Byte × Nat)
  | 0, _, _, _ => .error .diverges
  | n + 1, st, buf, pos => do
    let (st, buf, pos) ← (if pos ≥ 136 then do
        let (st, buf) ← Keccak.squeeze P 136 1 st buf 0
        pure (st, buf, 0)
      else pure (st, buf, pos))
    let b ← rd buf pos
    if b.toNat > i then nextByte i n st buf (pos + 1) else return (b, st, buf, pos + 1)

/-- The loop of `PolyChallenge` (DLTMPolyMath.cpp:1290-1308), `n` passes from `i`; `1 - (2 * (signs & 1))` is a `uint64_t` assigned to `int32_t`. -/
def ballLoop (fuel : Nat) : (n i : Nat) → (signs : Nat) → List Int → (st buf : List Byte) → (pos : Nat) → M (List Int)
  | 0, _, _, c, _, _, _ => return c
  | n + 1, i, signs, c, st, buf, pos => do
    let (b, st, buf, pos) ← nextByte P i fuel st buf pos
    let v ← rd c b.toNat
    let c ← wr c i v
    let c ← wr c b.toNat (asI32 (1 + 18446744073709551616 - 2 * (signs &&& 1)))
    ballLoop fuel n (i + 1) (signs >>> 1) c st buf pos

/-- `PolyChallenge` (DLTMPolyMath.cpp:1265-1309). -/
def polyChallenge (fuel : Nat) (c : List Int) (seed : List Byte) (tau : Nat) : M (List Int) := do
  let (st, _) ← Keccak.incremental P seed 0 32 0 136 0x1F (List.replicate 200 0) true
  let (st, buf) ← Keccak.squeezePartial P st (List.replicate 136 0) 0 136 136
  let signs ← loopN 8 0 (fun i s => do return s ||| ((← rd buf i).toNat <<< (8 * i))) 0
  let c ← loopN 256 0 (fun i c => wr c i (0 : Int)) c
  ballLoop P fuel tau (256 - tau) signs c st buf 8

/-- `ExpandMat` (DLTMPolyMath.cpp:2060-2072). -/
def expandMat (fuel : Nat) (mat : List (List (List Int))) (rho : List Byte) : M (List (List (List Int))) :=
  vecLoop mat.length (fun i row => vecLoop row.length (fun j p => polyUniform P fuel p rho (((i <<< 8) + j) % 65536)) row) mat

/-- `PolyVecUniformGamma1M1` (DLTMPolyMath.cpp:1921-1927); `nonce` is a `uint16_t`. -/
def polyVecUniformGamma1M1 (v : List (List Int)) (seed : List Byte) (nonce gamma1 : Nat) : M (List (List Int)) :=
  vecLoop v.length (fun i p => polyUniformGamma1M1 P p seed ((v.length * nonce + i) % 65536) gamma1) v

end Cex.Dilithium
