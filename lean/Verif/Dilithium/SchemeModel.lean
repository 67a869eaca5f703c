import Verif.Dilithium.SampleModel

/-!
# Model of the signature scheme of Dilithium (CEX/DLTMBase.h, CEX/DLTMPolyMath.cpp), scalar build

`P` is the Keccak permutation. Loops with no bound known in advance take `fuel` and end in `Fault.diverges` when it is used up.
Where a function is called with its output among its inputs, the code reads entry `i` before it writes entry `i`; the model passes the old value as the input.
-/

namespace Cex.Dilithium
open Cex Cex.Lattice

/-- The template parameter of the functions: constants of one parameter set. -/
structure Params where
  /-- `DILITHIUM_K`. -/
  K : Nat
  /-- `DILITHIUM_L`. -/
  L : Nat
  /-- `DILITHIUM_ETA`. -/
  eta : Nat
  /-- `DILITHIUM_TAU`. -/
  tau : Nat
  /-- `DILITHIUM_BETA`. -/
  beta : Nat
  /-- `DILITHIUM_GAMMA1`. -/
  gamma1 : Nat
  /-- `DILITHIUM_GAMMA2`. -/
  gamma2 : Nat
  /-- `DILITHIUM_OMEGA`. -/
  omega : Nat
  /-- `DILITHIUM_POLYZ_PACKED_SIZE`. -/
  zSize : Nat
  /-- `DILITHIUM_POLW1_PACKED_SIZE`. -/
  w1Size : Nat
  /-- `DILITHIUM_POLYETA_PACKED_SIZE`. -/
  etaSize : Nat
  /-- `DILITHIUM_POLY_UNIFORM_ETA_NBLOCKS`. -/
  blocks : Nat
  /-- `DILITHIUM_PUBLICKEY_SIZE`. -/
  pkSize : Nat
  /-- `DILITHIUM_SECRETKEY_SIZE`. -/
  skSize : Nat
  /-- `DILITHIUM_SIGNATURE_SIZE`. -/
  sigSize : Nat

/-- `Params2544` (DLTMBase.h:44-64). -/
def params2544 : Params := ⟨4, 4, 2, 39, 78, 2 ^ 17, (8380417 - 1) / 88, 80, 576, 192, 96, 1, 1312, 2544, 2420⟩

/-- `Params4016` (DLTMBase.h:69-88). -/
def params4016 : Params := ⟨6, 5, 4, 49, 196, 2 ^ 19, (8380417 - 1) / 32, 55, 640, 128, 128, 2, 1952, 4016, 3293⟩

/-- `Params4880` (DLTMBase.h:93-113). -/
def params4880 : Params := ⟨8, 7, 2, 60, 120, 2 ^ 19, (8380417 - 1) / 32, 75, 640, 128, 96, 1, 2592, 4880, 4595⟩

/-- A new vector of `K` polynomials; its entries are value-initialised. -/
def zeroVec (K : Nat) : List (List Int) := List.replicate K (List.replicate 256 0)

/-! ## Vectors -/

/-- `PolyVecNtt` (DLTMPolyMath.cpp:1845-1853). -/
def polyVecNtt (v : List (List Int)) : M (List (List Int)) := vecLoop v.length (fun _ p => ntt p) v

/-- `PolyVecInvNttMont` (DLTMPolyMath.cpp:1823-1829). -/
def polyVecInvNtt (v : List (List Int)) : M (List (List Int)) := vecLoop v.length (fun _ p => invNttToMont p) v

/-- `PolyVecReduce` (DLTMPolyMath.cpp:1895-1901). -/
def polyVecReduce (v : List (List Int)) : M (List (List Int)) := vecLoop v.length (fun _ p => polyReduce p) v

/-- `PolyVecCaddQ` (DLTMPolyMath.cpp:1815-1821). -/
def polyVecCaddQ (v : List (List Int)) : M (List (List Int)) := vecLoop v.length (fun _ p => polyCaddQ p) v

/-- `PolyVecShiftL` (DLTMPolyMath.cpp:1903-1911). -/
def polyVecShiftL (v : List (List Int)) : M (List (List Int)) := vecLoop v.length (fun _ p => polyShiftL p) v

/-- `PolyVecAdd` (DLTMPolyMath.cpp:1776-1784). -/
def polyVecAdd (w u v : List (List Int)) : M (List (List Int)) := vecLoop w.length (fun i p => do polyAdd p (← rd u i) (← rd v i)) w

/-- `PolyVecSub` (DLTMPolyMath.cpp:1913-1919). -/
def polyVecSub (c a b : List (List Int)) : M (List (List Int)) := vecLoop c.length (fun i p => do polySub p (← rd a i) (← rd b i)) c

/-- `PolyVecPointwiseMont` (DLTMPolyMath.cpp:1877-1883), `PolyVecPointwiseInvMont` (1855-1861) and the loop in `Verify` (DLTMBase.h:817-820). -/
def polyVecPointwise (c : List (List Int)) (a : List Int) (b : List (List Int)) : M (List (List Int)) := vecLoop c.length (fun i p => do polyPointwise p a (← rd b i)) c

/-- `PolyVecMatrixPointwiseMont` (DLTMPolyMath.cpp:1831-1843). The local `t` is written before it is read; here it starts with zeros. -/
def polyVecMatrixPointwise (w : List Int) (u v : List (List Int)) : M (List Int) := do
  let w ← polyPointwise w (← rd u 0) (← rd v 0)
  let s ← loopN (u.length - 1) 1 (fun i (s : List Int × List Int) => do
    let t ← polyPointwise s.2 (← rd u i) (← rd v i)
    let w ← polyAdd s.1 s.1 t
    return (w, t)) (w, List.replicate 256 0)
  return s.1

/-- The loop over the rows of the matrix (DLTMBase.h:258-261, 558-561, 808-811). -/
def matrixLoop (w : List (List Int)) (mat : List (List (List Int))) (v : List (List Int)) : M (List (List Int)) :=
  vecLoop w.length (fun i p => do polyVecMatrixPointwise p (← rd mat i) v) w

/-- The loop of `PolyVecChkNorm`. -/
def vecChk (b : Int) : List (List Int) → M Bool
  | [] => return false
  | p :: t => do if ← polyChkNorm p b then return true else vecChk b t

/-- `PolyVecChkNorm` (DLTMPolyMath.cpp:1786-1803): is the result other than 0? -/
def polyVecChkNorm (v : List (List Int)) (b : Nat) : M Bool := vecChk b v

/-- `PolyVecDecompose` (DLTMPolyMath.cpp:1805-1813): `V1` and `V0`. -/
def polyVecDecompose (v1 v0 v : List (List Int)) (g2 : Nat) : M (List (List Int) × List (List Int)) :=
  vecLoop2 v1.length (fun i x1 x0 => do polyDecompose x1 x0 (← rd v i) g2) v1 v0

/-- `PolyVecPower2Round` (DLTMPolyMath.cpp:1885-1893): `V1` and `V0`. -/
def polyVecPower2Round (v1 v0 v : List (List Int)) : M (List (List Int) × List (List Int)) :=
  vecLoop2 v1.length (fun i x1 x0 => do polyPower2Round x1 x0 (← rd v i)) v1 v0

/-- `PolyVecMakeHint` (DLTMPolyMath.cpp:1863-1875): `H` and the 32-bit sum. -/
def polyVecMakeHint (h a0 a1 : List (List Int)) (g2 : Nat) : M (List (List Int) × Nat) :=
  loopN h.length 0 (fun i (s : List (List Int) × Nat) => do
    let (p, n) ← polyMakeHint (← rd s.1 i) (← rd a0 i) (← rd a1 i) g2
    let h ← wr s.1 i p
    return (h, (s.2 + (n % 4294967296).toNat) % 4294967296)) (h, 0)

/-- `PolyVecUseHint` (DLTMPolyMath.cpp:1929-1935). -/
def polyVecUseHint (b a h : List (List Int)) (g2 : Nat) : M (List (List Int)) := vecLoop b.length (fun i p => do polyUseHint p (← rd a i) (← rd h i) g2) b

variable (P : List Byte → M (List Byte))

/-! ## The scheme -/

/-- Two calls of `Incremental` on a cleared state and one of `SqueezePartial` (DLTMBase.h:505-507, 571-574, 798-800, 832-835): 48 bytes of `a`, then `len` bytes
of `b` from `off` on. The result is written to the start of `out`. -/
def hash2 (a b : List Byte) (off len : Nat) (out : List Byte) (n : Nat) : M (List Byte) := do
  let (st, _) ← Keccak.incremental P a 0 48 0 136 0x1F (List.replicate 200 0) false
  let (st, _) ← Keccak.incremental P b off len 48 136 0x1F st true
  let (_, out) ← Keccak.squeezePartial P st out 0 n 136
  return out

/-- The two loops over the secret vectors in `Generate` (DLTMBase.h:243-253). -/
def secretLoop (pr : Params) (fuel : Nat) (v : List (List Int)) (rhoprime : List Byte) (nonce : Nat) : M (List (List Int)) :=
  vecLoop v.length (fun i p => polyUniformEta P fuel p rhoprime (nonce + i) pr.eta pr.blocks) v

/-- `Generate` (DLTMBase.h:211-277) with the 32 bytes `seed` that the generator gives: public and secret key. -/
def generate (pr : Params) (fuel : Nat) (pk sk seed : List Byte) : M (List Byte × List Byte) := do
  let sbuf ← Keccak.xof P seed 0 32 (List.replicate 96 0) 0 96 136
  let rho ← copy sbuf 0 (List.replicate 32 0) 0 32
  let rhoprime ← copy sbuf 32 (List.replicate 32 0) 0 32
  let key ← copy sbuf 64 (List.replicate 32 0) 0 32
  let mat ← expandMat P fuel (List.replicate pr.K (zeroVec pr.L)) rho
  let s1 ← secretLoop P pr fuel (zeroVec pr.L) rhoprime 0
  let s2 ← secretLoop P pr fuel (zeroVec pr.K) rhoprime pr.L
  let s1hat ← polyVecNtt s1
  let t ← matrixLoop (zeroVec pr.K) mat s1hat
  let t ← polyVecReduce t
  let t ← polyVecInvNtt t
  let t ← polyVecAdd t t s2
  let t ← polyVecCaddQ t
  let (t1, t0) ← polyVecPower2Round (zeroVec pr.K) (zeroVec pr.K) t
  let pk ← packPk pk rho t1 320
  let tr ← Keccak.xof P pk 0 pr.pkSize (List.replicate 48 0) 0 48 136
  let sk ← packSk sk rho key tr s1 s2 t0 pr.eta pr.etaSize 416
  return (pk, sk)

/-- What the attempts of `Sign` share: the matrix, the transformed vectors and the two hashes. -/
structure Signer where
  mat : List (List (List Int))
  s1 : List (List Int)
  s2 : List (List Int)
  t0 : List (List Int)
  mu : List Byte
  rhoprime : List Byte

/-- The part of `Sign` before the loop (DLTMBase.h:501-526), without `DILITHIUM_RANDOMIZED_SIGNING`. -/
def signStart (pr : Params) (fuel : Nat) (msg sk : List Byte) : M Signer := do
  let (rho, tr, key, t0, s1, s2) ← unpackSk (List.replicate 32 0) (List.replicate 48 0) (List.replicate 32 0) (zeroVec pr.K) (zeroVec pr.L) (zeroVec pr.K) sk pr.eta pr.etaSize 416
  let mu ← hash2 P tr msg 0 msg.length (List.replicate 48 0) 48
  let sbuf ← copy key 0 (List.replicate 80 0) 0 32
  let sbuf ← copy mu 0 sbuf 32 48
  let rhoprime ← Keccak.xof P sbuf 0 80 (List.replicate 48 0) 0 48 136
  let mat ← expandMat P fuel (List.replicate pr.K (zeroVec pr.L)) rho
  let s1 ← polyVecNtt s1
  let s2 ← polyVecNtt s2
  let t0 ← polyVecNtt t0
  return ⟨mat, s1, s2, t0, mu, rhoprime⟩

/-- The variables of `Sign` that an attempt leaves to the next one. -/
structure Attempt where
  sig : List Byte
  y : List (List Int)
  z : List (List Int)
  w : List (List Int)
  w1 : List (List Int)
  w0 : List (List Int)
  h : List (List Int)
  cp : List Int

/-- The first part of a pass of the loop in `Sign` (DLTMBase.h:549-574): the mask, the commitment and its hash at the start of `Signature`. -/
def commit (pr : Params) (q : Signer) (nonce : Nat) (a : Attempt) : M Attempt := do
  let y ← polyVecUniformGamma1M1 P a.y q.rhoprime nonce pr.gamma1
  let z ← polyVecNtt y
  let w ← matrixLoop a.w q.mat z
  let w ← polyVecReduce w
  let w ← polyVecInvNtt w
  let w ← polyVecCaddQ w
  let (w1, w0) ← polyVecDecompose a.w1 a.w0 w pr.gamma2
  let sig ← polyVecPackW1 a.sig w1 pr.w1Size pr.gamma2
  let sig ← hash2 P q.mu sig 0 (pr.K * pr.w1Size) sig 32
  return ⟨sig, y, z, w, w1, w0, a.h, a.cp⟩

/-- The second part (DLTMBase.h:576-617): the response, and whether `break` was reached. -/
def respond (pr : Params) (fuel : Nat) (q : Signer) (a : Attempt) : M (Attempt × Bool) := do
  let cp ← polyChallenge P fuel a.cp a.sig pr.tau
  let cp ← ntt cp
  let z ← polyVecPointwise a.z cp q.s1
  let z ← polyVecInvNtt z
  let z ← polyVecAdd z z a.y
  let z ← polyVecReduce z
  if ← polyVecChkNorm z (pr.gamma1 - pr.beta) then return (⟨a.sig, a.y, z, a.w, a.w1, a.w0, a.h, cp⟩, false)
  else do
    let h ← polyVecPointwise a.h cp q.s2
    let h ← polyVecInvNtt h
    let w0 ← polyVecSub a.w0 a.w0 h
    let w0 ← polyVecReduce w0
    if ← polyVecChkNorm w0 (pr.gamma2 - pr.beta) then return (⟨a.sig, a.y, z, a.w, a.w1, w0, h, cp⟩, false)
    else do
      let h ← polyVecPointwise h cp q.t0
      let h ← polyVecInvNtt h
      let h ← polyVecReduce h
      if ← polyVecChkNorm h pr.gamma2 then return (⟨a.sig, a.y, z, a.w, a.w1, w0, h, cp⟩, false)
      else do
        let w0 ← polyVecAdd w0 w0 h
        let w0 ← polyVecCaddQ w0
        let (h, n) ← polyVecMakeHint h w0 a.w1 pr.gamma2
        return (⟨a.sig, a.y, z, a.w, a.w1, w0, h, cp⟩, decide (n ≤ pr.omega))

/-- The loop in `Sign` (DLTMBase.h:528-618); `nonce` has 16 bits. -/
def signLoop (pr : Params) (fuel : Nat) (q : Signer) : (n nonce : Nat) → Attempt → M Attempt
  | 0, _, _ => .error .diverges
  | n + 1, nonce, a => do
    let a ← commit P pr q nonce a
    let (a, done) ← respond P pr fuel q a
    if done then return a else signLoop pr fuel q n ((nonce + 1) % 65536) a

/-- `Sign` (DLTMBase.h:476-622): the buffer `Signature` afterwards. -/
def sign (pr : Params) (fuel : Nat) (sig msg sk : List Byte) : M (List Byte) := do
  let q ← signStart P pr fuel msg sk
  let a ← signLoop P pr fuel q fuel 0 ⟨sig, zeroVec pr.L, zeroVec pr.L, zeroVec pr.K, zeroVec pr.K, zeroVec pr.K, zeroVec pr.K, List.replicate 256 0⟩
  let sig ← packSig a.sig a.sig a.z a.h pr.K pr.omega pr.zSize pr.gamma1
  copy msg 0 sig pr.sigSize msg.length

/-- `Verify` (DLTMBase.h:766-849): the result and the buffer `Message`. `cp` is written before it is read; here it starts with zeros. `IntegerTools::Verify` is 0
when the first 32 bytes agree. -/
def verify (pr : Params) (fuel : Nat) (msg sig pk : List Byte) : M (Bool × List Byte) :=
  if sig.length ≥ pr.sigSize then do
    let len := sig.length - pr.sigSize
    let (rho, t1) ← unpackPk (List.replicate 32 0) (zeroVec pr.K) pk 320
    let (c, z, h, bad) ← unpackSig (List.replicate 32 0) (zeroVec pr.L) (zeroVec pr.K) sig pr.zSize pr.gamma1 pr.omega
    if bad then return (false, msg)
    else do
      if ← polyVecChkNorm z (pr.gamma1 - pr.beta) then return (false, msg)
      else do
        let mu ← Keccak.xof P pk 0 pr.pkSize (List.replicate 48 0) 0 48 136
        let mu ← hash2 P mu sig pr.sigSize len mu 48
        let cp ← polyChallenge P fuel (List.replicate 256 0) c pr.tau
        let mat ← expandMat P fuel (List.replicate pr.K (zeroVec pr.L)) rho
        let z ← polyVecNtt z
        let w1 ← matrixLoop (zeroVec pr.K) mat z
        let cp ← ntt cp
        let t1 ← polyVecShiftL t1
        let t1 ← polyVecNtt t1
        let t1 ← polyVecPointwise t1 cp t1
        let w1 ← polyVecSub w1 w1 t1
        let w1 ← polyVecReduce w1
        let w1 ← polyVecInvNtt w1
        let w1 ← polyVecCaddQ w1
        let w1 ← polyVecUseHint w1 w1 h pr.gamma2
        let buf ← polyVecPackW1 (List.replicate (pr.K * pr.w1Size) 0) w1 pr.w1Size pr.gamma2
        let c2 ← hash2 P mu buf 0 buf.length (List.replicate 32 0) 32
        if c = c2 then do
          let msg ← copy sig pr.sigSize msg 0 len
          return (true, msg)
        else return (false, msg)
  else return (false, msg)

end Cex.Dilithium
