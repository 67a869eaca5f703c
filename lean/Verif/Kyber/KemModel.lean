import Verif.IntTools.Model
import Verif.Kyber.CodecModel
import Verif.Kyber.SampleModel

/-!
# Model of the key encapsulation of Kyber (CEX/KyberBase.h, CEX/KyberBase.cpp, CEX/Kyber.cpp), scalar build

`P` is the Keccak permutation, `fuel` bounds the loop of `GenMatrix` that draws more bytes. Calls of the random generator take their bytes from arguments.
Local vectors are zero after `resize`; local `Poly` objects (uninitialised in C++) are zero too, and written before they are read.
-/

namespace Cex.Kyber
open Cex

variable (P : List Byte → M (List Byte)) (fuel : Nat)

/-- A vector of `K` polynomials after `resize`. -/
def vec0 (K : Nat) : List (List Int) := List.replicate K poly0

/-- A loop that replaces every polynomial of a vector. -/
def vecLoop (u : Nat → List Int → M (List Int)) (r : List (List Int)) : M (List (List Int)) :=
  loopN r.length 0 (fun i r => do wr r i (← u i (← rd r i))) r

/-- `PolyVecNtt` (KyberBase.cpp:333-339). -/
def polyVecNtt (r : List (List Int)) : M (List (List Int)) := vecLoop (fun _ p => polyNtt p) r

/-- `PolyVecInvNttToMont` (KyberBase.cpp:341-347), `PolyInvNttToMontgomery` 227-230. -/
def polyVecInvNtt (r : List (List Int)) : M (List (List Int)) := vecLoop (fun _ p => invNtt p) r

/-- `PolyVecReduce` (KyberBase.cpp:364-370). -/
def polyVecReduce (r : List (List Int)) : M (List (List Int)) := vecLoop (fun _ p => polyReduce p) r

/-- `PolyVecAdd(R, R, B)` (KyberBase.cpp:372-378); every caller has `A = R`. -/
def polyVecAdd (r b : List (List Int)) : M (List (List Int)) := vecLoop (fun i p => do polyAdd p p (← rd b i)) r

/-- `PackPk` (KyberBase.cpp:382-386). -/
def packPk (r : List Byte) (pk : List (List Int)) (seed : List Byte) : M (List Byte) := do
  let r ← polyVecToBytes r pk
  copy seed 0 r (pk.length * 384) 32

/-- `UnPackPk` (KyberBase.cpp:388-392). -/
def unpackPk (pk : List (List Int)) (seed packed : List Byte) : M (List (List Int) × List Byte) := do
  let v ← polyVecFromBytes pk packed
  let seed ← copy packed (pk.length * 384) seed 0 32
  return (v, seed)

/-- Where the second part of a ciphertext starts (KyberBase.cpp:406, 427). -/
def ctOffset (K : Nat) : Nat := (if 3 < K then 352 else 320) * K

/-- `PackCiphertext` (KyberBase.cpp:404-422). -/
def packCiphertext (r : List Byte) (b : List (List Int)) (v : List Int) (K : Nat) : M (List Byte) := do
  let r ← polyVecCompress r b
  polyCompress r (ctOffset K) v K

/-- `UnPackCiphertext` (KyberBase.cpp:424-444). -/
def unpackCiphertext (b : List (List Int)) (v : List Int) (c : List Byte) : M (List (List Int) × List Int) := do
  let b' ← polyVecDecompress b c
  let v ← polyDecompress v c (ctOffset b.length) b.length
  return (b', v)

/-- A parameter set (KyberBase.h:79-138); `ETA2` is 2. -/
structure Par where
  K : Nat
  eta1 : Nat

/-- `Params1632`, `Params2400`, `Params3168`, `Params3936` (KyberBase.h:79-138). -/
def sets : List Par := [⟨2, 3⟩, ⟨3, 2⟩, ⟨4, 2⟩, ⟨5, 2⟩]

/-- `KYBER_PUBLICKEY_SIZE`: 800, 1184, 1568, 1952 (KyberBase.h:79-138). -/
def Par.pkSize (p : Par) : Nat := if p.K = 2 then 800 else if p.K = 3 then 1184 else if p.K = 4 then 1568 else 1952

/-- `KYBER_PRIVATEKEY_SIZE`: 1632, 2400, 3168, 3936 (KyberBase.h:79-138). -/
def Par.skSize (p : Par) : Nat := if p.K = 2 then 1632 else if p.K = 3 then 2400 else if p.K = 4 then 3168 else 3936

/-- `KYBER_CIPHERTEXT_SIZE`: 768, 1088, 1568, 1920 (KyberBase.h:79-138). -/
def Par.ctSize (p : Par) : Nat := if p.K = 2 then 768 else if p.K = 3 then 1088 else if p.K = 4 then 1568 else 1920

/-- `IndCpaKeyPair` (KyberBase.h:140-190); `d` is the output of the generator at 161. Result: public key, private key. In the loops for noise `nonce` is `i` and then `K + i`. -/
def keyPair (p : Par) (pk sk d : List Byte) : M (List Byte × List Byte) := do
  let buf ← blit (List.replicate 64 0) 0 d
  let buf ← Keccak.compute P buf 0 32 buf 0 72
  let a ← genMatrix P 32 fuel (List.replicate p.K (vec0 p.K)) buf false p.K
  let s ← vecLoop (fun i r => getNoiseEta1 P r buf 32 (BitVec.ofNat 8 i) p.eta1) (vec0 p.K)
  let e ← vecLoop (fun i r => getNoiseEta1 P r buf 32 (BitVec.ofNat 8 (p.K + i)) p.eta1) (vec0 p.K)
  let s ← polyVecNtt s
  let e ← polyVecNtt e
  let t ← vecLoop (fun i r => do polyToMont (← polyVecBaseMulAcc r (← rd a i) s)) (vec0 p.K)
  let t ← polyVecAdd t e
  let t ← polyVecReduce t
  let sk ← polyVecToBytes sk s
  let pk ← packPk pk t buf
  return (pk, sk)

/-- `IndCpaEnc` (KyberBase.h:192-252). -/
def enc (p : Par) (c m pk coins : List Byte) (off : Nat) : M (List Byte) := do
  let (t, seed) ← unpackPk (vec0 p.K) (List.replicate 32 0) pk
  let k ← polyFromMsg poly0 m
  let at' ← genMatrix P 32 fuel (List.replicate p.K (vec0 p.K)) seed true p.K
  let r ← vecLoop (fun i r => getNoiseEta1 P r coins off (BitVec.ofNat 8 i) p.eta1) (vec0 p.K)
  let e1 ← vecLoop (fun i r => getNoiseEta2 P r coins off (BitVec.ofNat 8 (p.K + i))) (vec0 p.K)
  let e2 ← getNoiseEta2 P poly0 coins off (BitVec.ofNat 8 (p.K + p.K))
  let r ← polyVecNtt r
  let b ← vecLoop (fun i q => do polyVecBaseMulAcc q (← rd at' i) r) (vec0 p.K)
  let v ← polyVecBaseMulAcc poly0 t r
  let b ← polyVecInvNtt b
  let v ← invNtt v
  let b ← polyVecAdd b e1
  let v ← polyAdd v v e2
  let v ← polyAdd v v k
  let b ← polyVecReduce b
  let v ← polyReduce v
  packCiphertext c b v p.K

/-- `IndCpaDec` (KyberBase.h:254-274). -/
def dec (p : Par) (m c sk : List Byte) : M (List Byte) := do
  let (b, v) ← unpackCiphertext (vec0 p.K) poly0 c
  let s ← polyVecFromBytes (vec0 p.K) sk
  let b ← polyVecNtt b
  let mp ← polyVecBaseMulAcc poly0 s b
  let mp ← invNtt mp
  let mp ← polySub mp v mp
  let mp ← polyReduce mp
  polyToMsg m mp

/-- `KyberBase::Generate` (KyberBase.h:373-385); `d` and `z` are the outputs of the generator. Result: public key, private key. -/
def generate (p : Par) (pk sk d z : List Byte) : M (List Byte × List Byte) := do
  let (pk, sk) ← keyPair P fuel p pk sk d
  let sk ← copy pk 0 sk (p.K * 384) pk.length
  let sk ← Keccak.compute P pk 0 pk.length sk (p.K * 384 + 32 + p.K * 384) 136
  let sk ← blit sk (p.K * 384 + (p.K * 384 + 32) + 64 - 32) z
  return (pk, sk)

/-- `KyberBase::Encapsulate` (KyberBase.h:340-361); `d` is the output of the generator. Result: ciphertext, shared secret. -/
def encapsulate (p : Par) (pk ct ss d : List Byte) : M (List Byte × List Byte) := do
  let buf ← blit (List.replicate 64 0) 0 d
  let buf ← Keccak.compute P buf 0 32 buf 0 136
  let buf ← Keccak.compute P pk 0 pk.length buf 32 136
  let kr ← Keccak.compute P buf 0 64 (List.replicate 64 0) 0 72
  let ct ← enc P fuel p ct buf pk kr 32
  let kr ← Keccak.compute P ct 0 ct.length kr 32 136
  let ss ← Keccak.xof P kr 0 64 ss 0 ss.length 136
  return (ct, ss)

/-- `KyberBase::Decapsulate` (KyberBase.h:288-329). `PrivateKey.size() - SKILEN` wraps for shorter keys and the vector cannot be allocated (`length_error`); such keys are out of
the model (undefined). Result: equal to the encryption of the decrypted message, shared secret. -/
def decapsulate (p : Par) (sk ct ss : List Byte) : M (Bool × List Byte) := do
  if sk.length < p.K * 384 then .error .ub else
  let pk ← copy sk (p.K * 384) (List.replicate (sk.length - p.K * 384) 0) 0 (sk.length - p.K * 384)
  let buf ← dec p (List.replicate 64 0) ct sk
  let buf ← copy sk (p.K * 384 + (p.K * 384 + 32) + 64 - 64) buf 32 32
  let kr ← Keccak.compute P buf 0 64 (List.replicate 64 0) 0 72
  let cmp ← enc P fuel p (List.replicate ct.length 0) buf pk kr 32
  let fail ← IntTools.verify ct 0 cmp 0 ct.length
  let kr ← Keccak.compute P ct 0 ct.length kr 32 136
  let kr ← IntTools.cmov sk (p.K * 384 + (p.K * 384 + 32) + 64 - 32) kr 0 32 (fail.setWidth 8)
  let ss ← Keccak.xof P kr 0 64 ss 0 ss.length 136
  return (decide (fail.setWidth 32 = (0 : BitVec 32)), ss)

/-! ## The object -/

/-- An `AsymmetricKey` of Kyber: its class, parameters and bytes. -/
structure Key where
  isPublic : Bool
  par : Par
  bytes : List Byte

/-- `Kyber` (Kyber.h, `KyberState`): parameters, keys (`none` is a null pointer), domain key. The flags `Encryption` and `Initialized` are read by no function modelled here. -/
structure Obj where
  par : Par
  publicKey : Option Key
  privateKey : Option Key
  domainKey : List Byte

/-- `Kyber::Initialize` (Kyber.cpp:417-442) with a key of Kyber. -/
def Obj.initialize (o : Obj) (k : Key) : Obj :=
  if k.isPublic then { o with publicKey := some k, par := k.par } else { o with privateKey := some k, par := k.par }

/-- `Kyber::Generate` (Kyber.cpp:365-415). -/
def Obj.generate (o : Obj) (d z : List Byte) : M (Key × Key) := do
  let (pk, sk) ← Kyber.generate P fuel o.par (List.replicate o.par.pkSize 0) (List.replicate o.par.skSize 0) d z
  return (⟨true, o.par, pk⟩, ⟨false, o.par, sk⟩)

/-- The end of `Encapsulate` and `Decapsulate` (Kyber.cpp:296-304, 354-362). With a domain key `CXOF` builds a vector from the iterators of two different strings (446): undefined. -/
def Obj.output (o : Obj) (sec : List Byte) : M (List Byte) := if o.domainKey.length ≠ 0 then .error .ub else return sec

/-- `Kyber::Encapsulate` (Kyber.cpp:310-363); the old contents of both vectors do not matter without a domain key. -/
def Obj.encapsulate (o : Obj) (d : List Byte) : M (List Byte × List Byte) :=
  match o.publicKey with
  | none => .error .ub
  | some k => do
    let (ct, sec) ← Kyber.encapsulate P fuel o.par k.bytes (List.replicate o.par.ctSize 0) (List.replicate 32 0) d
    return (ct, ← o.output sec)

/-- `Kyber::Decapsulate` (Kyber.cpp:256-308). Result: the return value and `SharedSecret` after the call. -/
def Obj.decapsulate (o : Obj) (ct ss : List Byte) : M (Bool × List Byte) :=
  match o.privateKey with
  | none => .error .ub
  | some k => do
    let (res, sec) ← Kyber.decapsulate P fuel o.par k.bytes ct (List.replicate 32 0)
    if res then return (true, ← o.output sec) else return (false, ss)

end Cex.Kyber
