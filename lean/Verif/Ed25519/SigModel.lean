import Verif.Ed25519.ScModel
import Verif.Ed25519.Table

/-!
# Ed25519 signatures (CEX/ECDSA.cpp, CEX/ECDSABase.cpp, CEX/EC25519.cpp, path without 128-bit integers)
-/

namespace Cex.Ed25519

open Cex.Ec25519

/-! ### The field -/

/-- `Ed25519D` (CEX/EC25519.cpp:771-775) -/
def feD : F10 := ⟨-10913610, 13857413, -15372611, 6949391, 114729, -8787816, -6275908, -3247719, -18696448, -12055116⟩
/-- `Fe25519SqrtM1` (CEX/EC25519.cpp:777-781) -/
def feSqrtM1 : F10 := ⟨-32595792, -7943725, 9377950, 3500415, 12389472, -272473, -25146209, -2005654, 326686, 11406482⟩
/-- `Ed25519D2` (CEX/EC25519.cpp:783-787) -/
def feD2 : F10 := ⟨-21827239, -5839606, -30745221, 13898782, 229458, 15978800, -12551817, -6495438, 29715968, 9444199⟩

/-- `Fe25519IsNegative` (CEX/EC25519.cpp:1003-1010) -/
def feIsNegative (W : Nat) (f : F10) : M Byte := do
  let s ← f.toBytes W (List.replicate 32 0)
  return (← rd s 0) &&& 1

/-- `Fe25519IsZero`, `EcdsaBaseIsZero` (CEX/EC25519.cpp:1012-1019, 10-23) -/
def feIsZero (W : Nat) (f : F10) : M Bool := do
  let s ← f.toBytes W (List.replicate 32 0)
  isZero s

/-- `Fe25519Pow22523` (CEX/EC25519.cpp:1798-1869) -/
def fePow22523 (z : F10) : M F10 := do
  let t0 ← z.sq
  let t1 ← t0.sq
  let t1 ← t1.sq
  let t1 ← z.mul t1
  let t0 ← t0.mul t1
  let t0 ← t0.sq
  let t0 ← t1.mul t0
  let t1 ← t0.sq
  let t1 ← t1.sqn 4
  let t0 ← t1.mul t0
  let t1 ← t0.sq
  let t1 ← t1.sqn 9
  let t1 ← t1.mul t0
  let t2 ← t1.sq
  let t2 ← t2.sqn 19
  let t1 ← t2.mul t1
  let t1 ← t1.sqn 10
  let t0 ← t1.mul t0
  let t1 ← t0.sq
  let t1 ← t1.sqn 49
  let t1 ← t1.mul t0
  let t2 ← t1.sq
  let t2 ← t2.sqn 99
  let t1 ← t2.mul t1
  let t1 ← t1.sqn 50
  let t0 ← t1.mul t0
  let t0 ← t0.sq
  let t0 ← t0.sq
  t0.mul z

/-! ### Points -/

/-- `Ge25519ToBytes`, `Ge25519P3ToBytes` (CEX/EC25519.cpp:5240-5251, 4836-4847): the first 32 bytes of `s` are written -/
def geToBytes (W : Nat) (s : List Byte) (x y z : F10) : M (List Byte) := do
  let recip ← z.invert
  let x ← x.mul recip
  let y ← y.mul recip
  let s ← y.toBytes W s
  wr s 31 ((← rd s 31) ^^^ ((← feIsNegative W x) <<< 7))

/-- `Ge25519IsCanonical` (CEX/EC25519.cpp:4849-4866) -/
def geIsCanonical (s : List Byte) : M Bool := do
  let c := ((← rd s 31) &&& 0x7f) ^^^ 0x7f
  let c ← loopN 30 0 (fun j c => do return c ||| ((← rd s (30 - j)) ^^^ 0xff)) c
  let c : Byte := (((c.setWidth 32 : BitVec 32) - 1) >>> 8).setWidth 8
  let d : Byte := (((0xed : BitVec 32) - 1 - (← rd s 0).setWidth 32) >>> 8).setWidth 8
  return c &&& d &&& 1 == 0

/-- the seven encodings of `blocklist` (CEX/EC25519.cpp:4870-4914) -/
def geBlocklist : List (List Byte) :=
  [[0x00, 0x00, 0x00, 0x00, 0x00, 0x00, 0x00, 0x00, 0x00, 0x00, 0x00, 0x00, 0x00, 0x00, 0x00, 0x00, 0x00, 0x00, 0x00, 0x00, 0x00, 0x00, 0x00, 0x00, 0x00, 0x00, 0x00, 0x00, 0x00, 0x00, 0x00, 0x00],
   [0x01, 0x00, 0x00, 0x00, 0x00, 0x00, 0x00, 0x00, 0x00, 0x00, 0x00, 0x00, 0x00, 0x00, 0x00, 0x00, 0x00, 0x00, 0x00, 0x00, 0x00, 0x00, 0x00, 0x00, 0x00, 0x00, 0x00, 0x00, 0x00, 0x00, 0x00, 0x00],
   [0x26, 0xe8, 0x95, 0x8f, 0xc2, 0xb2, 0x27, 0xb0, 0x45, 0xc3, 0xf4, 0x89, 0xf2, 0xef, 0x98, 0xf0, 0xd5, 0xdf, 0xac, 0x05, 0xd3, 0xc6, 0x33, 0x39, 0xb1, 0x38, 0x02, 0x88, 0x6d, 0x53, 0xfc, 0x05],
   [0xc7, 0x17, 0x6a, 0x70, 0x3d, 0x4d, 0xd8, 0x4f, 0xba, 0x3c, 0x0b, 0x76, 0x0d, 0x10, 0x67, 0x0f, 0x2a, 0x20, 0x53, 0xfa, 0x2c, 0x39, 0xcc, 0xc6, 0x4e, 0xc7, 0xfd, 0x77, 0x92, 0xac, 0x03, 0x7a],
   [0xec, 0xff, 0xff, 0xff, 0xff, 0xff, 0xff, 0xff, 0xff, 0xff, 0xff, 0xff, 0xff, 0xff, 0xff, 0xff, 0xff, 0xff, 0xff, 0xff, 0xff, 0xff, 0xff, 0xff, 0xff, 0xff, 0xff, 0xff, 0xff, 0xff, 0xff, 0x7f],
   [0xed, 0xff, 0xff, 0xff, 0xff, 0xff, 0xff, 0xff, 0xff, 0xff, 0xff, 0xff, 0xff, 0xff, 0xff, 0xff, 0xff, 0xff, 0xff, 0xff, 0xff, 0xff, 0xff, 0xff, 0xff, 0xff, 0xff, 0xff, 0xff, 0xff, 0xff, 0x7f],
   [0xee, 0xff, 0xff, 0xff, 0xff, 0xff, 0xff, 0xff, 0xff, 0xff, 0xff, 0xff, 0xff, 0xff, 0xff, 0xff, 0xff, 0xff, 0xff, 0xff, 0xff, 0xff, 0xff, 0xff, 0xff, 0xff, 0xff, 0xff, 0xff, 0xff, 0xff, 0x7f]]

/-- `Ge25519HasSmallOrder` (CEX/EC25519.cpp:4868-4942); the number of entries is again the quotient of two vector objects -/
def geSmallOrder (s : List Byte) : M Bool := do
  let k ← loopN blockCount 0 (fun i k => do
    let e ← rd geBlocklist i
    let c ← blockDiff s e
    return k ||| ((c.setWidth 32 : BitVec 32) - 1)) (0 : BitVec 32)
  return k.getLsbD 8

/-- the root: `x`, `x` times a root of -1, or none (CEX/EC25519.cpp:4976-4994) -/
def geRoot (W : Nat) (u v x : F10) : M (Option F10) := do
  let vxx ← x.sq
  let vxx ← vxx.mul v
  let m ← vxx.sub u
  if ← feIsZero W m then return some x
  let p ← vxx.add u
  if ← feIsZero W p then return some (← x.mul feSqrtM1) else return none

/-- the sign (CEX/EC25519.cpp:4998-5001) -/
def geSign (W : Nat) (s : List Byte) (x : F10) : M F10 := do
  let n ← feIsNegative W x
  let b ← rd s 31
  if n = b >>> 7 then fneg x else return x

/-- `Ge25519FromBytesNegateVarTime` (CEX/EC25519.cpp:4944-5007): `none` is -1 -/
def geFromBytesNeg (W : Nat) (s : List Byte) : M (Option Ge3) := do
  let y ← F10.fromBytes s
  let z := F10.one
  let u ← y.sq
  let v ← u.mul feD
  let u ← u.sub z
  let v ← v.add z
  let v3 ← v.sq
  let v3 ← v3.mul v
  let x ← v3.sq
  let x ← x.mul v
  let x ← x.mul u
  let x ← fePow22523 x
  let x ← x.mul v3
  let x ← x.mul u
  match ← geRoot W u v x with
  | none => return none
  | some x => do
    let x ← geSign W s x
    let t ← x.mul y
    return some ⟨x, y, z, t⟩

/-- `ge25519cached` -/
structure Cached where
  yplusx : F10
  yminusx : F10
  z : F10
  t2d : F10

/-- `Ge25519P3ToCached` (CEX/EC25519.cpp:5009-5015) -/
def Ge3.toCached (p : Ge3) : M Cached := do
  return ⟨← p.y.add p.x, ← p.y.sub p.x, p.z, ← p.t.mul feD2⟩

/-- `Ge25519AddCached` (CEX/EC25519.cpp:5017-5032) -/
def addCached (p : Ge3) (q : Cached) : M Ge11 := do
  let x ← p.y.add p.x
  let y ← p.y.sub p.x
  let z ← x.mul q.yplusx
  let y ← y.mul q.yminusx
  let t ← q.t2d.mul p.t
  let x ← p.z.mul q.z
  let t0 ← x.add x
  let x ← z.sub y
  let y ← z.add y
  let z ← t0.add t
  let t ← t0.sub t
  return ⟨x, y, z, t⟩

/-- `Ge25519SubPrecomp` (CEX/EC25519.cpp:5034-5048) -/
def subPre (p : Ge3) (q : Pre) : M Ge11 := do
  let x ← p.y.add p.x
  let y ← p.y.sub p.x
  let z ← x.mul q.yminusx
  let y ← y.mul q.yplusx
  let t ← q.xy2d.mul p.t
  let t0 ← p.z.add p.z
  let x ← z.sub y
  let y ← z.add y
  let z ← t0.sub t
  let t ← t0.add t
  return ⟨x, y, z, t⟩

/-- `Ge25519SubCached` (CEX/EC25519.cpp:5223-5238) -/
def subCached (p : Ge3) (q : Cached) : M Ge11 := do
  let x ← p.y.add p.x
  let y ← p.y.sub p.x
  let z ← x.mul q.yminusx
  let y ← y.mul q.yplusx
  let t ← q.t2d.mul p.t
  let x ← p.z.mul q.z
  let t0 ← x.add x
  let x ← z.sub y
  let y ← z.add y
  let z ← t0.sub t
  let t ← t0.add t
  return ⟨x, y, z, t⟩

/-- `Bi`: the odd multiples of the base point (CEX/EC25519.cpp:5095-5136) -/
def oddBase : List Pre :=
  [⟨⟨25967493, -14356035, 29566456, 3660896, -12694345, 4014787, 27544626, -11754271, -6079156, 2047605⟩, ⟨-12545711, 934262, -2722910, 3049990, -727428, 9406986, 12720692, 5043384, 19500929, -15469378⟩, ⟨-8738181, 4489570, 9688441, -14785194, 10184609, -12363380, 29287919, 11864899, -24514362, -4438546⟩⟩,
   ⟨⟨15636291, -9688557, 24204773, -7912398, 616977, -16685262, 27787600, -14772189, 28944400, -1550024⟩, ⟨16568933, 4717097, -11556148, -1102322, 15682896, -11807043, 16354577, -11775962, 7689662, 11199574⟩, ⟨30464156, -5976125, -11779434, -15670865, 23220365, 15915852, 7512774, 10017326, -17749093, -9920357⟩⟩,
   ⟨⟨10861363, 11473154, 27284546, 1981175, -30064349, 12577861, 32867885, 14515107, -15438304, 10819380⟩, ⟨4708026, 6336745, 20377586, 9066809, -11272109, 6594696, -25653668, 12483688, -12668491, 5581306⟩, ⟨19563160, 16186464, -29386857, 4097519, 10237984, -4348115, 28542350, 13850243, -23678021, -15815942⟩⟩,
   ⟨⟨5153746, 9909285, 1723747, -2777874, 30523605, 5516873, 19480852, 5230134, -23952439, -15175766⟩, ⟨-30269007, -3463509, 7665486, 10083793, 28475525, 1649722, 20654025, 16520125, 30598449, 7715701⟩, ⟨28881845, 14381568, 9657904, 3680757, -20181635, 7843316, -31400660, 1370708, 29794553, -1409300⟩⟩,
   ⟨⟨-22518993, -6692182, 14201702, -8745502, -23510406, 8844726, 18474211, -1361450, -13062696, 13821877⟩, ⟨-6455177, -7839871, 3374702, -4740862, -27098617, -10571707, 31655028, -7212327, 18853322, -14220951⟩, ⟨4566830, -12963868, -28974889, -12240689, -7602672, -2830569, -8514358, -10431137, 2207753, -3209784⟩⟩,
   ⟨⟨-25154831, -4185821, 29681144, 7868801, -6854661, -9423865, -12437364, -663000, -31111463, -16132436⟩, ⟨25576264, -2703214, 7349804, -11814844, 16472782, 9300885, 3844789, 15725684, 171356, 6466918⟩, ⟨23103977, 13316479, 9739013, -16149481, 817875, -15038942, 8965339, -14088058, -30714912, 16193877⟩⟩,
   ⟨⟨-33521811, 3180713, -2394130, 14003687, -16903474, -16270840, 17238398, 4729455, -18074513, 9256800⟩, ⟨-25182317, -4174131, 32336398, 5036987, -21236817, 11360617, 22616405, 9761698, -19827198, 630305⟩, ⟨-13720693, 2639453, -24237460, -7406481, 9494427, -5774029, -6554551, -15960994, -2449256, -14291300⟩⟩,
   ⟨⟨-3151181, -5046075, 9282714, 6866145, -31907062, -863023, -18940575, 15033784, 25105118, -7894876⟩, ⟨-24326370, 15950226, -31801215, -14592823, -11662737, -5090925, 1573892, -2625887, 2198790, -15804619⟩, ⟨-3099351, 10324967, -2241613, 7453183, -5446979, -2735503, -13812022, -16236442, -32461234, -12290683⟩⟩]

/-! ### `EcdsaBaseSlideVarTime` (CEX/EC25519.cpp:58-117) -/

/-- the carry: `for (k = i + b; k < 256; ++k)` (104-113); `n` is the number of turns left -/
def slideCarry : Nat → Nat → List Int → M (List Int)
  | 0, _, r => .ok r
  | n + 1, k, r => do
    if (← rd r k) = 0 then wr r k 1 else slideCarry n (k + 1) (← wr r k 0)

/-- the turns `b`, `b + 1`, … of the inner loop, `n` of them at most (78-115) -/
def slideInner (i : Nat) : Nat → Nat → List Int → M (List Int)
  | 0, _, r => .ok r
  | n + 1, b, r => do
    if 256 ≤ i + b then return r
    if (← rd r (i + b)) = 0 then slideInner i n (b + 1) r
    else do
      let ribs := (← rd r (i + b)) * 2 ^ b
      let cmp := (← rd r i) + ribs
      if cmp ≤ 15 then
        let r ← wr r i (i8 cmp)
        slideInner i n (b + 1) (← wr r (i + b) 0)
      else
        let cmp := (← rd r i) - ribs
        if cmp < -15 then return r
        let r ← wr r i (i8 cmp)
        slideInner i n (b + 1) (← slideCarry (256 - (i + b)) (i + b) r)

/-- one turn of the outer loop -/
def slideTurn (i : Nat) (r : List Int) : M (List Int) := do
  if (← rd r i) = 0 then return r else slideInner i 6 1 r

/-- the digits of the 32 bytes at `off` -/
def slide (a : List Byte) (off : Nat) : M (List Int) := do
  let r ← loopN 256 0 (fun i r => do wr r i ((((← rd a (off + i / 8)) >>> (i % 8)) &&& 1).toNat : Int)) (List.replicate 256 0)
  loopN 256 0 slideTurn r

/-! ### `Ge25519DoubleScalarMultVarTime` (CEX/EC25519.cpp:5050-5221) -/

/-- `Ai`: the odd multiples of a point (5150-5181) -/
def oddTable (p : Ge3) : M (List Cached) := do
  let a ← p.toCached
  let p2 ← (← p3Dbl p).toP3
  let r ← loopN 7 0 (fun _ (s : List Cached × Cached) => do
    let u ← (← addCached p2 s.2).toP3
    let c ← u.toCached
    return (s.1 ++ [c], c)) ([a], a)
  return r.1

/-- the first turn: one more than the greatest index with a digit (5185-5191) -/
def topDigit (a b : List Int) : Nat → M Nat
  | 0 => .ok 0
  | n + 1 => do
    if (← rd a n) ≠ 0 ∨ (← rd b n) ≠ 0 then return n + 1 else topDigit a b n

/-- the digit of the point (5197-5206) -/
def addA (ai : List Cached) (d : Int) (t : Ge11) : M Ge11 := do
  if 0 < d then addCached (← t.toP3) (← rd ai (d.toNat / 2))
  else if d < 0 then subCached (← t.toP3) (← rd ai ((-d).toNat / 2))
  else return t

/-- the digit of the base point (5208-5217) -/
def addB (d : Int) (t : Ge11) : M Ge11 := do
  if 0 < d then addPre (← t.toP3) (← rd oddBase (d.toNat / 2))
  else if d < 0 then subPre (← t.toP3) (← rd oddBase ((-d).toNat / 2))
  else return t

/-- `a A + b B` -/
def doubleScalar (a : List Byte) (A : Ge3) (b : List Byte) (off : Nat) : M Ge2 := do
  let as ← slide a 0
  let bs ← slide b off
  let ai ← oddTable A
  let n ← topDigit as bs 256
  loopN n 0 (fun k r => do
    let i := n - 1 - k
    let t ← p2Dbl r
    let t ← addA ai (← rd as i) t
    let t ← addB (← rd bs i) t
    t.toP2) ⟨F10.zero, F10.one, F10.one⟩

/-! ### Scalars -/

/-- the constant of `Sc25519IsCanonical` (CEX/EC25519.cpp:5466-5471) -/
def orderBytes : List Byte :=
  [0xED, 0xD3, 0xF5, 0x5C, 0x1A, 0x63, 0x12, 0x58, 0xD6, 0x9C, 0xF7, 0xA2, 0xDE, 0xF9, 0xDE, 0x14, 0x00, 0x00, 0x00, 0x00, 0x00, 0x00,
   0x00, 0x00, 0x00, 0x00, 0x00, 0x00, 0x00, 0x00, 0x00, 0x10]

/-- `Sc25519IsCanonical` (CEX/EC25519.cpp:5464-5490); the differences are `int`, the right shifts arithmetic -/
def scIsCanonical (s : List Byte) (off : Nat) : M Bool := do
  let r ← loopN 32 0 (fun j (st : Byte × Byte) => do
    let i := 31 - j
    let x ← rd s (off + i)
    let l ← rd orderBytes i
    let c := st.1 ||| (BitVec.ofInt 8 (((x.toNat : Int) - (l.toNat : Int)) / 256) &&& st.2)
    let n := st.2 &&& BitVec.ofInt 8 ((((x ^^^ l).toNat : Int) - 1) / 256)
    return (c, n)) ((0 : Byte), (1 : Byte))
  return r.1 != 0

/-- `Sc25519Verify` (CEX/EC25519.cpp:6300-6313): whether the result is 0 -/
def scVerify (x y : List Byte) (n : Nat) : M Bool := do
  let d ← loopN n 0 (fun i d => do return d ||| ((← rd x i) ^^^ (← rd y i))) (0 : Byte)
  return (((d.toNat : Int) - 1) / 256) % 2 == 1

/-! ### Signatures (CEX/ECDSABase.cpp)

`digest` is the digest of the concatenation of what `Update` was called with before `Finalize`. -/

/-- `GenerateKeyPair` (CEX/ECDSABase.cpp:102-114): public and private key -/
def genKeyPair (W : Nat) (digest : List Byte → M (List Byte)) (seed : List Byte) : M (List Byte × List Byte) := do
  let sk ← digest seed
  let sk ← clamp sk
  let A ← scalarBase base sk
  let pk ← geToBytes W (List.replicate 32 0) A.x A.y A.z
  let sk ← copy seed 0 sk 0 32
  let sk ← copy pk 0 sk 32 pk.length
  return (pk, sk)

/-- `Ed25519Sign` (CEX/ECDSABase.cpp:13-56): the buffer of the signature -/
def edSign (W : Nat) (digest : List Byte → M (List Byte)) (sig msg sk : List Byte) : M (List Byte) := do
  let az ← digest (← slice sk 0 32)
  let nonce ← digest ((← slice az 32 32) ++ msg)
  let sig ← copy sk 32 sig 32 32
  let nonce ← scReduce nonce
  let R ← scalarBase base nonce
  let sig ← geToBytes W sig R.x R.y R.z
  let hram ← digest ((← slice sig 0 64) ++ msg)
  let hram ← scReduce hram
  let az ← clamp az
  scMulAdd sig 32 hram az nonce

/-- `Sign` (CEX/ECDSABase.cpp:116-130) -/
def sign (W : Nat) (digest : List Byte → M (List Byte)) (sig msg sk : List Byte) : M (List Byte) := do
  let sig ← copy msg 0 sig 64 msg.length
  edSign W digest sig msg sk

/-- the scalar of a signature that is refused (CEX/ECDSABase.cpp:68) -/
def badScalar (sig : List Byte) : M Bool := do
  if (← rd sig 63) &&& 240 = 0 then return false
  return !(← scIsCanonical sig 32)

/-- the equation (CEX/ECDSABase.cpp:87-96) -/
def edCheck (W : Nat) (digest : List Byte → M (List Byte)) (sig msg pk : List Byte) (A : Ge3) : M Bool := do
  let h ← digest ((← slice sig 0 32) ++ (← slice pk 0 32) ++ msg)
  let h ← scReduce h
  let R ← doubleScalar h A sig 32
  let rcheck ← geToBytes W (List.replicate 32 0) R.x R.y R.z
  let eq ← scVerify rcheck sig 32
  return eq && ((← slice sig 0 32) == (← slice rcheck 0 32))

/-- `Ed25519Verify` (CEX/ECDSABase.cpp:58-100) -/
def edVerify (W : Nat) (digest : List Byte → M (List Byte)) (sig msg pk : List Byte) : M Bool := do
  if ← badScalar sig then return false
  if ← geSmallOrder sig then return false
  if !(← geIsCanonical pk) then return false
  if ← geSmallOrder pk then return false
  match ← geFromBytesNeg W pk with
  | none => return false
  | some A => edCheck W digest sig msg pk A

/-- `Verify` (CEX/ECDSABase.cpp:132-153): the result and the caller's message. The length of the message of a signature of fewer than 64 bytes wraps, and a vector of
more than `max_size` elements throws `std::length_error`. -/
def verify (W : Nat) (digest : List Byte → M (List Byte)) (message sig pk : List Byte) : M (Bool × List Byte) := do
  if sig.length < 64 then throw (.throws .maxExceeded)
  let n := sig.length - 64
  let tmpm ← copy sig 64 (List.replicate n 0) 0 n
  let res ← edVerify W digest sig tmpm pk
  if res then return (true, tmpm) else return (false, List.replicate message.length 0)

/-! ### `ECDSA` (CEX/ECDSA.cpp) -/

/-- the parameter sets; the numbers are those of the enumeration -/
inductive Param where
  | s1k  -- ECDSAS1P25519K: SHA3-512
  | s2s  -- ECDSAS2P25519S: SHA2-512
  deriving DecidableEq

/-- the object: the parameters of the constructor fix the digest, `Initialize` replaces `params` by those of the key (CEX/ECDSA.cpp:181-209) -/
structure Ecdsa where
  digest : List Byte → M (List Byte)
  params : Param
  initialized : Bool
  signer : Bool
  privKey : List Byte
  pubKey : List Byte

/-- `Initialize` with a private key of this primitive -/
def Ecdsa.initSign (o : Ecdsa) (p : Param) (sk : List Byte) : Ecdsa := { o with params := p, initialized := true, signer := true, privKey := sk }
/-- `Initialize` with a public key of this primitive -/
def Ecdsa.initVerify (o : Ecdsa) (p : Param) (pk : List Byte) : Ecdsa := { o with params := p, initialized := true, signer := false, pubKey := pk }

/-- `Generate(Seed)` (CEX/ECDSA.cpp:162-179) -/
def Ecdsa.generate (W : Nat) (o : Ecdsa) (seed : List Byte) : M (List Byte × List Byte) := do
  if seed.length ≠ 32 then throw (.throws .invalidKey)
  genKeyPair W o.digest seed

/-- `Sign` (CEX/ECDSA.cpp:211-247): the caller's vector; its old contents do not matter, every byte is written -/
def Ecdsa.sign (W : Nat) (o : Ecdsa) (msg sig : List Byte) : M (List Byte) := do
  if !o.initialized then throw (.throws .illegalOperation)
  if !o.signer then throw (.throws .notInitialized)
  if msg.length = 0 then throw (.throws .invalidParam)
  match o.params with
  | .s2s => Ed25519.sign W o.digest (sig.take (64 + msg.length) ++ List.replicate (64 + msg.length - sig.length) 0) msg o.privKey
  | .s1k => throw (.throws .invalidParam)

/-- `Verify` (CEX/ECDSA.cpp:249-268) -/
def Ecdsa.verify (W : Nat) (o : Ecdsa) (sig message : List Byte) : M (Bool × List Byte) := do
  if !o.initialized then throw (.throws .illegalOperation)
  if o.signer then throw (.throws .notInitialized)
  Ed25519.verify W o.digest message sig o.pubKey

end Cex.Ed25519
