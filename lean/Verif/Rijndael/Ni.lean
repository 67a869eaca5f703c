import Verif.Rijndael.Model
import Verif.Rijndael.Spec

/-!
# The AES-NI builds of RHX and RCS

Code under `CEX_HAS_AVX` (without the AVX-512 variants and without `CEX_EXTENDED_AESNI`). A register is four 32-bit lanes
of four bytes; `x r c` is byte `r` of lane `c`. The intrinsics follow the vendor's pseudo-code ("Intel Advanced Encryption
Standard New Instructions" and the intrinsics guide); they are part of the trusted base. `std::vector<__m128i>` is its bytes.
-/

namespace Cex.Rijndael

/-- `__m128i`. -/
abbrev Reg := Aes.St 4

/-! ## Intrinsics -/

def xorReg (x y : Reg) : Reg := fun r c => x r c ^^^ y r c

/-- `_mm_loadu_si128` at a byte offset. -/
def ldReg (b : List Byte) (off : Nat) : M Reg := do
  let s ← slice b off 16
  if h : s.length = 4 * 4 then return Aes.state s h else throw .ub

/-- `_mm_storeu_si128` at a byte offset. -/
def stReg (b : List Byte) (off : Nat) (x : Reg) : M (List Byte) := blit b off (Aes.bytes x)

/-- `_mm_aesenc_si128`: ShiftRows, SubBytes, MixColumns, XOR the round key. -/
def aesenc (x k : Reg) : Reg := xorReg (Aes.mixColumns (Aes.subBytes (Aes.shiftRows Aes.aesShifts x))) k

/-- `_mm_aesenclast_si128`. -/
def aesenclast (x k : Reg) : Reg := xorReg (Aes.subBytes (Aes.shiftRows Aes.aesShifts x)) k

/-- `_mm_aesdec_si128`: InvShiftRows, InvSubBytes, InvMixColumns, XOR the round key. -/
def aesdec (x k : Reg) : Reg := xorReg (Aes.invMixColumns (Aes.invSubBytes (Aes.invShiftRows Aes.aesShifts x))) k

/-- `_mm_aesdeclast_si128`. -/
def aesdeclast (x k : Reg) : Reg := xorReg (Aes.invSubBytes (Aes.invShiftRows Aes.aesShifts x)) k

/-- `_mm_aesimc_si128`. -/
def aesimc (x : Reg) : Reg := Aes.invMixColumns x

/-- `_mm_aeskeygenassist_si128(x, imm)`: lanes SubWord(X1), RotWord(SubWord(X1)) ⊕ imm, SubWord(X3), RotWord(SubWord(X3)) ⊕ imm. -/
def keygenassist (x : Reg) (imm : Byte) : Reg := fun r c =>
  let lane : Fin 4 := if c.val < 2 then 1 else 3
  if c.val % 2 = 0 then Aes.sbox (x r lane)
  else Aes.sbox (x (r + 1) lane) ^^^ (if r = 0 then imm else 0)

/-- `_mm_shuffle_epi32(x, _MM_SHUFFLE(l, l, l, l))`: one lane everywhere (`0xFF` is lane 3, `0xAA` lane 2, `0x55` lane 1). -/
def broadcast (l : Fin 4) (x : Reg) : Reg := fun r _ => x r l

/-- `_mm_slli_si128(x, 4)`. -/
def slli4 (x : Reg) : Reg := fun r c => if h : c.val = 0 then 0 else x r ⟨c.val - 1, by omega⟩

/-- `_mm_srli_si128(x, 8)`. -/
def srli8 (x : Reg) : Reg := fun r c => if h : c.val < 2 then x r ⟨c.val + 2, by omega⟩ else 0

/-- `_mm_srli_si128(x, 4)`. -/
def srli4 (x : Reg) : Reg := fun r c => if h : c.val < 3 then x r ⟨c.val + 1, by omega⟩ else 0

/-- `_mm_cvtsi128_si32` written little endian: the bytes of lane 0. -/
def lane0 (x : Reg) : List Byte := Aes.col (fun r => x r 0)

/-! ## Key schedule -/

/-- `pkb = pkb ^ (pkb << 32)` three times. -/
def smear (x : Reg) : Reg :=
  let x := xorReg x (slli4 x)
  let x := xorReg x (slli4 x)
  xorReg x (slli4 x)

/-- `ExpandRotBlock(Key, Index, Offset)` (CEX/RHX.cpp:627-636). -/
def niExpandRot (i off : Nat) (k : List Byte) : M (List Byte) := do
  let pkb ← ldReg k (16 * (i - off))
  let t ← ldReg k (16 * i)
  let k ← stReg k (16 * i) (broadcast 3 t)
  let t ← ldReg k (16 * i)
  stReg k (16 * i) (xorReg (smear pkb) t)

/-- `ExpandSubBlock(Key, Index, Offset)` (CEX/RHX.cpp:638-647). -/
def niExpandSub (i off : Nat) (k : List Byte) : M (List Byte) := do
  let pkb ← ldReg k (16 * (i - off))
  let p ← ldReg k (16 * (i - 1))
  let k ← stReg k (16 * i) (broadcast 2 (keygenassist p 0))
  let t ← ldReg k (16 * i)
  stReg k (16 * i) (xorReg (smear pkb) t)

/-- `RoundKeys[i] = _mm_aeskeygenassist_si128(RoundKeys[i - 1], rc)`. -/
def niAssist (i : Nat) (rc : Byte) (k : List Byte) : M (List Byte) := do
  let p ← ldReg k (16 * (i - 1))
  stReg k (16 * i) (keygenassist p rc)

/-- `ExpandRotBlock(Key, &K0, &K1, KR, Offset)` of the 192-bit schedule (CEX/RHX.cpp:595-625); `size` is `Key.size()`. -/
def niExpand192 (size : Nat) (rc : Byte) (off : Nat) (st : List Byte × Reg × Reg) : M (List Byte × Reg × Reg) := do
  let (k, k0, k1) := st
  let kr := broadcast 1 (keygenassist k1 rc)
  let key1 := xorReg (smear k0) kr
  let k ← blit k off (Aes.bytes key1)
  if off = 192 ∧ size = 13 then return (k, key1, k1)
  let key2 := xorReg k1 (slli4 k1)
  let key2 := xorReg key2 (broadcast 3 key1)
  let k ← blit k (off + 16) (lane0 key2)
  let k ← blit k (off + 16 + 4) (lane0 (srli4 key2))
  return (k, key1, key2)

/-- `StandardExpand` with AES-NI (CEX/RHX.cpp:419-494): rounds and the bytes of `RoundKeys`. -/
def niStandardExpand (key : List Byte) : M (Nat × List Byte) := do
  let kw := key.length / 4
  let rounds := kw + 6
  let k := List.replicate (16 * (4 * (rounds + 1) / 4)) (0 : Byte)
  if kw = 8 then do
    let a ← ldReg key 0
    let k ← stReg k 0 a
    let b ← ldReg key 16
    let k ← stReg k 16 b
    let k ← niAssist 2 0x01 k
    let k ← niExpandRot 2 2 k
    let k ← niExpandSub 3 2 k
    let k ← niAssist 4 0x02 k
    let k ← niExpandRot 4 2 k
    let k ← niExpandSub 5 2 k
    let k ← niAssist 6 0x04 k
    let k ← niExpandRot 6 2 k
    let k ← niExpandSub 7 2 k
    let k ← niAssist 8 0x08 k
    let k ← niExpandRot 8 2 k
    let k ← niExpandSub 9 2 k
    let k ← niAssist 10 0x10 k
    let k ← niExpandRot 10 2 k
    let k ← niExpandSub 11 2 k
    let k ← niAssist 12 0x20 k
    let k ← niExpandRot 12 2 k
    let k ← niExpandSub 13 2 k
    let k ← niAssist 14 0x40 k
    let k ← niExpandRot 14 2 k
    return (rounds, k)
  else if kw = 6 then do
    let k0 ← ldReg key 0
    let k1 ← ldReg key 8
    let k1 := srli8 k1
    let k ← stReg k 0 k0
    let k ← stReg k 16 k1
    let st ← niExpand192 13 0x01 24 (k, k0, k1)
    let st ← niExpand192 13 0x02 48 st
    let st ← niExpand192 13 0x04 72 st
    let st ← niExpand192 13 0x08 96 st
    let st ← niExpand192 13 0x10 120 st
    let st ← niExpand192 13 0x20 144 st
    let st ← niExpand192 13 0x40 168 st
    let st ← niExpand192 13 0x80 192 st
    return (rounds, st.1)
  else do
    let a ← ldReg key 0
    let k ← stReg k 0 a
    let k ← niAssist 1 0x01 k
    let k ← niExpandRot 1 1 k
    let k ← niAssist 2 0x02 k
    let k ← niExpandRot 2 1 k
    let k ← niAssist 3 0x04 k
    let k ← niExpandRot 3 1 k
    let k ← niAssist 4 0x08 k
    let k ← niExpandRot 4 1 k
    let k ← niAssist 5 0x10 k
    let k ← niExpandRot 5 1 k
    let k ← niAssist 6 0x20 k
    let k ← niExpandRot 6 1 k
    let k ← niAssist 7 0x40 k
    let k ← niExpandRot 7 1 k
    let k ← niAssist 8 0x80 k
    let k ← niExpandRot 8 1 k
    let k ← niAssist 9 0x1B k
    let k ← niExpandRot 9 1 k
    let k ← niAssist 10 0x36 k
    let k ← niExpandRot 10 1 k
    return (rounds, k)

/-- Preparing the keys for decryption (CEX/RHX.cpp:240-255); `n` is `RoundKeys.size()`. The loop
`for (i = 1, j = n - 2; i < j; ++i, --j)` runs `(n - 2) / 2` times. -/
def niInvertKeys (n : Nat) (k : List Byte) : M (List Byte) := do
  let a ← ldReg k 0
  let b ← ldReg k (16 * (n - 1))
  let k ← stReg k 0 b
  let k ← stReg k (16 * (n - 1)) a
  let k ← loopN ((n - 2) / 2) 1 (fun i k => do
    let x ← ldReg k (16 * i)
    let y ← ldReg k (16 * (n - 1 - i))
    let k ← stReg k (16 * i) (aesimc y)
    stReg k (16 * (n - 1 - i)) (aesimc x)) k
  let i := (n - 2) / 2 + 1
  let x ← ldReg k (16 * i)
  stReg k (16 * i) (aesimc x)

/-! ## Blocks -/

/-- `Encrypt128` with AES-NI (CEX/RHX.cpp:668-685); `n` is `RoundKeys.size()`. -/
def niEncrypt128 (n : Nat) (k : List Byte) : BlockFn := fun inp inOff out outOff => do
  let x ← ldReg inp inOff
  let k0 ← ldReg k 0
  let x ← loopN (n - 2) 1 (fun i x => do
    let ki ← ldReg k (16 * i)
    return aesenc x ki) (xorReg x k0)
  let kl ← ldReg k (16 * (n - 2 + 1))
  stReg out outOff (aesenclast x kl)

/-- `Decrypt128` with AES-NI (CEX/RHX.cpp:649-666). -/
def niDecrypt128 (n : Nat) (k : List Byte) : BlockFn := fun inp inOff out outOff => do
  let x ← ldReg inp inOff
  let k0 ← ldReg k 0
  let x ← loopN (n - 2) 1 (fun i x => do
    let ki ← ldReg k (16 * i)
    return aesdec x ki) (xorReg x k0)
  let kl ← ldReg k (16 * (n - 2 + 1))
  stReg out outOff (aesdeclast x kl)

/-- `RHX(BlockCipherExtensions::None)` after `Initialize`, with AES-NI. -/
structure NiRhx where
  encryption : Bool
  keys : List Byte

/-- `Initialize` without a KDF (CEX/RHX.cpp:202-255). -/
def NiRhx.init (encryption : Bool) (key : List Byte) : M NiRhx := do
  if ¬ (key.length = 16 ∨ key.length = 24 ∨ key.length = 32) then throw (.throws .invalidKey)
  let (_, k) ← niStandardExpand key
  if encryption then return ⟨true, k⟩
  else do
    let k ← niInvertKeys (k.length / 16) k
    return ⟨false, k⟩

/-- `Transform` with AES-NI (CEX/RHX.cpp:284-294, 649-685). -/
def NiRhx.transform (x : NiRhx) : BlockFn :=
  if x.encryption then niEncrypt128 (x.keys.length / 16) x.keys else niDecrypt128 (x.keys.length / 16) x.keys

/-! ## Round keys from a KDF -/

/-- The round keys of the extended RHX, scalar: the generated bytes as little-endian words (CEX/RHX.cpp:403-411). -/
def secureWords : List Byte → List Word
  | a :: b :: c :: d :: t => (a.setWidth 32 ||| (b.setWidth 32 <<< 8) ||| (c.setWidth 32 <<< 16) ||| (d.setWidth 32 <<< 24)) :: secureWords t
  | _ => []

/-- The round keys of the extended RHX with AES-NI: `Le32ToBytes(BeBytesTo32(tmpr, i), tmpr, i)` for every word
(CEX/RHX.cpp:369-380). -/
def secureBytes : List Byte → List Byte
  | a :: b :: c :: d :: t => d :: c :: b :: a :: secureBytes t
  | _ => []

/-- `Rounds` of the extended RHX (CEX/RHX.cpp:354-355, 388-389). -/
def secureRounds (n : Nat) : Nat := if n ≠ 128 then n / 4 + 14 else 38

/-- `Initialize` with a KDF, scalar (CEX/RHX.cpp:202-237, 386-413; legal sizes 866-893). `gen key n` is what
`Generator->Initialize(SymmetricKey(Key, salt, Custom))` and `Generate` of `n` bytes give. -/
def Rhx.secureInit (gen : List Byte → Nat → List Byte) (encryption : Bool) (key : List Byte) : M Rhx := do
  if ¬ (key.length = 32 ∨ key.length = 64 ∨ key.length = 128) then throw (.throws .invalidKey)
  let rounds := secureRounds key.length
  return ⟨encryption, rounds, secureWords (gen key (4 * (4 * (rounds + 1))))⟩

/-- The same with AES-NI (CEX/RHX.cpp:202-255, 347-382). -/
def NiRhx.secureInit (gen : List Byte → Nat → List Byte) (encryption : Bool) (key : List Byte) : M NiRhx := do
  if ¬ (key.length = 32 ∨ key.length = 64 ∨ key.length = 128) then throw (.throws .invalidKey)
  let rounds := secureRounds key.length
  let k := secureBytes (gen key (4 * (rounds + 1) / 4 * 16))
  if encryption then return ⟨true, k⟩
  else do
    let k ← niInvertKeys (k.length / 16) k
    return ⟨false, k⟩

/-! ## RCS -/

/-- The round keys of RCS, scalar: big-endian words (CEX/RCS.cpp:508-512); RWS is the same (CEX/RWS.cpp:445-449). With
AES-NI the bytes are loaded as they are (CEX/RCS.cpp:486-494). -/
def beWords : List Byte → List Word
  | a :: b :: c :: d :: t => ((a.setWidth 32 <<< 24) ||| (b.setWidth 32 <<< 16) ||| (c.setWidth 32 <<< 8) ||| d.setWidth 32) :: beWords t
  | _ => []

/-- `NIBMASK` (CEX/RCS.cpp:33): `_mm_set_epi32(0x80000000, 0x80800000, 0x80800000, 0x80808000)`, its bytes in memory order. -/
def nibMask : List Byte :=
  [0x00, 0x80, 0x80, 0x80, 0x00, 0x00, 0x80, 0x80, 0x00, 0x00, 0x80, 0x80, 0x00, 0x00, 0x00, 0x80]

/-- `NISMASK` (CEX/RCS.cpp:34). -/
def nisMask : List Byte := [0, 1, 6, 7, 4, 5, 10, 11, 8, 9, 14, 15, 12, 13, 2, 3]

/-- Byte `4 c + r` of a mask. -/
def maskAt (m : List Byte) (r c : Fin 4) : Byte := (m[4 * c.val + r.val]?).getD 0

/-- `_mm_blendv_epi8(a, b, mask)`. -/
def blendv (a b : Reg) (mask : List Byte) : Reg := fun r c => if (maskAt mask r c).msb then b r c else a r c

/-- `_mm_shuffle_epi8(x, mask)`. -/
def shuffle8 (x : Reg) (mask : List Byte) : Reg := fun r c =>
  let m := maskAt mask r c
  if m.msb then 0 else x ⟨m.toNat % 4, by omega⟩ ⟨m.toNat % 16 / 4, by omega⟩

/-- One mix and shuffle of the two half blocks (CEX/RCS.cpp:958-963). -/
def rcsMix (x : Reg × Reg) : Reg × Reg :=
  (shuffle8 (blendv x.1 x.2 nibMask) nisMask, shuffle8 (blendv x.2 x.1 nibMask) nisMask)

/-- `RCS::Transform256` with AES-NI (CEX/RCS.cpp:942-984); `n` is `RoundKeys.size()`. `while (kctr != RNDCNT)` steps `kctr`
by 2 from 1 to `n - 3`; `n` is even in every use. -/
def niTransform256 (n : Nat) (k : List Byte) : BlockFn := fun inp inOff out outOff => do
  let b1 ← ldReg inp inOff
  let b2 ← ldReg inp (inOff + 16)
  let k0 ← ldReg k 0
  let k1 ← ldReg k 16
  if n % 2 = 1 ∨ n < 4 then throw .ub
  let (b1, b2) ← loopN ((n - 4) / 2) 0 (fun j x => do
    let t := rcsMix x
    let ka ← ldReg k (16 * (2 * j + 2))
    let kb ← ldReg k (16 * (2 * j + 3))
    return (aesenc t.1 ka, aesenc t.2 kb)) (xorReg b1 k0, xorReg b2 k1)
  let t := rcsMix (b1, b2)
  let ka ← ldReg k (16 * (n - 2))
  let kb ← ldReg k (16 * (n - 1))
  let out ← stReg out outOff (aesenclast t.1 ka)
  stReg out (outOff + 16) (aesenclast t.2 kb)

end Cex.Rijndael
