import Verif.Rijndael.Tables

/-!
# The Rijndael block functions: RHX (AES and its extended form), RCS and RWS

Scalar code of CEX/Rijndael.h, CEX/RHX.cpp, CEX/RCS.cpp and CEX/RWS.cpp (builds without `CEX_HAS_AVX`; the AES-NI
builds are in `Verif.Rijndael.Ni`). Prefetching of the tables (`CEX_PREFETCH_RIJNDAEL_TABLES`) only reads them and is left out.
-/

namespace Cex.Rijndael

abbrev Word := BitVec 32

/-- `Gf256Reduce` (CEX/Rijndael.h:102-109). -/
def gf256Reduce (x : Word) : Byte :=
  let y := x >>> 8
  ((x ^^^ y ^^^ (y <<< 1) ^^^ (y <<< 3) ^^^ (y <<< 4)) &&& 0xFF#32).setWidth 8

/-- `State[i] ^= b`. -/
def xorAt (s : List Byte) (i : Nat) (b : Byte) : M (List Byte) := do
  let v ← rd s i
  wr s i (v ^^^ b)

/-- `KeyAddition` (CEX/Rijndael.h:111-126). -/
def keyAddition (rk : List Word) (off : Nat) (s : List Byte) : M (List Byte) :=
  loopN ((s.length + 3) / 4) 0 (fun j s => do
    let k ← rd rk (off + j)
    let s ← xorAt s (4 * j) ((k >>> 24).setWidth 8)
    let s ← xorAt s (4 * j + 1) ((k >>> 16).setWidth 8 &&& 0xFF#8)
    let s ← xorAt s (4 * j + 2) ((k >>> 8).setWidth 8 &&& 0xFF#8)
    xorAt s (4 * j + 3) (k.setWidth 8 &&& 0xFF#8)) s

/-- The four bytes of a column as `uint32_t`. -/
def column (s : List Byte) (i : Nat) : M (Word × Word × Word × Word) := do
  let s0 ← rd s i
  let s1 ← rd s (i + 1)
  let s2 ← rd s (i + 2)
  let s3 ← rd s (i + 3)
  return (s0.setWidth 32, s1.setWidth 32, s2.setWidth 32, s3.setWidth 32)

/-- `InvMixColumns` (CEX/Rijndael.h:128-165). -/
def invMixColumns (s : List Byte) : M (List Byte) :=
  loopN ((s.length + 3) / 4) 0 (fun j s => do
    let (s0, s1, s2, s3) ← column s (4 * j)
    let t0 := (s0 <<< 1) ^^^ (s0 <<< 2) ^^^ (s0 <<< 3) ^^^ s1 ^^^ (s1 <<< 1) ^^^ (s1 <<< 3)
      ^^^ s2 ^^^ (s2 <<< 2) ^^^ (s2 <<< 3) ^^^ s3 ^^^ (s3 <<< 3)
    let t1 := s0 ^^^ (s0 <<< 3) ^^^ (s1 <<< 1) ^^^ (s1 <<< 2) ^^^ (s1 <<< 3)
      ^^^ s2 ^^^ (s2 <<< 1) ^^^ (s2 <<< 3) ^^^ s3 ^^^ (s3 <<< 2) ^^^ (s3 <<< 3)
    let t2 := s0 ^^^ (s0 <<< 2) ^^^ (s0 <<< 3) ^^^ s1 ^^^ (s1 <<< 3)
      ^^^ (s2 <<< 1) ^^^ (s2 <<< 2) ^^^ (s2 <<< 3) ^^^ s3 ^^^ (s3 <<< 1) ^^^ (s3 <<< 3)
    let t3 := s0 ^^^ (s0 <<< 1) ^^^ (s0 <<< 3) ^^^ s1 ^^^ (s1 <<< 2) ^^^ (s1 <<< 3)
      ^^^ s2 ^^^ (s2 <<< 3) ^^^ (s3 <<< 1) ^^^ (s3 <<< 2) ^^^ (s3 <<< 3)
    let s ← wr s (4 * j) (gf256Reduce t0)
    let s ← wr s (4 * j + 1) (gf256Reduce t1)
    let s ← wr s (4 * j + 2) (gf256Reduce t2)
    wr s (4 * j + 3) (gf256Reduce t3)) s

/-- `t ^ ((~(t >> 8) + 1) & 0x0000011BUL)`, stored to a byte (CEX/Rijndael.h:228-231). -/
def mixReduce (t : Word) : Byte := (t ^^^ ((~~~(t >>> 8) + 1) &&& 0x0000011B#32)).setWidth 8

/-- `MixColumns` (CEX/Rijndael.h:203-233). -/
def mixColumns (s : List Byte) : M (List Byte) :=
  loopN ((s.length + 3) / 4) 0 (fun j s => do
    let (s0, s1, s2, s3) ← column s (4 * j)
    let t0 := (s0 <<< 1) ^^^ s1 ^^^ (s1 <<< 1) ^^^ s2 ^^^ s3
    let t1 := s0 ^^^ (s1 <<< 1) ^^^ s2 ^^^ (s2 <<< 1) ^^^ s3
    let t2 := s0 ^^^ s1 ^^^ (s2 <<< 1) ^^^ s3 ^^^ (s3 <<< 1)
    let t3 := s0 ^^^ (s0 <<< 1) ^^^ s1 ^^^ s2 ^^^ (s3 <<< 1)
    let s ← wr s (4 * j) (mixReduce t0)
    let s ← wr s (4 * j + 1) (mixReduce t1)
    let s ← wr s (4 * j + 2) (mixReduce t2)
    wr s (4 * j + 3) (mixReduce t3)) s

/-- `State[i] = Table[State[i]]` for every byte. -/
def lookupAll (tab : List Byte) (s : List Byte) : M (List Byte) :=
  loopN s.length 0 (fun i s => do
    let v ← rd s i
    let t ← rd tab v.toNat
    wr s i t) s

/-- `InvSubBytes` (CEX/Rijndael.h:192-201). -/
def invSubBytes : List Byte → M (List Byte) := lookupAll isbox

/-- `Substitution` (CEX/Rijndael.h:393-402). -/
def substitution : List Byte → M (List Byte) := lookupAll sbox

/-- `SubWord` with the forward S-box (CEX/Rijndael.h:677-684). -/
def subWord (x : Word) : M Word := do
  let a ← rd sbox (x >>> 24).toNat
  let b ← rd sbox ((x >>> 16) &&& 0xFF#32).toNat
  let c ← rd sbox ((x >>> 8) &&& 0xFF#32).toNat
  let d ← rd sbox (x &&& 0xFF#32).toNat
  return (a.setWidth 32 <<< 24) ||| (b.setWidth 32 <<< 16) ||| (c.setWidth 32 <<< 8) ||| d.setWidth 32

/-- A forward cipher with blocks of `bs` bytes, given the row shifting: `Encrypt128` of RHX (CEX/RHX.cpp:753-778),
`Transform256` of RCS (CEX/RCS.cpp:989-1012) and `Transform512` of RWS (CEX/RWS.cpp:846-872) are this code with
`bs` = 16, 32 and 64 (`Rounds << 2`, `<< 3`, `<< 4` is `Rounds * (bs / 4)`). -/
def forward (bs : Nat) (shift : List Op) (rk : List Word) (rounds : Nat) (inp : List Byte) (inOff : Nat) (out : List Byte) (outOff : Nat) : M (List Byte) := do
  let s ← copy inp inOff (List.replicate bs 0) 0 bs
  let s ← keyAddition rk 0 s
  let s ← loopN (rounds - 1) 1 (fun i s => do
    let s ← substitution s
    let s ← runOps shift none s
    let s ← mixColumns s
    keyAddition rk (i * (bs / 4)) s) s
  let s ← substitution s
  let s ← runOps shift none s
  let s ← keyAddition rk (rounds * (bs / 4)) s
  copy s 0 out outOff bs

/-- `RHX::Encrypt128` (CEX/RHX.cpp:753-778). -/
def encrypt128 := forward 16 shiftRows128Ops

/-- `RCS::Transform256`, scalar (CEX/RCS.cpp:989-1012). -/
def transform256 := forward 32 shiftRows256Ops

/-- `RWS::Transform512` (CEX/RWS.cpp:846-872). -/
def transform512 := forward 64 shiftRows512Ops

/-- `RHX::Decrypt128` (CEX/RHX.cpp:725-751). `for (i = Rounds - 1; i > 0; --i)`; with `Rounds = 0` the index wraps and the
round keys are overrun. -/
def decrypt128 (rk : List Word) (rounds : Nat) (inp : List Byte) (inOff : Nat) (out : List Byte) (outOff : Nat) : M (List Byte) := do
  let s ← copy inp inOff (List.replicate 16 0) 0 16
  let s ← keyAddition rk (rounds * 4) s
  if rounds = 0 then throw .ub
  let s ← loopN (rounds - 1) 0 (fun j s => do
    let s ← runOps invShiftRowsOps none s
    let s ← invSubBytes s
    let s ← keyAddition rk ((rounds - 1 - j) * 4) s
    invMixColumns s) s
  let s ← runOps invShiftRowsOps none s
  let s ← invSubBytes s
  let s ← keyAddition rk 0 s
  copy s 0 out outOff 16

/-- A block function as called by the wide ones: input, offset, output, offset. -/
abbrev BlockFn := List Byte → Nat → List Byte → Nat → M (List Byte)

/-- Two calls `n` bytes apart, the shape of `Encrypt256`, `Encrypt512`, … (CEX/RHX.cpp:799-845) and of RCS' and RWS' wide
functions (CEX/RCS.cpp:1045-1069, CEX/RWS.cpp:882-892). -/
def twice (n : Nat) (f : BlockFn) : BlockFn := fun inp inOff out outOff => do
  let out ← f inp inOff out outOff
  f inp (inOff + n) out (outOff + n)

/-- `RHX::Encrypt2048` (CEX/RHX.cpp:823-845). -/
def encrypt2048 (rk : List Word) (rounds : Nat) : BlockFn := twice 128 (twice 64 (twice 32 (twice 16 (encrypt128 rk rounds))))

/-- `RHX::Decrypt2048` (CEX/RHX.cpp:799-821). -/
def decrypt2048 (rk : List Word) (rounds : Nat) : BlockFn := twice 128 (twice 64 (twice 32 (twice 16 (decrypt128 rk rounds))))

/-! ## Key schedule of RHX without a KDF -/

/-- `IntegerTools::BeBytesTo32(Key, off)` (CEX/IntegerTools.h:833-851). -/
def beWord (key : List Byte) (off : Nat) : M Word := do
  let a ← rd key off
  let b ← rd key (off + 1)
  let c ← rd key (off + 2)
  let d ← rd key (off + 3)
  return (a.setWidth 32 <<< 24) ||| (b.setWidth 32 <<< 16) ||| (c.setWidth 32 <<< 8) ||| d.setWidth 32

/-- `RoundKeys[i] = RoundKeys[j] ^ RoundKeys[i - 1]`. -/
def chainWord (i j : Nat) (rk : List Word) : M (List Word) := do
  let a ← rd rk j
  let b ← rd rk (i - 1)
  wr rk i (a ^^^ b)

/-- `ExpandRotBlock(RoundKeys, KeyIndex, KeyOffset, RconIndex)` (CEX/RHX.cpp:689-706). -/
def expandRot (i off r : Nat) (rk : List Word) : M (List Word) := do
  let a ← rd rk (i - off)
  let p ← rd rk (i - 1)
  let t ← subWord ((p <<< 8) ||| ((p >>> 24) &&& 0xFF#32))
  let c ← rd rcon r
  let rk ← wr rk i (a ^^^ t ^^^ c)
  let rk ← chainWord (i + 1) (i - off + 1) rk
  let rk ← chainWord (i + 2) (i - off + 2) rk
  chainWord (i + 3) (i - off + 3) rk

/-- `ExpandSubBlock(RoundKeys, KeyIndex, KeyOffset)` (CEX/RHX.cpp:708-723). -/
def expandSub (i off : Nat) (rk : List Word) : M (List Word) := do
  let p ← rd rk (i - 1)
  let t ← subWord p
  let a ← rd rk (i - off)
  let rk ← wr rk i (t ^^^ a)
  let rk ← chainWord (i + 1) (i - off + 1) rk
  let rk ← chainWord (i + 2) (i - off + 2) rk
  chainWord (i + 3) (i - off + 3) rk

/-- The words of the key, `RoundKeys[i] = BeBytesTo32(Key, 4 * i)`. -/
def loadKey (n : Nat) (key : List Byte) (rk : List Word) : M (List Word) :=
  loopN n 0 (fun i rk => do
    let w ← beWord key (4 * i)
    wr rk i w) rk

/-- `StandardExpand`, scalar (CEX/RHX.cpp:498-589): the number of rounds and the round keys. -/
def standardExpand (key : List Byte) : M (Nat × List Word) := do
  let kw := key.length / 4
  let rounds := kw + 6
  let rk := List.replicate (4 * (rounds + 1)) (0 : Word)
  if kw = 8 then do
    let rk ← loadKey 8 key rk
    let rk ← expandRot 8 8 1 rk
    let rk ← expandSub 12 8 rk
    let rk ← expandRot 16 8 2 rk
    let rk ← expandSub 20 8 rk
    let rk ← expandRot 24 8 3 rk
    let rk ← expandSub 28 8 rk
    let rk ← expandRot 32 8 4 rk
    let rk ← expandSub 36 8 rk
    let rk ← expandRot 40 8 5 rk
    let rk ← expandSub 44 8 rk
    let rk ← expandRot 48 8 6 rk
    let rk ← expandSub 52 8 rk
    let rk ← expandRot 56 8 7 rk
    return (rounds, rk)
  else if kw = 6 then do
    let rk ← loadKey 6 key rk
    let rk ← expandRot 6 6 1 rk
    let rk ← chainWord 10 4 rk
    let rk ← chainWord 11 5 rk
    let rk ← expandRot 12 6 2 rk
    let rk ← chainWord 16 10 rk
    let rk ← chainWord 17 11 rk
    let rk ← expandRot 18 6 3 rk
    let rk ← chainWord 22 16 rk
    let rk ← chainWord 23 17 rk
    let rk ← expandRot 24 6 4 rk
    let rk ← chainWord 28 22 rk
    let rk ← chainWord 29 23 rk
    let rk ← expandRot 30 6 5 rk
    let rk ← chainWord 34 28 rk
    let rk ← chainWord 35 29 rk
    let rk ← expandRot 36 6 6 rk
    let rk ← chainWord 40 34 rk
    let rk ← chainWord 41 35 rk
    let rk ← expandRot 42 6 7 rk
    let rk ← chainWord 46 40 rk
    let rk ← chainWord 47 41 rk
    let rk ← expandRot 48 6 8 rk
    return (rounds, rk)
  else do
    let rk ← loadKey 4 key rk
    let rk ← expandRot 4 4 1 rk
    let rk ← expandRot 8 4 2 rk
    let rk ← expandRot 12 4 3 rk
    let rk ← expandRot 16 4 4 rk
    let rk ← expandRot 20 4 5 rk
    let rk ← expandRot 24 4 6 rk
    let rk ← expandRot 28 4 7 rk
    let rk ← expandRot 32 4 8 rk
    let rk ← expandRot 36 4 9 rk
    let rk ← expandRot 40 4 10 rk
    return (rounds, rk)

/-! ## RHX without a KDF -/

/-- `RHX(BlockCipherExtensions::None)` after `Initialize`. -/
structure Rhx where
  encryption : Bool
  rounds : Nat
  rk : List Word

/-- `Initialize` without a KDF (CEX/RHX.cpp:202-237, legal key sizes 859-865). -/
def Rhx.init (encryption : Bool) (key : List Byte) : M Rhx := do
  if ¬ (key.length = 16 ∨ key.length = 24 ∨ key.length = 32) then throw (.throws .invalidKey)
  let (rounds, rk) ← standardExpand key
  return ⟨encryption, rounds, rk⟩

/-- `Transform(Input, InOffset, Output, OutOffset)`: one block, in the direction chosen at initialisation
(CEX/RHX.cpp:284-294). -/
def Rhx.transform (x : Rhx) : BlockFn := if x.encryption then encrypt128 x.rk x.rounds else decrypt128 x.rk x.rounds

/-- `Transform2048` (CEX/RHX.cpp:332-342). -/
def Rhx.transform2048 (x : Rhx) : BlockFn := if x.encryption then encrypt2048 x.rk x.rounds else decrypt2048 x.rk x.rounds

end Cex.Rijndael
