import Verif.Serpent.Boxes
import Verif.Serpent.Spec
import Verif.IntTools.Model
import Verif.Rijndael.Model

/-!
# The block cipher SHX

CEX/Serpent.h and CEX/SHX.cpp, the scalar code and the templates `EncryptW`, `DecryptW` for `UInt128`, `UInt256` and `UInt512`. From the
specification only the type `Quad` of four values is used.
-/

namespace Cex.Serpent
open Cex.IntTools
open Cex.Rijndael (BlockFn twice)

abbrev Word := BitVec 32

/-- What the S-box code asks of the type `T`. -/
class Bits (V : Type) where
  xor : V → V → V
  and : V → V → V
  or : V → V → V
  not : V → V

/-- What the rest of the cipher asks of it: a shift, the rotations, and `T(uint32_t)`. -/
class Lanes (V : Type) extends Bits V where
  shl : V → Nat → V
  rotl : V → Nat → V
  rotr : V → Nat → V
  splat : Word → V

/-- `IntegerTools::RotL32` and `RotR32` (CEX/IntegerTools.h:2794-2799, 2824-2829), for shifts from 1 to 31. -/
def rotl32 (x : Word) (n : Nat) : Word := (x <<< n) ||| (x >>> (32 - n))
def rotr32 (x : Word) (n : Nat) : Word := (x >>> n) ||| (x <<< (32 - n))

/-- `uint32_t`. -/
instance : Lanes Word where
  xor x y := x ^^^ y
  and x y := x &&& y
  or x y := x ||| y
  not x := ~~~x
  shl x n := x <<< n
  rotl := rotl32
  rotr := rotr32
  splat x := x

/-- A SIMD register as the sequence of its 32-bit lanes, the first from the lowest bytes. A register with `n` lanes uses the first `n`. -/
abbrev Reg := Nat → Word

/-- `UInt128`, `UInt256` and `UInt512`: operators `^ & | ~ <<`, `RotL32`, `RotR32` and the constructor from a word work lane by lane
(CEX/UInt256.h:289-332, 661-702, `RotR32(s)` is `RotL32(32 - s)`; CEX/UInt128.h:270-313, CEX/UInt512.h:300-343). -/
instance : Lanes Reg where
  xor x y := fun i => x i ^^^ y i
  and x y := fun i => x i &&& y i
  or x y := fun i => x i ||| y i
  not x := fun i => x i ^^^ 0xFFFFFFFF#32
  shl x n := fun i => x i <<< n
  rotl x n := fun i => (x i <<< n) ||| (x i >>> (32 - n))
  rotr x n := fun i => (x i <<< (32 - n)) ||| (x i >>> (32 - (32 - n)))
  splat w := fun _ => w

/-! ## The S-boxes -/

/-- `R0` to `R3` and `B4`. -/
structure Regs (V : Type) where
  r0 : V
  r1 : V
  r2 : V
  r3 : V
  b4 : V

def Regs.get {V : Type} (s : Regs V) : Nat → V
  | 0 => s.r0
  | 1 => s.r1
  | 2 => s.r2
  | 3 => s.r3
  | _ => s.b4

def Regs.set {V : Type} (s : Regs V) (v : V) : Nat → Regs V
  | 0 => { s with r0 := v }
  | 1 => { s with r1 := v }
  | 2 => { s with r2 := v }
  | 3 => { s with r3 := v }
  | _ => { s with b4 := v }

/-- One statement. -/
def step {V : Type} [Bits V] (s : Regs V) : Ins → Regs V
  | .xor a b => s.set (Bits.xor (s.get a) (s.get b)) a
  | .and a b => s.set (Bits.and (s.get a) (s.get b)) a
  | .or a b => s.set (Bits.or (s.get a) (s.get b)) a
  | .not a b => s.set (Bits.not (s.get b)) a
  | .mov a b => s.set (s.get b) a

/-- A call `Sb0(R0, R1, R2, R3)` etc. The local `B4` starts as an arbitrary `junk`; the code declares it where it is first assigned. -/
def box {V : Type} [Bits V] (p : List Ins) (junk : V) (q : Quad V) : Quad V :=
  let s := p.foldl step ⟨q.a, q.b, q.c, q.d, junk⟩
  ⟨s.r0, s.r1, s.r2, s.r3⟩

/-- The same with `R0` in the place of the value `B4` does not have yet. -/
def sb {V : Type} [Bits V] (p : List Ins) (q : Quad V) : Quad V := box p q.a q

/-! ## The linear transformations -/

section
variable {V : Type} [Lanes V]
local infixl:58 " ⊻ " => Bits.xor

/-- `LinearTransform` and `LinearTransformW` (CEX/Serpent.h:308-336). -/
def linear (q : Quad V) : Quad V :=
  let r0 := Lanes.rotl q.a 13
  let r2 := Lanes.rotl q.c 3
  let r1 := q.b ⊻ (r0 ⊻ r2)
  let r3 := q.d ⊻ (r2 ⊻ Lanes.shl r0 3)
  let r1 := Lanes.rotl r1 1
  let r3 := Lanes.rotl r3 7
  let r0 := r0 ⊻ (r1 ⊻ r3)
  let r2 := r2 ⊻ (r3 ⊻ Lanes.shl r1 7)
  let r0 := Lanes.rotl r0 5
  let r2 := Lanes.rotl r2 22
  ⟨r0, r1, r2, r3⟩

/-- `InverseTransform` and `InverseTransformW` (CEX/Serpent.h:338-366). -/
def invLinear (q : Quad V) : Quad V :=
  let r2 := Lanes.rotr q.c 22
  let r0 := Lanes.rotr q.a 5
  let r2 := r2 ⊻ (q.d ⊻ Lanes.shl q.b 7)
  let r0 := r0 ⊻ (q.b ⊻ q.d)
  let r3 := Lanes.rotr q.d 7
  let r1 := Lanes.rotr q.b 1
  let r3 := r3 ⊻ (r2 ⊻ Lanes.shl r0 3)
  let r1 := r1 ⊻ (r0 ⊻ r2)
  let r2 := Lanes.rotr r2 3
  let r0 := Lanes.rotr r0 13
  ⟨r0, r1, r2, r3⟩

/-! ## The rounds -/

/-- `R0 ^= RoundKeys[k]; … R3 ^= RoundKeys[k + 3];` -/
def addKey (rk : List Word) (k : Nat) (q : Quad V) : M (Quad V) := do
  let k0 ← rd rk k
  let k1 ← rd rk (k + 1)
  let k2 ← rd rk (k + 2)
  let k3 ← rd rk (k + 3)
  return ⟨q.a ⊻ Lanes.splat k0, q.b ⊻ Lanes.splat k1, q.c ⊻ Lanes.splat k2, q.d ⊻ Lanes.splat k3⟩

/-- The `do … while (kctr != RNDCNT)` of `Encrypt128` (CEX/SHX.cpp:620-685) and of `EncryptW` (CEX/Serpent.h:191-287, where `kctr` is
one less). `fuel` bounds the turns: `kctr` grows by 32 every turn and is used as an index, so that with `fuel = RoundKeys.size()` the
loop ends or reads out of bounds before the fuel is used up. -/
def encLoop (rk : List Word) : (fuel k : Nat) → Quad V → M (Nat × Quad V)
  | 0, _, _ => .error .diverges
  | fuel + 1, k, q => do
    let q ← addKey rk k q
    let q := linear (sb sb0 q)
    let q ← addKey rk (k + 4) q
    let q := linear (sb sb1 q)
    let q ← addKey rk (k + 8) q
    let q := linear (sb sb2 q)
    let q ← addKey rk (k + 12) q
    let q := linear (sb sb3 q)
    let q ← addKey rk (k + 16) q
    let q := linear (sb sb4 q)
    let q ← addKey rk (k + 20) q
    let q := linear (sb sb5 q)
    let q ← addKey rk (k + 24) q
    let q := linear (sb sb6 q)
    let q ← addKey rk (k + 28) q
    let q := sb sb7 q
    if k + 32 ≠ rk.length - 4 then encLoop rk fuel (k + 32) (linear q)
    else return (k + 32, q)

/-- The loop with the last key addition. -/
def encRounds (rk : List Word) (q : Quad V) : M (Quad V) := do
  let (k, q) ← encLoop rk (rk.length + 1) 0 q
  addKey rk k q

/-- The loop of `Decrypt128` (CEX/SHX.cpp:461-526) and of `DecryptW` (CEX/Serpent.h:59-154). An index below zero wraps around and is out
of bounds. -/
def decLoop (rk : List Word) : (fuel k : Nat) → Quad V → M (Nat × Quad V)
  | 0, _, _ => .error .diverges
  | fuel + 1, k, q => do
    if k < 28 then throw .ub
    let q := sb ib7 q
    let q := invLinear (← addKey rk (k - 4) q)
    let q := sb ib6 q
    let q := invLinear (← addKey rk (k - 8) q)
    let q := sb ib5 q
    let q := invLinear (← addKey rk (k - 12) q)
    let q := sb ib4 q
    let q := invLinear (← addKey rk (k - 16) q)
    let q := sb ib3 q
    let q := invLinear (← addKey rk (k - 20) q)
    let q := sb ib2 q
    let q := invLinear (← addKey rk (k - 24) q)
    let q := sb ib1 q
    let q := invLinear (← addKey rk (k - 28) q)
    let q := sb ib0 q
    if k - 28 ≠ 4 then do
      if k < 32 then throw .ub
      let q := invLinear (← addKey rk (k - 32) q)
      if k - 32 ≠ 4 then decLoop rk fuel (k - 32) q
      else return (4, q)
    else return (4, q)

/-- The loop between the first and the last key addition. -/
def decRounds (rk : List Word) (q : Quad V) : M (Quad V) := do
  if rk.length < 4 then throw .ub
  let q ← addKey rk (rk.length - 4) q
  let (k, q) ← decLoop rk (rk.length + 1) (rk.length - 4) q
  addKey rk (k - 4) q
end

/-! ## Blocks -/

/-- The loads and stores around the rounds of `Encrypt128` and `Decrypt128` (CEX/SHX.cpp:448-453, 528-532, 613-618, 687-691). `Decrypt128`
reads and writes the four words in the opposite order. -/
def block (f : Quad Word → M (Quad Word)) : BlockFn := fun inp inOff out outOff => do
  let r0 ← leBytesTo32 inp inOff
  let r1 ← leBytesTo32 inp (inOff + 4)
  let r2 ← leBytesTo32 inp (inOff + 8)
  let r3 ← leBytesTo32 inp (inOff + 12)
  let q ← f ⟨r0, r1, r2, r3⟩
  let out ← le32ToBytes q.a out outOff
  let out ← le32ToBytes q.b out (outOff + 4)
  let out ← le32ToBytes q.c out (outOff + 8)
  le32ToBytes q.d out (outOff + 12)

/-- `SHX::Encrypt128` (CEX/SHX.cpp:604-692) and `Decrypt128` (439-533). -/
def encrypt128 (rk : List Word) : BlockFn := block (encRounds rk)
def decrypt128 (rk : List Word) : BlockFn := block (decRounds rk)

/-- `_mm_unpacklo_epi32` and its wider forms: every four lanes on their own. -/
def unpacklo32 (x y : Reg) : Reg := fun i =>
  match i % 4 with
  | 0 => x (i / 4 * 4)
  | 1 => y (i / 4 * 4)
  | 2 => x (i / 4 * 4 + 1)
  | _ => y (i / 4 * 4 + 1)

/-- `_mm_unpackhi_epi32`. -/
def unpackhi32 (x y : Reg) : Reg := fun i =>
  match i % 4 with
  | 0 => x (i / 4 * 4 + 2)
  | 1 => y (i / 4 * 4 + 2)
  | 2 => x (i / 4 * 4 + 3)
  | _ => y (i / 4 * 4 + 3)

/-- `_mm_unpacklo_epi64`. -/
def unpacklo64 (x y : Reg) : Reg := fun i =>
  match i % 4 with
  | 0 => x (i / 4 * 4)
  | 1 => x (i / 4 * 4 + 1)
  | 2 => y (i / 4 * 4)
  | _ => y (i / 4 * 4 + 1)

/-- `_mm_unpackhi_epi64`. -/
def unpackhi64 (x y : Reg) : Reg := fun i =>
  match i % 4 with
  | 0 => x (i / 4 * 4 + 2)
  | 1 => x (i / 4 * 4 + 3)
  | 2 => y (i / 4 * 4 + 2)
  | _ => y (i / 4 * 4 + 3)

/-- `Transpose` (CEX/UInt128.h:393-403, CEX/UInt256.h:402-412, CEX/UInt512.h:413-423). -/
def transpose (q : Quad Reg) : Quad Reg :=
  let t0 := unpacklo32 q.a q.b
  let t1 := unpacklo32 q.c q.d
  let t2 := unpackhi32 q.a q.b
  let t3 := unpackhi32 q.c q.d
  ⟨unpacklo64 t0 t1, unpackhi64 t0 t1, unpacklo64 t2 t3, unpackhi64 t2 t3⟩

/-- Lane `i` of the register loaded from `bs`. -/
def lane (bs : List Byte) (i : Nat) : Word := leUnrep 32 ((bs.drop (4 * i)).take 4)

/-- `T(Input, Offset)`: `_mm_loadu_si128` etc. of `n` lanes (CEX/UInt256.h:85-88). -/
def load (n : Nat) (inp : List Byte) (off : Nat) : M Reg := do
  return lane (← slice inp off (4 * n))

/-- `Store` (CEX/UInt256.h:211-215). -/
def store (n : Nat) (x : Reg) (out : List Byte) (off : Nat) : M (List Byte) :=
  blit out off ((List.range n).flatMap (fun i => leRep 4 (x i)))

/-- The loads and stores of `EncryptW` and `DecryptW` with a type of `n` lanes (CEX/Serpent.h:42-47, 166-170, 184-189, 299-303);
`T::size()` is `4 * n`. -/
def blockW (n : Nat) (f : Quad Reg → M (Quad Reg)) : BlockFn := fun inp inOff out outOff => do
  let r0 ← load n inp inOff
  let r1 ← load n inp (inOff + 4 * n)
  let r2 ← load n inp (inOff + 4 * n * 2)
  let r3 ← load n inp (inOff + 4 * n * 3)
  let q ← f (transpose ⟨r0, r1, r2, r3⟩)
  let q := transpose q
  let out ← store n q.a out outOff
  let out ← store n q.b out (outOff + 4 * n)
  let out ← store n q.c out (outOff + 4 * n * 2)
  store n q.d out (outOff + 4 * n * 3)

/-- `EncryptW` (CEX/Serpent.h:175-306), `DecryptW` (33-173). -/
def encryptW (n : Nat) (rk : List Word) : BlockFn := blockW n (encRounds rk)
def decryptW (n : Nat) (rk : List Word) : BlockFn := blockW n (decRounds rk)

/-- What the compiler was told about the processor: nothing, `CEX_HAS_AVX`, also `CEX_HAS_AVX2`, also `CEX_HAS_AVX512`. -/
inductive Build
  | scalar
  | avx
  | avx2
  | avx512
deriving DecidableEq

/-- `Encrypt256`, `Decrypt256` (CEX/SHX.cpp:535-539, 694-698). -/
def wide256 (one : BlockFn) : BlockFn := twice 16 one

/-- `Encrypt512`, `Decrypt512` (CEX/SHX.cpp:541-551, 700-710); `w n` is `EncryptW` or `DecryptW` with `n` lanes. -/
def wide512 (b : Build) (one : BlockFn) (w : Nat → BlockFn) : BlockFn :=
  match b with
  | .avx => w 4
  | _ => twice 32 (twice 16 one)

/-- `Encrypt1024`, `Decrypt1024` (CEX/SHX.cpp:553-570, 712-729). -/
def wide1024 (b : Build) (one : BlockFn) (w : Nat → BlockFn) : BlockFn :=
  match b with
  | .avx2 => w 8
  | .avx => twice 64 (w 4)
  | _ => twice 64 (twice 32 (twice 16 one))

/-- `Encrypt2048`, `Decrypt2048` (CEX/SHX.cpp:572-602, 731-761). -/
def wide2048 (b : Build) (one : BlockFn) (w : Nat → BlockFn) : BlockFn :=
  match b with
  | .avx512 => w 16
  | .avx2 => twice 128 (w 8)
  | .avx => twice 128 (twice 64 (w 4))
  | .scalar => twice 128 (twice 64 (twice 32 (twice 16 one)))

/-! ## The key schedules -/

/-- `SHX::PHI` (CEX/SHX.h:118). -/
def phi : Word := 0x9E3779B9

/-- `w[i] = RotL32(w[i - 8] ^ w[i - 5] ^ w[i - 3] ^ w[i - 1] ^ PHI ^ c, 11)`. -/
def polyStep (w : List Word) (i c : Nat) : M (List Word) := do
  let x8 ← rd w (i - 8)
  let x5 ← rd w (i - 5)
  let x3 ← rd w (i - 3)
  let x1 ← rd w (i - 1)
  wr w i (rotl32 (x8 ^^^ x5 ^^^ x3 ^^^ x1 ^^^ phi ^^^ BitVec.ofNat 32 c) 11)

/-- `Sbn(RoundKeys[k], RoundKeys[k + 1], RoundKeys[k + 2], RoundKeys[k + 3])`. -/
def boxAt (p : List Ins) (w : List Word) (k : Nat) : M (List Word) := do
  let r0 ← rd w k
  let r1 ← rd w (k + 1)
  let r2 ← rd w (k + 2)
  let r3 ← rd w (k + 3)
  let q := sb p ⟨r0, r1, r2, r3⟩
  let w ← wr w k q.a
  let w ← wr w (k + 1) q.b
  let w ← wr w (k + 2) q.c
  wr w (k + 3) q.d

/-- The loop of step 4, `while (kctr < klen - 4)`, 32 words a turn (CEX/SHX.cpp:412-434). -/
def boxLoop (turns : Nat) (w : List Word) : M (List Word) := do
  let w ← loopN turns 0 (fun t w => do
    let k := 32 * t
    let w ← boxAt sb3 w k
    let w ← boxAt sb2 w (k + 4)
    let w ← boxAt sb1 w (k + 8)
    let w ← boxAt sb0 w (k + 12)
    let w ← boxAt sb7 w (k + 16)
    let w ← boxAt sb6 w (k + 20)
    let w ← boxAt sb5 w (k + 24)
    boxAt sb4 w (k + 28)) w
  boxAt sb3 w (32 * turns)

/-- `if (kidx < 8) tmpw[kidx] = 1;` (CEX/SHX.cpp:362-366). -/
def padKey (tmpw : List Word) (kidx : Nat) : M (List Word) := if kidx < 8 then wr tmpw kidx 1 else return tmpw

/-- `StandardExpand` for keys of at most 32 bytes (CEX/SHX.cpp:341-388, 409-435): `WPKLEN` is 16, 32 rounds, `klen` 132. The branch for
64-byte keys (389-407) is never taken, because no legal key of a cipher without KDF is longer than 32 bytes. The words of the key are
read from its end, big-endian. -/
def standardExpand (key : List Byte) : M (List Word) := do
  let tmpw := List.replicate 16 (0 : Word)
  let tmpw ← loopN (key.length / 4) 0 (fun i w => do
    let x ← beBytesTo32 key (key.length - 4 * i - 4)
    wr w i x) tmpw
  let tmpw ← padKey tmpw (key.length / 4)
  let tmpw ← loopN 8 8 (fun i w => polyStep w i (i - 8)) tmpw
  let rk ← copy tmpw 8 (List.replicate 132 0) 0 8
  let rk ← loopN 124 8 (fun i w => polyStep w i i) rk
  boxLoop 4 rk

/-- Little-endian words of the generated bytes (CEX/SHX.cpp:328-336). -/
def leWords : List Byte → List Word
  | a :: b :: c :: d :: t => leUnrep 32 [a, b, c, d] :: leWords t
  | _ => []

/-- `Rounds` of the extended cipher (CEX/SHX.cpp:313-314). -/
def secureRounds (n : Nat) : Nat := if n = 32 then 40 else if n = 64 then 48 else 64

/-! ## The object -/

/-- `SHX` after `Initialize`. -/
structure Shx where
  build : Build
  encryption : Bool
  rk : List Word

/-- `Initialize` without a KDF (CEX/SHX.cpp:200-233; legal key sizes 775-781). -/
def Shx.init (b : Build) (encryption : Bool) (key : List Byte) : M Shx := do
  if ¬ (key.length = 16 ∨ key.length = 24 ∨ key.length = 32) then throw (.throws .invalidKey)
  let rk ← standardExpand key
  return ⟨b, encryption, rk⟩

/-- `Initialize` with a KDF (CEX/SHX.cpp:200-233, 309-339; legal key sizes 782-816). `gen key n` is what the generator, initialised
with the key and the customisation string, gives for `n` bytes. -/
def Shx.secureInit (gen : List Byte → Nat → List Byte) (b : Build) (encryption : Bool) (key : List Byte) : M Shx := do
  if ¬ (key.length = 32 ∨ key.length = 64 ∨ key.length = 128) then throw (.throws .invalidKey)
  let klen := 4 * (secureRounds key.length + 1)
  return ⟨b, encryption, leWords (gen key (klen * 4))⟩

/-- `Transform` to `Transform2048` (CEX/SHX.cpp:235-305). -/
def Shx.one (x : Shx) : BlockFn := if x.encryption then encrypt128 x.rk else decrypt128 x.rk
def Shx.w (x : Shx) (n : Nat) : BlockFn := if x.encryption then encryptW n x.rk else decryptW n x.rk
def Shx.transform (x : Shx) : BlockFn := x.one
def Shx.transform256 (x : Shx) : BlockFn := wide256 x.one
def Shx.transform512 (x : Shx) : BlockFn := wide512 x.build x.one x.w
def Shx.transform1024 (x : Shx) : BlockFn := wide1024 x.build x.one x.w
def Shx.transform2048 (x : Shx) : BlockFn := wide2048 x.build x.one x.w

end Cex.Serpent
