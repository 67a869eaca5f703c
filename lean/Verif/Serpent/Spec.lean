import Verif.IntTools.Spec

/-!
# Serpent (Anderson, Biham, Knudsen), in the bitslice form of the submission

Blocks and keys are byte strings whose bits are numbered from the least significant bit of the first byte, the order of the
NESSIE test vectors.
-/

namespace Cex

/-- Four words. -/
structure Quad (α : Type) where
  a : α
  b : α
  c : α
  d : α
deriving DecidableEq

namespace Spec.Serpent

abbrev Word := BitVec 32

/-- The eight S-boxes. -/
def sboxes : Vector (Vector (BitVec 4) 16) 8 := #v[
  #v[3, 8, 15, 1, 10, 6, 5, 11, 14, 13, 4, 2, 7, 0, 9, 12],
  #v[15, 12, 2, 7, 9, 0, 5, 10, 1, 11, 14, 8, 6, 13, 3, 4],
  #v[8, 6, 7, 9, 3, 12, 10, 15, 13, 1, 14, 4, 0, 11, 5, 2],
  #v[0, 15, 11, 8, 12, 9, 6, 3, 13, 1, 2, 4, 10, 7, 5, 14],
  #v[1, 15, 8, 3, 12, 0, 11, 6, 2, 5, 4, 10, 9, 14, 7, 13],
  #v[15, 5, 2, 11, 4, 10, 9, 12, 0, 3, 14, 8, 13, 6, 7, 1],
  #v[7, 2, 12, 5, 8, 4, 6, 11, 14, 9, 1, 15, 13, 3, 10, 0],
  #v[1, 13, 15, 0, 14, 8, 2, 11, 7, 4, 12, 10, 9, 3, 5, 6]]

/-- The inverse S-boxes. -/
def invSboxes : Vector (Vector (BitVec 4) 16) 8 := #v[
  #v[13, 3, 11, 0, 10, 6, 5, 12, 1, 14, 4, 7, 15, 9, 8, 2],
  #v[5, 8, 2, 14, 15, 6, 12, 3, 11, 4, 7, 9, 1, 13, 10, 0],
  #v[12, 9, 15, 4, 11, 14, 1, 2, 0, 3, 6, 13, 5, 8, 10, 7],
  #v[0, 9, 10, 7, 11, 14, 6, 13, 3, 5, 12, 2, 4, 8, 15, 1],
  #v[5, 0, 8, 3, 10, 9, 7, 14, 2, 12, 11, 6, 4, 15, 13, 1],
  #v[8, 15, 2, 9, 4, 1, 13, 14, 11, 6, 5, 3, 7, 12, 10, 0],
  #v[15, 10, 1, 13, 5, 3, 6, 0, 4, 9, 14, 7, 2, 12, 8, 11],
  #v[3, 0, 6, 13, 9, 14, 15, 8, 5, 12, 11, 7, 10, 1, 4, 2]]

/-- The number whose bit `i` is `f i`. -/
def ofBits (f : Nat → Bool) : (n : Nat) → BitVec n
  | 0 => 0#0
  | n + 1 => BitVec.cons (f n) (ofBits f n)

/-- Column `i` of the four words, least significant bit from the first. -/
def column (x : Quad Word) (i : Nat) : BitVec 4 :=
  BitVec.ofBool (x.d.getLsbD i) ++ BitVec.ofBool (x.c.getLsbD i) ++ BitVec.ofBool (x.b.getLsbD i) ++ BitVec.ofBool (x.a.getLsbD i)

/-- A 4-bit substitution, applied to the 32 columns at once. -/
def onColumns (s : BitVec 4 → BitVec 4) (x : Quad Word) : Quad Word :=
  let y := fun j => ofBits (fun i => (s (column x i)).getLsbD j) 32
  ⟨y 0, y 1, y 2, y 3⟩

/-- S-box `r`. -/
def sbox (r : Fin 8) (x : BitVec 4) : BitVec 4 := sboxes[r][x.toFin]
def invSbox (r : Fin 8) (x : BitVec 4) : BitVec 4 := invSboxes[r][x.toFin]

def xor (x y : Quad Word) : Quad Word := ⟨x.a ^^^ y.a, x.b ^^^ y.b, x.c ^^^ y.c, x.d ^^^ y.d⟩

/-- The linear transformation. -/
def linear (x : Quad Word) : Quad Word :=
  let a := x.a.rotateLeft 13
  let c := x.c.rotateLeft 3
  let b := x.b ^^^ a ^^^ c
  let d := x.d ^^^ c ^^^ (a <<< 3)
  let b := b.rotateLeft 1
  let d := d.rotateLeft 7
  let a := a ^^^ b ^^^ d
  let c := c ^^^ d ^^^ (b <<< 7)
  ⟨a.rotateLeft 5, b, c.rotateLeft 22, d⟩

/-- Its inverse. -/
def invLinear (x : Quad Word) : Quad Word :=
  let c := x.c.rotateRight 22
  let a := x.a.rotateRight 5
  let c := c ^^^ x.d ^^^ (x.b <<< 7)
  let a := a ^^^ x.b ^^^ x.d
  let d := x.d.rotateRight 7
  let b := x.b.rotateRight 1
  let d := d ^^^ c ^^^ (a <<< 3)
  let b := b ^^^ a ^^^ c
  ⟨a.rotateRight 13, b, c.rotateRight 3, d⟩

/-- Round `i` without its linear transformation, and with it. -/
def half (K : Nat → Quad Word) (i : Nat) (x : Quad Word) : Quad Word := onColumns (sbox (Fin.ofNat 8 i)) (xor x (K i))
def round (K : Nat → Quad Word) (i : Nat) (x : Quad Word) : Quad Word := linear (half K i x)

/-- The first `n` rounds. -/
def rounds (K : Nat → Quad Word) : Nat → Quad Word → Quad Word
  | 0, x => x
  | n + 1, x => round K n (rounds K n x)

/-- Encryption with `n` rounds: the linear transformation of the last one is replaced by a second key addition. -/
def encrypt (K : Nat → Quad Word) (n : Nat) (x : Quad Word) : Quad Word := xor (half K (n - 1) (rounds K (n - 1) x)) (K n)

/-- The inverses. -/
def invHalf (K : Nat → Quad Word) (i : Nat) (x : Quad Word) : Quad Word := xor (onColumns (invSbox (Fin.ofNat 8 i)) x) (K i)
def invRounds (K : Nat → Quad Word) : Nat → Quad Word → Quad Word
  | 0, x => x
  | n + 1, x => invRounds K n (invHalf K n (invLinear x))
def decrypt (K : Nat → Quad Word) (n : Nat) (x : Quad Word) : Quad Word := invRounds K (n - 1) (invHalf K (n - 1) (xor x (K n)))

/-! ## The key schedule -/

/-- Word `i` of a byte string. -/
def leWord (bs : List Byte) (i : Nat) : Word := BitVec.ofNat 32 (leVal ((bs.drop (4 * i)).take 4))

/-- A key of less than 256 bits is continued by a one bit and zeros. -/
def pad (key : List Byte) : List Byte := if key.length < 32 then key ++ [1] ++ List.replicate (31 - key.length) 0 else key

/-- The golden ratio. -/
def phi : Word := 0x9E3779B9

/-- The prekeys: `prekey k (i + 8)` is the `w_i` of the paper, the first eight are the key. -/
def prekey (k : Nat → Word) (n : Nat) : Word :=
  if n < 8 then k n
  else (prekey k (n - 8) ^^^ prekey k (n - 5) ^^^ prekey k (n - 3) ^^^ prekey k (n - 1) ^^^ phi ^^^ BitVec.ofNat 32 (n - 8)).rotateLeft 11

/-- Round key `i`: prekeys through S-box `3 - i`. -/
def roundKey (key : List Byte) (i : Nat) : Quad Word :=
  let w := fun j => prekey (leWord (pad key)) (8 + 4 * i + j)
  onColumns (sbox (3 - Fin.ofNat 8 i)) ⟨w 0, w 1, w 2, w 3⟩

/-! ## On bytes -/

def ofBytes (b : List Byte) : Quad Word := ⟨leWord b 0, leWord b 1, leWord b 2, leWord b 3⟩
def toBytes (x : Quad Word) : List Byte := leEnc 4 x.a.toNat ++ leEnc 4 x.b.toNat ++ leEnc 4 x.c.toNat ++ leEnc 4 x.d.toNat
def onBytes (f : Quad Word → Quad Word) (b : List Byte) : List Byte := toBytes (f (ofBytes b))

/-- Serpent: 32 rounds. -/
def serpent (key : List Byte) : List Byte → List Byte := onBytes (encrypt (roundKey key) 32)
def serpentInv (key : List Byte) : List Byte → List Byte := onBytes (decrypt (roundKey key) 32)

end Spec.Serpent
end Cex
