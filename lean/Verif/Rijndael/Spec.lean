import Verif.Base

/-!
# Rijndael and the Advanced Encryption Standard (FIPS 197)

States are arrays of four rows and `nb` columns of bytes; AES has `nb = 4`. Nothing here refers to the model.
-/

namespace Cex.Aes

/-- Multiplication by `x` in GF(2⁸) modulo `x⁸ + x⁴ + x³ + x + 1` (FIPS 197, 4.2.1). -/
def xtime (b : Byte) : Byte := (b <<< 1) ^^^ (if b.msb then 0x1B#8 else 0#8)

/-- `xⁱ • b`. -/
def xpow : Nat → Byte → Byte
  | 0, b => b
  | i + 1, b => xtime (xpow i b)

/-- `aᵢ • xⁱ • b`. -/
def part (a : Byte) (i : Nat) (b : Byte) : Byte := if a.getLsbD i then xpow i b else 0#8

/-- Multiplication in GF(2⁸). -/
def mul (a b : Byte) : Byte :=
  part a 0 b ^^^ part a 1 b ^^^ part a 2 b ^^^ part a 3 b ^^^ part a 4 b ^^^ part a 5 b ^^^ part a 6 b ^^^ part a 7 b

/-- `b²⁵⁴`: the multiplicative inverse, and 0 for 0. -/
def inv (b : Byte) : Byte :=
  let b2 := mul b b
  let b4 := mul b2 b2
  let b8 := mul b4 b4
  let b16 := mul b8 b8
  let b32 := mul b16 b16
  let b64 := mul b32 b32
  let b128 := mul b64 b64
  mul b2 (mul b4 (mul b8 (mul b16 (mul b32 (mul b64 b128)))))

/-- The affine map `b'ᵢ = bᵢ ⊕ bᵢ₊₄ ⊕ bᵢ₊₅ ⊕ bᵢ₊₆ ⊕ bᵢ₊₇ ⊕ cᵢ` (FIPS 197, 5.1.1). -/
def affine (b : Byte) : Byte := b ^^^ b.rotateLeft 4 ^^^ b.rotateLeft 3 ^^^ b.rotateLeft 2 ^^^ b.rotateLeft 1 ^^^ 0x63#8

/-- Its inverse. -/
def unaffine (b : Byte) : Byte := b.rotateLeft 1 ^^^ b.rotateLeft 3 ^^^ b.rotateLeft 6 ^^^ 0x05#8

/-- SBOX. -/
def sbox (b : Byte) : Byte := affine (inv b)

/-- INVSBOX. -/
def invSbox (b : Byte) : Byte := inv (unaffine b)

/-- The state: `s r c` is the byte in row `r`, column `c`. -/
abbrev St (nb : Nat) := Fin 4 → Fin nb → Byte

/-- A column as bytes. -/
def col {α : Type} (v : Fin 4 → α) : List α := [v 0, v 1, v 2, v 3]

/-- The bytes of a state, column by column (FIPS 197, 3.4). -/
def bytes {α : Type} {nb : Nat} (s : Fin 4 → Fin nb → α) : List α := (List.ofFn fun c => col (fun r => s r c)).flatten

/-- The state of a block. -/
def state {nb : Nat} (b : List Byte) (h : b.length = 4 * nb) : St nb := fun r c => b[4 * c.val + r.val]

def subBytes {nb : Nat} (s : St nb) : St nb := fun r c => sbox (s r c)

def invSubBytes {nb : Nat} (s : St nb) : St nb := fun r c => invSbox (s r c)

/-- Row `r` is rotated to the left by `sh r` columns. -/
def shiftRows {α : Type} {nb : Nat} (sh : Fin 4 → Nat) (s : Fin 4 → Fin nb → α) : Fin 4 → Fin nb → α :=
  fun r c => s r ⟨(c.val + sh r) % nb, Nat.mod_lt _ (Nat.lt_of_le_of_lt (Nat.zero_le _) c.isLt)⟩

/-- Row `r` is rotated to the right by `sh r` columns. -/
def invShiftRows {α : Type} {nb : Nat} (sh : Fin 4 → Nat) (s : Fin 4 → Fin nb → α) : Fin 4 → Fin nb → α :=
  fun r c => s r ⟨(c.val + (nb - sh r)) % nb, Nat.mod_lt _ (Nat.lt_of_le_of_lt (Nat.zero_le _) c.isLt)⟩

/-- A column times the circulant matrix with first row `a0 a1 a2 a3`. -/
def circ (a0 a1 a2 a3 : Byte) (v : Fin 4 → Byte) : Fin 4 → Byte :=
  fun r => mul a0 (v r) ^^^ mul a1 (v (r + 1)) ^^^ mul a2 (v (r + 2)) ^^^ mul a3 (v (r + 3))

/-- FIPS 197, 5.1.3. -/
def mixColumns {nb : Nat} (s : St nb) : St nb := fun r c => circ 0x02 0x03 0x01 0x01 (fun k => s k c) r

/-- FIPS 197, 5.3.3. -/
def invMixColumns {nb : Nat} (s : St nb) : St nb := fun r c => circ 0x0E 0x0B 0x0D 0x09 (fun k => s k c) r

/-- The expanded key: word `i` as four bytes. -/
abbrev Schedule := Nat → Fin 4 → Byte

/-- ADDROUNDKEY with the words `nb * k, …, nb * k + nb - 1`. -/
def addRoundKey {nb : Nat} (w : Schedule) (k : Nat) (s : St nb) : St nb := fun r c => s r c ^^^ w (nb * k + c.val) r

/-- `n` full rounds with the round keys `k, k + 1, …`. -/
def rounds {nb : Nat} (sh : Fin 4 → Nat) (w : Schedule) : Nat → Nat → St nb → St nb
  | 0, _, s => s
  | n + 1, k, s => rounds sh w n (k + 1) (addRoundKey w k (mixColumns (shiftRows sh (subBytes s))))

/-- CIPHER (FIPS 197, algorithm 1) with `nr` rounds. -/
def cipher {nb : Nat} (sh : Fin 4 → Nat) (w : Schedule) (nr : Nat) (s : St nb) : St nb :=
  addRoundKey w nr (shiftRows sh (subBytes (rounds sh w (nr - 1) 1 (addRoundKey w 0 s))))

/-- `n` full inverse rounds with the round keys `n, n - 1, …, 1`. -/
def invRounds {nb : Nat} (sh : Fin 4 → Nat) (w : Schedule) : Nat → St nb → St nb
  | 0, s => s
  | n + 1, s => invRounds sh w n (invMixColumns (addRoundKey w (n + 1) (invSubBytes (invShiftRows sh s))))

/-- INVCIPHER (FIPS 197, algorithm 3). -/
def invCipher {nb : Nat} (sh : Fin 4 → Nat) (w : Schedule) (nr : Nat) (s : St nb) : St nb :=
  addRoundKey w 0 (invSubBytes (invShiftRows sh (invRounds sh w (nr - 1) (addRoundKey w nr s))))

/-- The shifts of AES: row `r` by `r`. -/
def aesShifts : Fin 4 → Nat := fun r => r.val

/-- `x^(i-1)` in GF(2⁸), as the first byte of the round constant (FIPS 197, 5.2). -/
def rconWord (i : Nat) : Fin 4 → Byte := fun r => if r = 0 then xpow (i - 1) 1 else 0

def rotWord (v : Fin 4 → Byte) : Fin 4 → Byte := fun r => v (r + 1)

def subWord (v : Fin 4 → Byte) : Fin 4 → Byte := fun r => sbox (v r)

def xorWord (u v : Fin 4 → Byte) : Fin 4 → Byte := fun r => u r ^^^ v r

/-- KEYEXPANSION (FIPS 197, algorithm 2) for a key of `nk` words. -/
def expand (nk : Nat) (key : Schedule) (i : Nat) : Fin 4 → Byte :=
  if h : i < nk ∨ nk = 0 then key i
  else
    xorWord (expand nk key (i - nk))
      (if i % nk = 0 then xorWord (subWord (rotWord (expand nk key (i - 1)))) (rconWord (i / nk))
       else if nk > 6 ∧ i % nk = 4 then subWord (expand nk key (i - 1))
       else expand nk key (i - 1))
termination_by i
decreasing_by all_goals omega

/-- The words of a key; 0 beyond its end. -/
def keyWords (key : List Byte) : Schedule := fun i r => if h : 4 * i + r.val < key.length then key[4 * i + r.val] else 0

/-- AES of one block (`Nr = Nk + 6`). -/
def aes (key : List Byte) (s : St 4) : St 4 :=
  cipher aesShifts (expand (key.length / 4) (keyWords key)) (key.length / 4 + 6) s

/-- Inverse AES of one block. -/
def aesInv (key : List Byte) (s : St 4) : St 4 :=
  invCipher aesShifts (expand (key.length / 4) (keyWords key)) (key.length / 4 + 6) s

/-- A function on states as one on blocks of `4 * nb` bytes. -/
def onBytes {nb : Nat} (F : St nb → St nb) (b : List Byte) : List Byte := if h : b.length = 4 * nb then bytes (F (state b h)) else []

end Cex.Aes
