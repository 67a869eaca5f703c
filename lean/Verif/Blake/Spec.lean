import Verif.Digest.Sha2Spec

/-!
# RFC 7693: BLAKE2s and BLAKE2b

Written from the RFC. Words have `w` bits, blocks `2 * w` bytes and full digests `w` bytes. The working vector is a
function of its index.
-/

namespace Cex.Blake.Rfc
open Cex Cex.Digest.Fips

/-- Section 2.1: the parameters of a variant. -/
structure Alg (w : Nat) where
  rounds : Nat
  R1 : Nat
  R2 : Nat
  R3 : Nat
  R4 : Nat

def alg2s : Alg 32 := ⟨10, 16, 12, 8, 7⟩
def alg2b : Alg 64 := ⟨12, 32, 24, 16, 63⟩

/-- Section 2.6: the initialisation vector is the one of SHA-2, the fractional bits of the square roots of the first primes. -/
def IV (w : Nat) (i : Fin 8) : BitVec w := fracRoot w 2 (#v[2, 3, 5, 7, 11, 13, 17, 19] : Vector Nat 8)[i]

/-- Section 2.7: the message schedule. -/
def sigma : Vector (Vector (Fin 16) 16) 10 := #v[
  #v[ 0,  1,  2,  3,  4,  5,  6,  7,  8,  9, 10, 11, 12, 13, 14, 15],
  #v[14, 10,  4,  8,  9, 15, 13,  6,  1, 12,  0,  2, 11,  7,  5,  3],
  #v[11,  8, 12,  0,  5,  2, 15, 13, 10, 14,  3,  6,  7,  1,  9,  4],
  #v[ 7,  9,  3,  1, 13, 12, 11, 14,  2,  6,  5, 10,  4,  0, 15,  8],
  #v[ 9,  0,  5,  7,  2,  4, 10, 15, 14,  1, 11, 12,  6,  8,  3, 13],
  #v[ 2, 12,  6, 10,  0, 11,  8,  3,  4, 13,  7,  5, 15, 14,  1,  9],
  #v[12,  5,  1, 15, 14, 13,  4, 10,  0,  7,  6,  3,  9,  2,  8, 11],
  #v[13, 11,  7, 14, 12,  1,  3,  9,  5,  0, 15,  4,  8,  6,  2, 10],
  #v[ 6, 15, 14,  9, 11,  3,  0,  8, 12,  2, 13,  7,  1,  4, 10,  5],
  #v[10,  2,  8,  4,  7,  6,  1,  5, 15, 11,  9, 14,  3, 12, 13,  0]]

/-- Row `i mod 10`. -/
def row (i : Nat) : Vector (Fin 16) 16 := sigma[i % 10]'(Nat.mod_lt _ (by decide))

variable {w : Nat}

/-- Assignment to one component. -/
def put {n : Nat} {α : Type} (v : Fin n → α) (i : Fin n) (x : α) : Fin n → α := fun j => if j = i then x else v j

/-- Section 3.1: the mixing function. -/
def Alg.G (A : Alg w) (v : Fin 16 → BitVec w) (a b c d : Fin 16) (x y : BitVec w) : Fin 16 → BitVec w :=
  let v := put v a (v a + v b + x)
  let v := put v d ((v d ^^^ v a).rotateRight A.R1)
  let v := put v c (v c + v d)
  let v := put v b ((v b ^^^ v c).rotateRight A.R2)
  let v := put v a (v a + v b + y)
  let v := put v d ((v d ^^^ v a).rotateRight A.R3)
  let v := put v c (v c + v d)
  put v b ((v b ^^^ v c).rotateRight A.R4)

/-- One round of section 3.2: four columns, four diagonals. -/
def Alg.round (A : Alg w) (m : Fin 16 → BitVec w) (i : Nat) (v : Fin 16 → BitVec w) : Fin 16 → BitVec w :=
  let s := row i
  let v := A.G v 0 4  8 12 (m s[0]) (m s[1])
  let v := A.G v 1 5  9 13 (m s[2]) (m s[3])
  let v := A.G v 2 6 10 14 (m s[4]) (m s[5])
  let v := A.G v 3 7 11 15 (m s[6]) (m s[7])
  let v := A.G v 0 5 10 15 (m s[8]) (m s[9])
  let v := A.G v 1 6 11 12 (m s[10]) (m s[11])
  let v := A.G v 2 7  8 13 (m s[12]) (m s[13])
  A.G v 3 4 9 14 (m s[14]) (m s[15])

/-- The working vector of section 3.2: the state, then the IV combined with the two counter words and the finalisation
flags (the second flag marks the last node of a tree level; the RFC leaves it unset). -/
def start (h : Fin 8 → BitVec w) (t0 t1 : BitVec w) (f0 f1 : Bool) (i : Fin 16) : BitVec w :=
  if hi : i.val < 8 then h ⟨i, hi⟩
  else
    let x := IV w ⟨i.val - 8, by omega⟩
    if i = 12 then x ^^^ t0
    else if i = 13 then x ^^^ t1
    else if i = 14 ∧ f0 then ~~~x
    else if i = 15 ∧ f1 then ~~~x
    else x

/-- Section 3.2: the compression function. -/
def Alg.F (A : Alg w) (h : Fin 8 → BitVec w) (m : Fin 16 → BitVec w) (t0 t1 : BitVec w) (f0 f1 : Bool) : Fin 8 → BitVec w :=
  let v := (List.range A.rounds).foldl (fun v i => A.round m i v) (start h t0 t1 f0 f1)
  fun i => h i ^^^ v ⟨i.val, by omega⟩ ^^^ v ⟨i.val + 8, by omega⟩

/-- The little-endian words of a block. -/
def words (w : Nat) (b : List Byte) (i : Fin 16) : BitVec w := BitVec.ofNat w (leVal ((b.drop (i.val * (w / 8))).take (w / 8)))

/-- Zero padding to a whole block. -/
def pad (w : Nat) (b : List Byte) : List Byte := b ++ List.replicate (2 * w - b.length) 0

/-- Section 2.5: the two words of the byte counter. -/
def counter (w t : Nat) : BitVec w × BitVec w := (BitVec.ofNat w t, BitVec.ofNat w (t / 2 ^ w))

/-- Section 3.3, the loop over the blocks; `t` bytes were compressed before, `cnt` gives the counter words, `f1` the last-node flag. -/
def Alg.blocks (A : Alg w) (cnt : Nat → BitVec w × BitVec w) (f1 : Bool) (h : Fin 8 → BitVec w) (t : Nat) (d : List Byte) : Fin 8 → BitVec w :=
  if 0 < w ∧ 2 * w < d.length then
    A.blocks cnt f1 (A.F h (words w (d.take (2 * w))) (cnt (t + 2 * w)).1 (cnt (t + 2 * w)).2 false false) (t + 2 * w) (d.drop (2 * w))
  else A.F h (words w (pad w d)) (cnt (t + d.length)).1 (cnt (t + d.length)).2 true f1
termination_by d.length
decreasing_by rw [List.length_drop]; omega

/-- The words of the state, little-endian. -/
def bytes (h : Fin 8 → BitVec w) : List Byte := (List.ofFn h).flatMap fun x => leEnc (w / 8) x.toNat

/-- The initial state for key length `kk` and digest length `nn`. -/
def init (w kk nn : Nat) (i : Fin 8) : BitVec w :=
  if i = 0 then IV w 0 ^^^ BitVec.ofNat w 0x01010000 ^^^ BitVec.ofNat w (kk * 256) ^^^ BitVec.ofNat w nn else IV w i

/-- Section 3.3 on the data blocks `d` (a keyed hash has the padded key in front). -/
def Alg.digest (A : Alg w) (cnt : Nat → BitVec w × BitVec w) (kk : Nat) (d : List Byte) : List Byte := bytes (A.blocks cnt false (init w kk w) 0 d)

/-- BLAKE2 with a full-size digest. -/
def Alg.blake2 (A : Alg w) (key msg : List Byte) : List Byte :=
  A.digest (counter w) key.length (if key = [] then msg else pad w key ++ msg)

end Cex.Blake.Rfc
