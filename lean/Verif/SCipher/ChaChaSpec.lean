import Verif.IntTools.Spec

/-!
# ChaCha20 as published

Bernstein's ChaCha20 with a 64-bit block counter and a 64-bit nonce ("ChaCha, a variant of Salsa20",
2008); the quarter round and the double round are those of RFC 8439, 2.1-2.3. The same shape on 64-bit
words with another rotation table is CSX-512, which has no publication: its table is the comment in
ChaCha.h:1002-1010.
-/

namespace Cex.SCipher.Spec
open Cex

/-- RFC 8439, 2.1, with the four rotation distances as parameters. -/
def quarter {w : Nat} (r : Nat × Nat × Nat × Nat) : BitVec w × BitVec w × BitVec w × BitVec w →
    BitVec w × BitVec w × BitVec w × BitVec w
  | (a, b, c, d) =>
    let a := a + b; let d := (d ^^^ a).rotateLeft r.1
    let c := c + d; let b := (b ^^^ c).rotateLeft r.2.1
    let a := a + b; let d := (d ^^^ a).rotateLeft r.2.2.1
    let c := c + d; let b := (b ^^^ c).rotateLeft r.2.2.2
    (a, b, c, d)

/-- RFC 8439, 2.2: the quarter round on four words of the state. -/
def quarterAt {w : Nat} (q r : Nat × Nat × Nat × Nat) (X : Nat → BitVec w) : Nat → BitVec w :=
  let y := quarter r (X q.1, X q.2.1, X q.2.2.1, X q.2.2.2)
  fun i => if i = q.1 then y.1 else if i = q.2.1 then y.2.1 else if i = q.2.2.1 then y.2.2.1
    else if i = q.2.2.2 then y.2.2.2 else X i

/-- RFC 8439, 2.3: four columns, then four diagonals. -/
def quarters : List (Nat × Nat × Nat × Nat) :=
  [(0, 4, 8, 12), (1, 5, 9, 13), (2, 6, 10, 14), (3, 7, 11, 15), (0, 5, 10, 15), (1, 6, 11, 12), (2, 7, 8, 13), (3, 4, 9, 14)]

/-- Two rounds. -/
def doubleRound {w : Nat} (rots : List (Nat × Nat × Nat × Nat)) (X : Nat → BitVec w) : Nat → BitVec w :=
  (quarters.zip rots).foldl (fun X q => quarterAt q.1 q.2 X) X

/-- `2 * n` rounds. -/
def rounds {w : Nat} (rots : List (Nat × Nat × Nat × Nat)) : Nat → (Nat → BitVec w) → Nat → BitVec w
  | 0, X => X
  | n + 1, X => rounds rots n (doubleRound rots X)

/-- The block of an input of sixteen little-endian words of `k` bytes. -/
def chachaBlock (k : Nat) (rots : List (Nat × Nat × Nat × Nat)) (n : Nat) (input : List Byte) : List Byte :=
  let X : Nat → BitVec (8 * k) := fun i => BitVec.ofNat (8 * k) (leVal ((input.drop (k * i)).take k))
  (List.range 16).flatMap (fun i => leEnc k (rounds rots n X i + X i).toNat)

/-- The rotation distances of ChaCha. -/
def chachaRots : List (Nat × Nat × Nat × Nat) := List.replicate 8 (16, 12, 8, 7)

/-- The rotation distances of CSX-512. -/
def csxRots : List (Nat × Nat × Nat × Nat) :=
  [(38, 19, 10, 55), (33, 4, 51, 13), (16, 34, 56, 51), (4, 53, 42, 41), (34, 41, 59, 17), (23, 31, 37, 20), (31, 44, 47, 46), (12, 47, 44, 30)]

/-- The constant of ChaCha20 with a 256-bit key. -/
def sigma : List Byte := "expand 32-byte k".toList.map (fun c => BitVec.ofNat 8 c.toNat)

/-- The ChaCha20 block with number `ctr` for a 32-byte key and an 8-byte nonce. -/
def chacha20 (key nonce : List Byte) (ctr : Nat) : List Byte :=
  chachaBlock 4 chachaRots 10 (sigma ++ key ++ leEnc 8 ctr ++ nonce)

/-- The same with a constant chosen by the caller. -/
def chacha20With (code key nonce : List Byte) (ctr : Nat) : List Byte :=
  chachaBlock 4 chachaRots 10 (code ++ key ++ leEnc 8 ctr ++ nonce)

/-- The CSX-512 block with number `ctr`, counted from the 16-byte nonce, for a 64-byte key and a 48-byte
code; `2 * n` rounds. -/
def csx512 (n : Nat) (code key nonce : List Byte) (ctr : Nat) : List Byte :=
  chachaBlock 8 csxRots n (key ++ code.take 32 ++ leEnc 16 (leVal nonce + ctr) ++ code.drop 32)

end Cex.SCipher.Spec
