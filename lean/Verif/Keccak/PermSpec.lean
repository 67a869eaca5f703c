import Verif.IntTools.Enc

/-!
# Keccak-p[1600, n] after FIPS 202, section 3

A state is a function from lane coordinates `(x, y)` to 64-bit lanes. Written from the standard, not from the code.
-/

namespace Cex.Fips202
open Cex

/-- `Lane(x, y)` (FIPS 202, 3.1.4). -/
abbrev St := Fin 5 → Fin 5 → BitVec 64

/-- θ (3.2.1). -/
def theta (a : St) : St := fun x y =>
  let c : Fin 5 → BitVec 64 := fun i => a i 0 ^^^ a i 1 ^^^ a i 2 ^^^ a i 3 ^^^ a i 4
  a x y ^^^ (c (x - 1) ^^^ (c (x + 1)).rotateLeft 1)

/-- The walk of 3.2.2: the lane met at step `t`. -/
def walk : Nat → Fin 5 × Fin 5
  | 0 => (1, 0)
  | t + 1 => ((walk t).2, 2 * (walk t).1 + 3 * (walk t).2)

/-- The offset of lane `(x, y)`: `(t+1)(t+2)/2` for the step `t < 24` that meets it, `0` for the lane never met. -/
def offset (x y : Fin 5) : Nat :=
  match (List.range 24).find? (fun t => walk t == (x, y)) with
  | some t => (t + 1) * (t + 2) / 2
  | none => 0

/-- ρ (3.2.2). -/
def rho (a : St) : St := fun x y => (a x y).rotateLeft (offset x y % 64)

/-- π (3.2.3). -/
def pi (a : St) : St := fun x y => a (x + 3 * y) x

/-- χ (3.2.4). -/
def chi (a : St) : St := fun x y => a x y ^^^ (~~~ (a (x + 1) y) &&& a (x + 2) y)

/-- One step of the shift register of 3.2.5 on the bits `R[0..7]`. -/
def rcStep (r : List Bool) : List Bool :=
  match r with
  | [r0, r1, r2, r3, r4, r5, r6, r7] => [r7, r0, r1, r2, Bool.xor r3 r7, Bool.xor r4 r7, Bool.xor r5 r7, r6]
  | r => r

/-- `rc(t)` (Algorithm 5). -/
def rcBit (t : Nat) : Bool :=
  match (Nat.repeat rcStep (t % 255) [true, false, false, false, false, false, false, false]) with
  | b :: _ => b
  | [] => false

/-- `RC[ir]` (Algorithm 6): bit `2^j - 1` is `rc(j + 7 ir)` for `j ≤ 6`. -/
def rc (ir : Nat) : BitVec 64 :=
  (List.range 7).foldl (fun w j => if rcBit (j + 7 * ir) then w ||| (1 <<< (2 ^ j - 1)) else w) 0

/-- ι (3.2.5). -/
def iota (ir : Nat) (a : St) : St := fun x y => if x = 0 ∧ y = 0 then a x y ^^^ rc ir else a x y

/-- `Rnd` (3.3). -/
def rnd (a : St) (ir : Nat) : St := iota ir (chi (pi (rho (theta a))))

/-- `n` rounds starting with round index 0; `Keccak-f[1600]` is `n = 24` (3.3, 3.4). -/
def rounds (n : Nat) (a : St) : St := (List.range n).foldl rnd a

/-- Bytes to lanes (3.1.2 with B.1: bit `z` of lane `(x, y)` is bit `64 (5y + x) + z` of the string, the least significant bit of a byte first). -/
def ofBytes (s : List Byte) : St := fun x y => BitVec.ofNat 64 (leVal ((s.drop (8 * (5 * y.val + x.val))).take 8))

/-- Lanes to bytes (3.1.3). -/
def toBytes (a : St) : List Byte :=
  (List.finRange 5).flatMap fun y => (List.finRange 5).flatMap fun x => leEnc 8 (a x y).toNat

/-- `Keccak-p[1600, n]` on 200-byte strings. -/
def keccakP (n : Nat) (s : List Byte) : List Byte := toBytes (rounds n (ofBytes s))

end Cex.Fips202
