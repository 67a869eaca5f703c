import Verif.Base

/-!
# Model of the scalar helpers of IntegerTools (CEX/IntegerTools.h)

The rotations of the build without intrinsics (IntegerTools.h:2725-2846), Parity, IsPowerOf2, ModPowerOf2, Crop and the conversions from and to hexadecimal strings.
-/

namespace Cex.Scalar

/-- `Value << n`: a shift by the width or more is undefined. -/
def shl {w : Nat} (v : BitVec w) (n : Nat) : M (BitVec w) := if w ≤ n then .error .ub else .ok (v <<< n)

/-- `Value >> n`. -/
def shr {w : Nat} (v : BitVec w) (n : Nat) : M (BitVec w) := if w ≤ n then .error .ub else .ok (v >>> n)

/-- `RotFL32`, `RotFL64`, `RotL32`, `RotL64` (IntegerTools.h:2734-2739, 2749-2754, 2794-2799, 2809-2814). The difference is an unsigned 32-bit or 64-bit number (`m`). -/
def rotL {w : Nat} (m : Nat) (v : BitVec w) (s : Nat) : M (BitVec w) := do
  let a ← shl v s
  let b ← shr v ((2 ^ m + w - s) % 2 ^ m)
  return a ||| b

/-- `RotFR32`, `RotFR64`, `RotR32`, `RotR64` (IntegerTools.h:2764-2769, 2779-2784, 2824-2829, 2839-2844). -/
def rotR {w : Nat} (m : Nat) (v : BitVec w) (s : Nat) : M (BitVec w) := do
  let a ← shr v s
  let b ← shl v ((2 ^ m + w - s) % 2 ^ m)
  return a ||| b

/-- `Parity` (IntegerTools.h:312-322): shifts by 32, 16, 8, 4, 2, 1. -/
def parity (v : BitVec 64) : BitVec 64 :=
  let v := v ^^^ v >>> 32
  let v := v ^^^ v >>> 16
  let v := v ^^^ v >>> 8
  let v := v ^^^ v >>> 4
  let v := v ^^^ v >>> 2
  let v := v ^^^ v >>> 1
  v &&& 1#64

/-- `IsPowerOf2` (IntegerTools.h:256-259) of an unsigned type. -/
def isPowerOf2 {w : Nat} (v : BitVec w) : Bool := decide (0#w < v) && (v &&& (v - 1#w)) == 0#w

/-- `ModPowerOf2` (IntegerTools.h:270-275), both of one unsigned type. -/
def modPowerOf2 {w : Nat} (a b : BitVec w) : BitVec w := a &&& (b - 1#w)

/-- `Crop` (IntegerTools.h:164-178). -/
def crop (v : BitVec 64) (n : Nat) : BitVec 64 := if n < 64 then v &&& ((1#64 <<< n) - 1#64) else v

/-- `digits[idx]` (IntegerTools.h:407); also the digits of `std::hex << std::uppercase`. -/
def digit (n : Nat) : Char := Char.ofNat (if n < 10 then 48 + n else 55 + n)

/-- `IntToHex` (IntegerTools.h:405-423) of a type of `n` hexadecimal digits. -/
def intToHex (n : Nat) (v : BitVec (4 * n)) : List Char :=
  (List.range n).map fun i => digit (v.toNat >>> ((n - 1) * 4 - 4 * i) &&& 0x0F)

/-- The value of a hexadecimal digit of either case for `strtol`. -/
def hexVal (c : Char) : Option Nat :=
  if 48 ≤ c.toNat ∧ c.toNat ≤ 57 then some (c.toNat - 48)
  else if 65 ≤ c.toNat ∧ c.toNat ≤ 70 then some (c.toNat - 55)
  else if 97 ≤ c.toNat ∧ c.toNat ≤ 102 then some (c.toNat - 87)
  else none

/-- The digits up to the first other character. -/
def digitsVal : Nat → List Char → Nat
  | a, [] => a
  | a, c :: l =>
    match hexVal c with
    | some d => digitsVal (16 * a + d) l
    | none => a

/-- `strtol(s, NULL, 16)` with a `long` of 64 bits: the value saturates at `LONG_MAX`. Blanks, a sign and `0x` before the digits are not modelled. -/
def strtol (s : List Char) : Nat := min (digitsVal 0 s) (2 ^ 63 - 1)

/-- `HexToInt` (IntegerTools.h:383-396) of a type of `n` hexadecimal digits; `substr` throws `std::out_of_range` (here `invalidParam`) when the offset is past the end. -/
def hexToInt (n : Nat) (s : List Char) (off : Nat) : M (BitVec (4 * n)) :=
  if s.length < off then .error (.throws .invalidParam) else .ok (BitVec.ofNat (4 * n) (strtol ((s.drop off).take n)))

/-- `ToHex` of an array of bytes (IntegerTools.h:340-355): two digits for every byte. -/
def toHex (b : List Byte) : List Char := b.flatMap fun x => [digit (x.toNat / 16), digit (x.toNat % 16)]

/-- `FromHex` (IntegerTools.h:229-246): the loop `i = 0, 2, …` below `Length`. -/
def fromHexLoop (s : List Char) (len : Nat) : Nat → Nat → M (List Byte)
  | 0, _ => .ok []
  | f + 1, i =>
    if i < len then do
      if s.length < i then .error (.throws .invalidParam)
      let l ← fromHexLoop s len f (i + 2)
      return BitVec.ofNat 8 (strtol ((s.drop i).take 2)) :: l
    else .ok []

def fromHex (s : List Char) (len : Nat) : M (List Byte) := fromHexLoop s len (len + 1) 0

end Cex.Scalar
