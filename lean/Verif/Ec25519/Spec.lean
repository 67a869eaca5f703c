import Verif.IntTools.Spec

/-!
# X25519 (RFC 7748, section 5), written independently of the code

Field elements are natural numbers below `P = 2^255 - 19`; all arithmetic is reduced explicitly.
-/

namespace Cex.Ec25519

/-- the prime of the field -/
def P : Nat := 2 ^ 255 - 19

def fadd (a b : Nat) : Nat := (a + b) % P
def fsub (a b : Nat) : Nat := (a + (P - b % P)) % P
def fmul (a b : Nat) : Nat := a * b % P

/-- the constant `a24 = (486662 - 2) / 4` -/
def a24 : Nat := 121665

/-- RFC 7748 `decodeScalar25519`: clear the three low bits and the top bit, set bit 254 -/
def decodeScalar (k : List Byte) : Nat :=
  let n := leVal k % 2 ^ 255
  n % 2 ^ 254 / 8 * 8 + 2 ^ 254

/-- RFC 7748 `decodeUCoordinate`: the top bit is ignored, values above `P` are accepted -/
def decodeU (u : List Byte) : Nat := leVal u % 2 ^ 255 % P

/-- the state of the ladder -/
structure Lad where
  x2 : Nat
  z2 : Nat
  x3 : Nat
  z3 : Nat
  deriving DecidableEq, Repr

/-- conditional swap of the two points -/
def Lad.swap (s : Lad) (b : Bool) : Lad := if b then ⟨s.x3, s.z3, s.x2, s.z2⟩ else s

/-- the differential addition and doubling of RFC 7748 -/
def Lad.step (x1 : Nat) (s : Lad) : Lad :=
  let A := fadd s.x2 s.z2
  let AA := fmul A A
  let B := fsub s.x2 s.z2
  let BB := fmul B B
  let E := fsub AA BB
  let C := fadd s.x3 s.z3
  let D := fsub s.x3 s.z3
  let DA := fmul D A
  let CB := fmul C B
  let sum := fadd DA CB
  let dif := fsub DA CB
  { x3 := fmul sum sum
    z3 := fmul x1 (fmul dif dif)
    x2 := fmul AA BB
    z2 := fmul E (fadd AA (fmul a24 E)) }

/-- one turn of the loop of RFC 7748: the ladder together with the pending swap -/
def Lad.turn (k x1 : Nat) (t : Nat) (s : Lad × Bool) : Lad × Bool :=
  let kt := k.testBit t
  ((s.1.swap (s.2 ^^ kt)).step x1, kt)

/-- the loop over the bits `n - 1, ..., 0` -/
def Lad.run (k x1 : Nat) : (n : Nat) → Lad × Bool → Lad × Bool
  | 0, s => s
  | n + 1, s => Lad.run k x1 n (Lad.turn k x1 n s)

/-- the ladder of all 255 bits, after the last swap -/
def ladder (k u : Nat) : Lad :=
  let r := Lad.run k u 255 (⟨1, 0, u, 1⟩, false)
  r.1.swap r.2

/-- X25519 on numbers: `x_2 * z_2^(p - 2)` -/
def x25519Nat (k u : Nat) : Nat :=
  let s := ladder k u
  fmul s.x2 (s.z2 ^ (P - 2) % P)

/-- X25519 on octet strings -/
def x25519 (k u : List Byte) : List Byte := leEnc 32 (x25519Nat (decodeScalar k) (decodeU u))

end Cex.Ec25519
