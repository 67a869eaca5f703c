/-!
# The field of McEliece

Polynomials over GF(2) of degree below 13, modulo x^13 + x^4 + x^3 + x + 1. Bit `i` is the coefficient of x^i.
-/

namespace Cex.McEliece.Spec

abbrev P := BitVec 13

/-- Multiplication by x. -/
def xt (a : P) : P := a <<< 1 ^^^ (if a.getLsbD 12 then 0x1B#13 else 0)

/-- a·(b_0 + … + b_{n-1} x^{n-1}) by Horner's rule, shifted out of `b`. -/
def mulN (a b : P) : Nat → P
  | 0 => 0
  | n + 1 => (if b.getLsbD (12 - n) then a else 0) ^^^ xt (mulN a b n)

def mul (a b : P) : P := mulN a b 13

/-- c_0·q + c_1·q·a + c_2·q·a² + …; with `q = 1` the value of the polynomial at `a`. -/
def value : List P → P → P → P
  | [], _, _ => 0
  | c :: l, a, q => mul c q ^^^ value l a (mul q a)

end Cex.McEliece.Spec
