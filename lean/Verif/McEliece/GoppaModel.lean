import Verif.McEliece.KemModel

/-!
# Model of the syndrome of the Goppa code (CEX/MPKCUtils.cpp:920-945)
-/

namespace Cex.McEliece.Goppa

/-- The loop over `j` (MPKCUtils.cpp:939-943): `c` is the received bit, `a` is `L[i]`, the third argument `einv`. -/
def syndInner (c a : BitVec 16) : BitVec 16 → List (BitVec 16) → List (BitVec 16)
  | _, [] => []
  | einv, o :: out => gfAdd o (gfMultiply einv c) :: syndInner c a (gfMultiply einv a) out

/-- The loop over `i` (MPKCUtils.cpp:933-944), from `i` on. -/
def syndLoop (f : List (BitVec 16)) (R : List Byte) : Nat → List (BitVec 16) → List (BitVec 16) → M (List (BitVec 16))
  | _, [], out => .ok out
  | i, a :: L, out => do
    let b ← rd R (i / 8)
    let c := ((b >>> (i % 8)) &&& 1#8).setWidth 16
    let e ← eval f a
    let einv := gfInv (gfMultiply e e)
    syndLoop f R (i + 1) L (syndInner c a einv out)

/-- `Synd` (MPKCUtils.cpp:920-945) of the polynomial `f`, the support `L` of `N` elements and the word `R`. -/
def synd (f L : List (BitVec 16)) (R : List Byte) (t : Nat) : M (List (BitVec 16)) :=
  syndLoop f R 0 L (List.replicate (2 * t) 0#16)

/-- The private key of `Decrypt` with `Synd` in it; the decoder (`Bm`, `Root`) is any function. Words that are too short do not occur in `Decrypt`. -/
def key (f L : List (BitVec 16)) (t : Nat) (image : List Byte → Nat → BitVec 16) (s : List Byte) : Kem.Key where
  synd r :=
    if L.length ≤ 8 * r.length then
      match synd f L r t with
      | .ok x => x
      | .error _ => List.replicate (2 * t) 0#16
    else List.replicate (2 * t) 0#16
  image := image
  s := s

end Cex.McEliece.Goppa
