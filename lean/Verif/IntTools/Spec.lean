import Verif.Base

/-! # Specification vocabulary for byte strings as numbers -/

namespace Cex

/-- The number whose base-256 digits, most significant first, are `bs`. -/
def beVal (bs : List Byte) : Nat := bs.foldl (fun acc b => acc * 256 + b.toNat) 0

/-- The number whose base-256 digits, least significant first, are `bs`. -/
def leVal : List Byte → Nat
  | [] => 0
  | b :: bs => b.toNat + 256 * leVal bs

/-- The `n` low base-256 digits of `v`, least significant first. -/
def leEnc : (n v : Nat) → List Byte
  | 0, _ => []
  | n + 1, v => BitVec.ofNat 8 v :: leEnc n (v / 256)

/-- The `n` low base-256 digits of `v`, most significant first. -/
def beEnc (n v : Nat) : List Byte := (leEnc n v).reverse

end Cex
