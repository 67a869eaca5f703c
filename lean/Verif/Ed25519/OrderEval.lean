import Verif.Ed25519.TableCheck
import Verif.Ed25519.ScLemmas

/-!
# The multiple of the base point by its order
-/

namespace Cex.Ed25519

open Cex.Ec25519 Cex.IntTools

/-- the result is the neutral point -/
def isNeutral : M Ge3 → Bool
  | .ok h => Nat.beq (res h.x) 0 && Nat.beq (res h.y) (res h.z)
  | _ => false

/-- the model of the multiplication, evaluated by the kernel for the order -/
theorem order_eval : isNeutral (scalarBase base (leEnc 32 L)) = true := by decide +kernel

end Cex.Ed25519
