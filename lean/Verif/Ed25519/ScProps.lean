import Verif.Ed25519.ScMulAdd

/-!
# Scalars modulo the order of the base point (C87)
-/

namespace Cex.Ed25519

open Cex.Ec25519 Cex.IntTools

/-- **C87.** What `Sc25519Reduce` computes, for every 64 bytes: no signed overflow occurs, the last 32 bytes are kept, and the first 32 become the number reduced modulo the
order — with `2^274` added to it when the limb `s10` is below `-2^20` at line 6070, where the carry is computed with `1ULL` instead of `1LL`. -/
theorem C87_reduce {b : List Byte} (hb : b.length = 64) :
    scReduce b = .ok (leEnc 32 ((leVal b + if Wraps (leVal b) then 2 ^ 274 else 0) % L) ++ b.drop 32) := scReduce_ok hb

/-- **C87**, the claim, for the numbers whose limb `s10` does not become negative. Missing: the others, for which it is false (`C87_reduce_wrong`). -/
theorem C87_reduce_partial {b : List Byte} (hb : b.length = 64) (hw : ¬ Wraps (leVal b)) : scReduce b = .ok (leEnc 32 (leVal b % L) ++ b.drop 32) := by
  rw [C87_reduce hb, if_neg hw, Nat.add_zero]

theorem L_lt : L < 256 ^ 32 := by decide

/-- the result is canonical, for every 64 bytes -/
theorem C87_reduce_canonical {b : List Byte} (hb : b.length = 64) : ∃ r, scReduce b = .ok r ∧ r.length = 64 ∧ leVal (r.take 32) < L := by
  refine ⟨_, C87_reduce hb, by rw [List.length_append, leEnc_length, List.length_drop]; omega, ?_⟩
  rw [List.take_left' (by rw [leEnc_length]), leVal_leEnc]
  exact Nat.lt_of_le_of_lt (Nat.mod_le _ _) (Nat.mod_lt _ L_pos)

theorem offset_ne (x : Nat) : (x + 2 ^ 274) % L ≠ x % L := by
  intro h
  have h1 : 2 ^ 274 % L = 0 := by
    have := Nat.sub_mod_eq_zero_of_mod_eq h
    rwa [Nat.add_sub_cancel_left] at this
  exact absurd h1 (by decide +kernel)

/-- **C87**, refuted: whenever the limb is negative the result is not the residue -/
theorem C87_reduce_wrong {b : List Byte} (hb : b.length = 64) (hw : Wraps (leVal b)) : ∃ r, scReduce b = .ok r ∧ leVal (r.take 32) ≠ leVal b % L := by
  refine ⟨_, C87_reduce hb, ?_⟩
  rw [List.take_left' (by rw [leEnc_length]), leVal_leEnc, if_pos hw, Nat.mod_eq_of_lt (Nat.lt_trans (Nat.mod_lt _ L_pos) L_lt)]
  exact offset_ne _

/-- **C87.** `Sc25519MulAdd` writes `a b + c` modulo the order at the offset, for all scalars of 32 bytes (longer buffers are read up to byte 31), without signed overflow. -/
theorem C87_muladd {a b c pre old post : List Byte} (ha : 32 ≤ a.length) (hb : 32 ≤ b.length) (hc : 32 ≤ c.length) (ho : old.length = 32) :
    scMulAdd (pre ++ old ++ post) pre.length a b c =
      .ok (pre ++ leEnc 32 ((leVal (a.take 32) * leVal (b.take 32) + leVal (c.take 32)) % L) ++ post) := by
  have e : ∀ {x : List Byte}, 32 ≤ x.length → leVal (x.take 32) = leVal x % 2 ^ 256 := fun {x} h => by
    have h1 := leVal_append (x.take 32) (x.drop 32)
    have h2 := leVal_lt (x.take 32)
    rw [List.take_append_drop, List.length_take, Nat.min_eq_left h] at h1
    rw [List.length_take, Nat.min_eq_left h] at h2
    rw [h1, show (2 : Nat) ^ 256 = 256 ^ 32 by decide, Nat.add_mul_mod_self_left, Nat.mod_eq_of_lt h2]
  rw [e ha, e hb, e hc]
  exact scMulAdd_ok ha hb hc ho

/-! ### Cases -/

/-- a number with `s10` negative: the bits 399 … 418 are set -/
def wrongInput : List Byte := leEnc 64 (2 ^ 419 - 2 ^ 399)

theorem wrongInput_ok : wrongInput.length = 64 ∧ Wraps (leVal wrongInput) := by decide +kernel

/-- the refutation, evaluated -/
example : ∃ r, scReduce wrongInput = .ok r ∧ leVal (r.take 32) ≠ leVal wrongInput % L := C87_reduce_wrong wrongInput_ok.1 wrongInput_ok.2

/-- a number of 512 bits that is reduced rightly -/
def rightInput : List Byte := List.replicate 64 255

theorem rightInput_ok : rightInput.length = 64 ∧ ¬ Wraps (leVal rightInput) := by decide +kernel

example : scReduce rightInput = .ok (leEnc 32 ((2 ^ 512 - 1) % L) ++ List.replicate 32 255) := by decide +kernel

/-- `2 · (L - 1) + 5 = 3` -/
example : scMulAdd (List.replicate 64 7) 32 (leEnc 32 2) (leEnc 32 (L - 1)) (leEnc 32 5) = .ok (List.replicate 32 7 ++ leEnc 32 3) := by decide +kernel

end Cex.Ed25519
