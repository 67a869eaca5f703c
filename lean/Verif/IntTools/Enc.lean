import Verif.IntTools.Props

/-! # Digit encodings -/

namespace Cex
open Cex.IntTools

@[simp] theorem leEnc_length (n v : Nat) : (leEnc n v).length = n := by
  induction n generalizing v with
  | zero => rfl
  | succ n ih => simp [leEnc, ih]

@[simp] theorem beEnc_length (n v : Nat) : (beEnc n v).length = n := by simp [beEnc]

theorem leVal_leEnc (n v : Nat) : leVal (leEnc n v) = v % 256 ^ n := by
  induction n generalizing v with
  | zero => simp [leEnc, leVal, Nat.mod_one]
  | succ n ih =>
    rw [leEnc, leVal, ih, BitVec.toNat_ofNat, Nat.pow_succ' (m := 256), Nat.mod_mul (x := v) (a := 256)]

theorem leEnc_leVal (x : List Byte) : leEnc x.length (leVal x) = x := by
  induction x with
  | nil => rfl
  | cons b x ih =>
    have hb := b.isLt
    rw [List.length_cons, leEnc, leVal]
    have h1 : (b.toNat + 256 * leVal x) / 256 = leVal x := by omega
    rw [h1, ih]
    congr 1
    apply BitVec.eq_of_toNat_eq
    rw [BitVec.toNat_ofNat]; omega

theorem beVal_beEnc (n v : Nat) : beVal (beEnc n v) = v % 256 ^ n := by
  rw [beEnc, beVal_reverse, leVal_leEnc]

theorem beEnc_beVal (x : List Byte) : beEnc x.length (beVal x) = x := by
  have h := leEnc_leVal x.reverse
  rw [leVal_reverse, List.length_reverse] at h
  rw [beEnc, h, List.reverse_reverse]

theorem leEnc_mod (n v : Nat) : leEnc n (v % 256 ^ n) = leEnc n v := by
  have h := leEnc_leVal (leEnc n v)
  rwa [leVal_leEnc, leEnc_length] at h

theorem beEnc_mod (n v : Nat) : beEnc n (v % 256 ^ n) = beEnc n v := by rw [beEnc, leEnc_mod]; rfl

/-- A byte string is determined by its length and value. -/
theorem eq_leEnc {x : List Byte} {n v : Nat} (hl : x.length = n) (h : leVal x = v % 256 ^ n) : x = leEnc n v := by
  rw [← leEnc_mod, ← h, ← hl, leEnc_leVal]

theorem eq_beEnc {x : List Byte} {n v : Nat} (hl : x.length = n) (h : beVal x = v % 256 ^ n) : x = beEnc n v := by
  rw [← beEnc_mod, ← h, ← hl, beEnc_beVal]

end Cex
