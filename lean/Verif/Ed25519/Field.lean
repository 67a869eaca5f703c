import Verif.Ed25519.Ops
import Verif.Ed25519.Edwards
import Verif.Ec25519.Agreement

/-!
# The field operations as operations of `ZMod P`
-/

namespace Cex.Ed25519

open Cex.Ec25519

local infixl:65 " +! " => addC
local infixl:70 " *! " => mulC

/-- the field -/
abbrev Fp := ZMod P

/-- the limbs are within `k` times those of a carried element and stand for `a` -/
def Is (k : Nat) (f : F10) (a : Fp) : Prop := f.Bd k ∧ ((f.val : Int) : Fp) = a

theorem zP : (((P : Nat) : Int) : Fp) = 0 := by rw [Int.cast_natCast]; exact kP

theorem Is.mono {j k : Nat} {f : F10} {a : Fp} (h : Is j f a) (hjk : j ≤ k) : Is k f a := ⟨h.1.mono hjk, h.2⟩

theorem Is.mul {f g : F10} {j k : Nat} {a b : Fp} (hf : Is j f a) (hg : Is k g b) (hj : j ≤ 3) (hk : k ≤ 3) : ∃ r, f.mul g = .ok r ∧ Is 1 r (a * b) := by
  obtain ⟨r, e, h, c, hv⟩ := F10.mul_ok (hf.1.mono hj) (hg.1.mono hk)
  exact ⟨r, e, h, by rw [hv, Int.cast_sub, Int.cast_mul, Int.cast_mul, zP, hf.2, hg.2, mul_zero, sub_zero]⟩

theorem Is.sq {f : F10} {j : Nat} {a : Fp} (hf : Is j f a) (hj : j ≤ 3) : ∃ r, f.sq = .ok r ∧ Is 1 r (a * a) := by
  obtain ⟨r, e, h, c, hv⟩ := F10.sq_ok (hf.1.mono hj)
  exact ⟨r, e, h, by rw [hv, Int.cast_sub, Int.cast_mul, Int.cast_mul, zP, hf.2, mul_zero, sub_zero]⟩

theorem Is.add {f g : F10} {j k : Nat} {a b : Fp} (hf : Is j f a) (hg : Is k g b) (h : j + k ≤ 3) : ∃ r, f.add g = .ok r ∧ Is (j + k) r (a + b) := by
  obtain ⟨r, e, h, hv⟩ := F10.add_ok hf.1 hg.1 h
  exact ⟨r, e, h, by rw [hv, Int.cast_add, hf.2, hg.2]⟩

theorem Is.sub {f g : F10} {j k : Nat} {a b : Fp} (hf : Is j f a) (hg : Is k g b) (h : j + k ≤ 3) : ∃ r, f.sub g = .ok r ∧ Is (j + k) r (a - b) := by
  obtain ⟨r, e, h, hv⟩ := F10.sub_ok hf.1 hg.1 h
  exact ⟨r, e, h, by rw [hv, Int.cast_sub, hf.2, hg.2]⟩

theorem Is.neg {f : F10} {j : Nat} {a : Fp} (hf : Is j f a) (hj : j ≤ 3) : ∃ r, fneg f = .ok r ∧ Is j r (-a) := by
  have t : ∀ {x : Int}, x.natAbs ≤ j * U → ck32 (-x) = .ok (-x) := fun {x} a =>
    ck32_ok (by rw [Int.natAbs_neg]; exact a.trans_lt ((Nat.mul_le_mul_right _ hj).trans_lt (by decide)))
  have t' : ∀ {x : Int}, x.natAbs ≤ j * V → ck32 (-x) = .ok (-x) := fun {x} a =>
    ck32_ok (by rw [Int.natAbs_neg]; exact a.trans_lt ((Nat.mul_le_mul_right _ hj).trans_lt (by decide)))
  have h := hf.1
  have n : ∀ {x : Int} {k : Nat}, x.natAbs ≤ k → (-x).natAbs ≤ k := fun a => by rwa [Int.natAbs_neg]
  refine ⟨⟨-f.a0, -f.a1, -f.a2, -f.a3, -f.a4, -f.a5, -f.a6, -f.a7, -f.a8, -f.a9⟩, ?_, ⟨n h.b0, n h.b1, n h.b2, n h.b3, n h.b4, n h.b5, n h.b6, n h.b7, n h.b8, n h.b9⟩, ?_⟩
  · rw [fneg, t h.b0, t' h.b1, t h.b2, t' h.b3, t h.b4, t' h.b5, t h.b6, t' h.b7, t h.b8, t' h.b9]
    rfl
  · rw [← hf.2, ← Int.cast_neg]
    congr 1
    simp only [F10.val]
    ring

theorem sq2_val (f : F10) (hf : f.Bd 3) : ∃ r, sq2 f = .ok r ∧ r.Bd 1 ∧ ∃ c : Int, r.val = 2 * (f.val * f.val) - c * P := by
  obtain ⟨e0, b0⟩ := sq_h0 hf
  obtain ⟨e1, b1⟩ := sq_h1 hf
  obtain ⟨e2, b2⟩ := sq_h2 hf
  obtain ⟨e3, b3⟩ := sq_h3 hf
  obtain ⟨e4, b4⟩ := sq_h4 hf
  obtain ⟨e5, b5⟩ := sq_h5 hf
  obtain ⟨e6, b6⟩ := sq_h6 hf
  obtain ⟨e7, b7⟩ := sq_h7 hf
  obtain ⟨e8, b8⟩ := sq_h8 hf
  obtain ⟨e9, b9⟩ := sq_h9 hf
  have D : ∀ {x : Int} {n : Nat}, x.natAbs ≤ n → n ≤ 3 * 2 ^ 59 → (x + x).natAbs ≤ 3 * 2 ^ 60 := fun a b => by omega
  have d0 := D b0 (by decide)
  have d1 := D b1 (by decide)
  have d2 := D b2 (by decide)
  have d3 := D b3 (by decide)
  have d4 := D b4 (by decide)
  have d5 := D b5 (by decide)
  have d6 := D b6 (by decide)
  have d7 := D b7 (by decide)
  have d8 := D b8 (by decide)
  have d9 := D b9 (by decide)
  obtain ⟨r, er, br, c, hc⟩ := carryMul_ok d0 d1 d2 d3 d4 d5 d6 d7 d8 d9
  have k : ∀ {x : Int}, x.natAbs ≤ 3 * 2 ^ 60 → ck64 x = .ok x := fun a => ck64_ok (a.trans_lt (by decide))
  refine ⟨r, ?_, br, c + 2 * (2 ^ 1 * (f.a1 * f.a9) + 2 ^ 0 * (f.a2 * f.a8) + 2 ^ 26 * (f.a2 * f.a9) + 2 ^ 1 * (f.a3 * f.a7) + 2 ^ 26 * (f.a3 * f.a8) + 2 ^ 52 * (f.a3 * f.a9) + 2 ^ 0 * (f.a4 * f.a6) + 2 ^ 26 * (f.a4 * f.a7) + 2 ^ 51 * (f.a4 * f.a8) + 2 ^ 77 * (f.a4 * f.a9) + 2 ^ 1 * (f.a5 * f.a5) + 2 ^ 26 * (f.a5 * f.a6) + 2 ^ 52 * (f.a5 * f.a7) + 2 ^ 77 * (f.a5 * f.a8) + 2 ^ 103 * (f.a5 * f.a9) + 2 ^ 0 * (f.a6 * f.a4) + 2 ^ 26 * (f.a6 * f.a5) + 2 ^ 51 * (f.a6 * f.a6) + 2 ^ 77 * (f.a6 * f.a7) + 2 ^ 102 * (f.a6 * f.a8) + 2 ^ 128 * (f.a6 * f.a9) + 2 ^ 1 * (f.a7 * f.a3) + 2 ^ 26 * (f.a7 * f.a4) + 2 ^ 52 * (f.a7 * f.a5) + 2 ^ 77 * (f.a7 * f.a6) + 2 ^ 103 * (f.a7 * f.a7) + 2 ^ 128 * (f.a7 * f.a8) + 2 ^ 154 * (f.a7 * f.a9) + 2 ^ 0 * (f.a8 * f.a2) + 2 ^ 26 * (f.a8 * f.a3) + 2 ^ 51 * (f.a8 * f.a4) + 2 ^ 77 * (f.a8 * f.a5) + 2 ^ 102 * (f.a8 * f.a6) + 2 ^ 128 * (f.a8 * f.a7) + 2 ^ 153 * (f.a8 * f.a8) + 2 ^ 179 * (f.a8 * f.a9) + 2 ^ 1 * (f.a9 * f.a1) + 2 ^ 26 * (f.a9 * f.a2) + 2 ^ 52 * (f.a9 * f.a3) + 2 ^ 77 * (f.a9 * f.a4) + 2 ^ 103 * (f.a9 * f.a5) + 2 ^ 128 * (f.a9 * f.a6) + 2 ^ 154 * (f.a9 * f.a7) + 2 ^ 179 * (f.a9 * f.a8) + 2 ^ 205 * (f.a9 * f.a9)), ?_⟩
  · unfold sq2
    dsimp only
    rw [e0, ok_bind, e1, ok_bind, e2, ok_bind, e3, ok_bind, e4, ok_bind, e5, ok_bind, e6, ok_bind, e7, ok_bind, e8, ok_bind, e9, ok_bind,
      k d0, ok_bind, k d1, ok_bind, k d2, ok_bind, k d3, ok_bind, k d4, ok_bind, k d5, ok_bind, k d6, ok_bind, k d7, ok_bind, k d8, ok_bind, k d9, ok_bind]
    exact er
  · rw [hc]
    simp only [F10.val, P]
    push_cast
    ring

theorem Is.sq2 {f : F10} {j : Nat} {a : Fp} (hf : Is j f a) (hj : j ≤ 3) : ∃ r, sq2 f = .ok r ∧ Is 1 r (2 * (a * a)) := by
  obtain ⟨r, e, h, c, hv⟩ := sq2_val f (hf.1.mono hj)
  exact ⟨r, e, h, by rw [hv, Int.cast_sub, Int.cast_mul, Int.cast_mul, Int.cast_mul, zP, hf.2, mul_zero, sub_zero]; norm_num⟩

theorem Is.rep {f : F10} {k : Nat} {a : Fp} (h : Is k f a) : f.Rep k (a.val : Int) := by
  refine ⟨h.1, ?_⟩
  rw [← ZMod.intCast_eq_intCast_iff, h.2]
  simp

theorem Is.ofRep {f : F10} {k : Nat} {n : Int} (h : f.Rep k n) : Is k f (n : Fp) := by
  refine ⟨h.1, ?_⟩
  exact (ZMod.intCast_eq_intCast_iff _ _ _).mpr h.2

/-- the inverse, 0 for 0 -/
theorem Is.invert {f : F10} {k : Nat} {a : Fp} (hf : Is k f a) (hk : k ≤ 3) : ∃ r, f.invert = .ok r ∧ Is 1 r a⁻¹ := by
  obtain ⟨r, e, h⟩ := F10.invert_ok (z := f) (x := a.val) ⟨hf.rep.1.mono hk, hf.rep.2⟩
  refine ⟨r, e, ?_⟩
  have := Is.ofRep h
  rw [Int.cast_pow, Int.cast_natCast, ZMod.natCast_zmod_val] at this
  by_cases h0 : a = 0
  · rw [h0, inv_zero]; rwa [h0, zero_pow (by decide)] at this
  · have f1 := ZMod.pow_card_sub_one_eq_one h0
    have e2 : a ^ (P - 2) = a⁻¹ := by
      apply eq_inv_of_mul_eq_one_left
      rw [← pow_succ, show P - 2 + 1 = P - 1 by decide, f1]
    rwa [e2] at this

theorem Is.toBytes {W : Nat} (hW : W = 32 ∨ W = 64) {f : F10} {a : Fp} (hf : Is 1 f a) {s : List Byte} (hs : s.length = 32) :
    f.toBytes W s = .ok (leEnc 32 a.val) :=
  F10.Rep.toBytes hW hf.rep (ZMod.val_lt a) hs

theorem one_is : Is 1 F10.one 1 := by have := Is.ofRep one_rep; simpa using this
theorem zero_is : Is 1 F10.zero 0 := by have := Is.ofRep zero_rep; simpa using this

theorem fmov_swap (f g : F10) (B : BitVec 32) : fmov f g B = (f.cSwap g B).1 := rfl
theorem fmov_zero {f g : F10} (hf : f.Bd 3) (hg : g.Bd 3) : fmov f g 0 = f := by rw [fmov_swap, F10.cSwap_zero hf hg]
theorem fmov_one {f g : F10} (hf : f.Bd 3) (hg : g.Bd 3) : fmov f g 1 = g := by rw [fmov_swap, F10.cSwap_one hf hg]

end Cex.Ed25519
