import Verif.Poly.DonnaLemmas
import Mathlib.Data.Nat.ModEq

/-! # The limb arithmetic computes modulo 2^130 - 5 -/

namespace Cex.Poly
open Cex Cex.IntTools Cex.Rfc8439

namespace Limbs
def val (h : Limbs) : Nat := h.a.toNat + 2 ^ 44 * h.b.toNat + 2 ^ 88 * h.c.toNat

/-- Accumulators between blocks. -/
def Small (h : Limbs) : Prop := h.a.toNat < 2 ^ 44 ∧ h.b.toNat < 2 ^ 44 + 2 ^ 10 ∧ h.c.toNat < 2 ^ 42

/-- A clamped multiplier. -/
def Clamped (r : Limbs) : Prop := r.a.toNat < 2 ^ 44 ∧ r.b.toNat < 2 ^ 44 ∧ r.c.toNat < 2 ^ 40
end Limbs

theorem mid_limb (t0 t1 : BitVec 64) : ((t0 >>> 44) ||| (t1 <<< 20)).toNat = t0.toNat / 2 ^ 44 + t1.toNat % 2 ^ 44 * 2 ^ 20 := by
  have h0 := t0.isLt
  rw [BitVec.toNat_or, shr_nat, shl_nat, show t1.toNat * 2 ^ 20 % 2 ^ 64 = t1.toNat % 2 ^ 44 * 2 ^ 20 by omega, or_add _ _ _ (by omega)]

/-- The words of a block in limbs. -/
theorem limbs_eq (t0 t1 : BitVec 64) :
    (t0 &&& 0xFFFFFFFFFFF).toNat = t0.toNat % 2 ^ 44
      ∧ (((t0 >>> 44) ||| (t1 <<< 20)) &&& 0xFFFFFFFFFFF).toNat = t0.toNat / 2 ^ 44 + t1.toNat % 2 ^ 24 * 2 ^ 20
      ∧ ((t1 >>> 24) &&& 0x3FFFFFFFFFF).toNat = t1.toNat / 2 ^ 24 := by
  have h0 := t0.isLt
  have h1 := t1.isLt
  refine ⟨and_mask _ _ 44 rfl, ?_, ?_⟩
  · rw [and_mask _ _ 44 rfl, mid_limb]; omega
  · rw [and_mask _ _ 42 rfl, shr_nat]; omega

theorem hi_limb (t1 : BitVec 64) (hi : BitVec 64) (h : hi = 0 ∨ hi = 1#64 <<< 40) :
    (((t1 >>> 24) &&& 0x3FFFFFFFFFF) ||| hi).toNat = t1.toNat / 2 ^ 24 + hi.toNat := by
  have h1 := t1.isLt
  rw [BitVec.toNat_or, (limbs_eq 0 t1).2.2]
  rcases h with h | h
  · rw [h]; simp
  · rw [h, show (1#64 <<< 40).toNat = 1 * 2 ^ 40 from rfl, or_add _ _ _ (by omega)]

theorem reduce_nat {D0 D1 D2 h0 : Nat} (e : h0 = D0 % 2 ^ 44 + (D2 + (D1 + D0 / 2 ^ 44) / 2 ^ 44) / 2 ^ 42 * 5) :
    h0 % 2 ^ 44 + 2 ^ 44 * ((D1 + D0 / 2 ^ 44) % 2 ^ 44 + h0 / 2 ^ 44) + 2 ^ 88 * ((D2 + (D1 + D0 / 2 ^ 44) / 2 ^ 44) % 2 ^ 42)
      + p * ((D2 + (D1 + D0 / 2 ^ 44) / 2 ^ 44) / 2 ^ 42) = D0 + 2 ^ 44 * D1 + 2 ^ 88 * D2 := by
  unfold p; omega

theorem product_nat (H0 H1 H2 R0 R1 R2 : Nat) :
    (H0 + 2 ^ 44 * H1 + 2 ^ 88 * H2) * (R0 + 2 ^ 44 * R1 + 2 ^ 88 * R2)
      = (H0 * R0 + H1 * (R2 * 20) + H2 * (R1 * 20)) + 2 ^ 44 * (H0 * R1 + H1 * R0 + H2 * (R2 * 20))
        + 2 ^ 88 * (H0 * R2 + H1 * R1 + H2 * R0) + p * (4 * (H1 * R2 + H2 * R1 + 2 ^ 44 * (H2 * R2))) := by
  unfold p
  norm_num
  ring

theorem mul_bound {a b A B C : Nat} (h1 : a ≤ A) (h2 : b ≤ B) (h : A * B = C) : a * b ≤ C := h ▸ Nat.mul_le_mul h1 h2

theorem limbStep_val (hi : BitVec 64) (r : Limbs) (t0 t1 : BitVec 64) (h : Limbs) (hr : r.Clamped) (hh : h.Small) (hhi : hi = 0 ∨ hi = 1#64 <<< 40) :
    (limbStep hi r t0 t1 h).Small ∧
      (limbStep hi r t0 t1 h).val ≡ (h.val + (t0.toNat + 2 ^ 64 * t1.toNat + 2 ^ 88 * hi.toNat)) * r.val [MOD p] := by
  obtain ⟨hr0, hr1, hr2⟩ := hr
  obtain ⟨hh0, hh1, hh2⟩ := hh
  obtain ⟨l0, l1, -⟩ := limbs_eq t0 t1
  have l2 := hi_limb t1 hi hhi
  have t0l := t0.isLt
  have t1l := t1.isLt
  have hil : hi.toNat ≤ 2 ^ 40 := by rcases hhi with h | h <;> rw [h] <;> decide
  have e0 : (h.a + (t0 &&& 0xFFFFFFFFFFF)).toNat = h.a.toNat + t0.toNat % 2 ^ 44 := by rw [add_nat (by omega), l0]
  have e1 : (h.b + (((t0 >>> 44) ||| (t1 <<< 20)) &&& 0xFFFFFFFFFFF)).toNat = h.b.toNat + (t0.toNat / 2 ^ 44 + t1.toNat % 2 ^ 24 * 2 ^ 20) := by
    rw [add_nat (by omega), l1]
  have e2 : (h.c + (((t1 >>> 24) &&& 0x3FFFFFFFFFF) ||| hi)).toNat = h.c.toNat + (t1.toNat / 2 ^ 24 + hi.toNat) := by rw [add_nat (by omega), l2]
  have hN : h.val + (t0.toNat + 2 ^ 64 * t1.toNat + 2 ^ 88 * hi.toNat)
      = (h.a + (t0 &&& 0xFFFFFFFFFFF)).toNat + 2 ^ 44 * (h.b + (((t0 >>> 44) ||| (t1 <<< 20)) &&& 0xFFFFFFFFFFF)).toNat
        + 2 ^ 88 * (h.c + (((t1 >>> 24) &&& 0x3FFFFFFFFFF) ||| hi)).toNat := by
    rw [e0, e1, e2]; unfold Limbs.val; omega
  have b0 : (h.a + (t0 &&& 0xFFFFFFFFFFF)).toNat ≤ 2 ^ 45 := by rw [e0]; omega
  have b1 : (h.b + (((t0 >>> 44) ||| (t1 <<< 20)) &&& 0xFFFFFFFFFFF)).toNat ≤ 2 ^ 46 := by rw [e1]; omega
  have b2 : (h.c + (((t1 >>> 24) &&& 0x3FFFFFFFFFF) ||| hi)).toNat ≤ 2 ^ 43 := by rw [e2]; omega
  rw [hN]
  unfold limbStep
  simp only []
  generalize h.a + (t0 &&& 0xFFFFFFFFFFF) = H0 at *
  generalize h.b + (((t0 >>> 44) ||| (t1 <<< 20)) &&& 0xFFFFFFFFFFF) = H1 at *
  generalize h.c + (((t1 >>> 24) &&& 0x3FFFFFFFFFF) ||| hi) = H2 at *
  have s1 : (r.b * 20).toNat = r.b.toNat * 20 := by
    rw [BitVec.toNat_mul, show (20 : BitVec 64).toNat = 20 from rfl]; omega
  have s2 : (r.c * 20).toNat = r.c.toNat * 20 := by
    rw [BitVec.toNat_mul, show (20 : BitVec 64).toNat = 20 from rfl]; omega
  have q00 : H0.toNat * r.a.toNat ≤ 2 ^ 89 := mul_bound b0 (Nat.le_of_lt hr0) (by norm_num)
  have q01 : H0.toNat * r.b.toNat ≤ 2 ^ 89 := mul_bound b0 (Nat.le_of_lt hr1) (by norm_num)
  have q02 : H0.toNat * r.c.toNat ≤ 2 ^ 85 := mul_bound b0 (Nat.le_of_lt hr2) (by norm_num)
  have q10 : H1.toNat * r.a.toNat ≤ 2 ^ 90 := mul_bound b1 (Nat.le_of_lt hr0) (by norm_num)
  have q11 : H1.toNat * r.b.toNat ≤ 2 ^ 90 := mul_bound b1 (Nat.le_of_lt hr1) (by norm_num)
  have q12 : H1.toNat * (r.c.toNat * 20) ≤ 2 ^ 91 := mul_bound b1 (show _ ≤ 2 ^ 45 by omega) (by norm_num)
  have q20 : H2.toNat * r.a.toNat ≤ 2 ^ 87 := mul_bound b2 (Nat.le_of_lt hr0) (by norm_num)
  have q21 : H2.toNat * (r.b.toNat * 20) ≤ 2 ^ 92 := mul_bound b2 (show _ ≤ 2 ^ 49 by omega) (by norm_num)
  have q22 : H2.toNat * (r.c.toNat * 20) ≤ 2 ^ 88 := mul_bound b2 (show _ ≤ 2 ^ 45 by omega) (by norm_num)
  have d0 : (((Donna.mul H0 r.a).add (Donna.mul H1 (r.c * 20))).add (Donna.mul H2 (r.b * 20))).val
      = H0.toNat * r.a.toNat + H1.toNat * (r.c.toNat * 20) + H2.toNat * (r.b.toNat * 20) := by
    have := Donna.add_val (Donna.mul H0 r.a) (Donna.mul H1 (r.c * 20)) (by rw [Donna.mul_val, Donna.mul_val, s2]; omega)
    rw [Donna.mul_val, Donna.mul_val, s2] at this
    rw [Donna.add_val _ _ (by rw [this, Donna.mul_val, s1]; omega), this, Donna.mul_val, s1]
  have d1 : (((Donna.mul H0 r.b).add (Donna.mul H1 r.a)).add (Donna.mul H2 (r.c * 20))).val
      = H0.toNat * r.b.toNat + H1.toNat * r.a.toNat + H2.toNat * (r.c.toNat * 20) := by
    have := Donna.add_val (Donna.mul H0 r.b) (Donna.mul H1 r.a) (by rw [Donna.mul_val, Donna.mul_val]; omega)
    rw [Donna.mul_val, Donna.mul_val] at this
    rw [Donna.add_val _ _ (by rw [this, Donna.mul_val, s2]; omega), this, Donna.mul_val, s2]
  have d2 : (((Donna.mul H0 r.c).add (Donna.mul H1 r.b)).add (Donna.mul H2 r.a)).val
      = H0.toNat * r.c.toNat + H1.toNat * r.b.toNat + H2.toNat * r.a.toNat := by
    have := Donna.add_val (Donna.mul H0 r.c) (Donna.mul H1 r.b) (by rw [Donna.mul_val, Donna.mul_val]; omega)
    rw [Donna.mul_val, Donna.mul_val] at this
    rw [Donna.add_val _ _ (by rw [this, Donna.mul_val]; omega), this, Donna.mul_val]
  have hprod := product_nat H0.toNat H1.toNat H2.toNat r.a.toNat r.b.toNat r.c.toNat
  rw [← d0, ← d1, ← d2] at hprod
  have m0 : (((Donna.mul H0 r.a).add (Donna.mul H1 (r.c * 20))).add (Donna.mul H2 (r.b * 20))).val ≤ 2 ^ 93 := by rw [d0]; omega
  have m1 : (((Donna.mul H0 r.b).add (Donna.mul H1 r.a)).add (Donna.mul H2 (r.c * 20))).val ≤ 2 ^ 91 := by rw [d1]; omega
  have m2 : (((Donna.mul H0 r.c).add (Donna.mul H1 r.b)).add (Donna.mul H2 r.a)).val ≤ 2 ^ 91 := by rw [d2]; omega
  generalize ((Donna.mul H0 r.a).add (Donna.mul H1 (r.c * 20))).add (Donna.mul H2 (r.b * 20)) = D0 at *
  generalize ((Donna.mul H0 r.b).add (Donna.mul H1 r.a)).add (Donna.mul H2 (r.c * 20)) = D1 at *
  generalize ((Donna.mul H0 r.c).add (Donna.mul H1 r.b)).add (Donna.mul H2 r.a) = D2 at *
  have c0 : (D0.carryShift 44).toNat = D0.val / 2 ^ 44 := Donna.carry_val _ _ (by omega) (by omega) (by omega)
  have v1 : (D1.add64 (D0.carryShift 44)).val = D1.val + D0.val / 2 ^ 44 := by rw [Donna.add64_val _ _ (by omega), c0]
  have c1 : ((D1.add64 (D0.carryShift 44)).carryShift 44).toNat = (D1.val + D0.val / 2 ^ 44) / 2 ^ 44 := by
    rw [Donna.carry_val _ _ (by omega) (by omega) (by omega), v1]
  have v2 : (D2.add64 ((D1.add64 (D0.carryShift 44)).carryShift 44)).val = D2.val + (D1.val + D0.val / 2 ^ 44) / 2 ^ 44 := by
    rw [Donna.add64_val _ _ (by omega), c1]
  have c2 : ((D2.add64 ((D1.add64 (D0.carryShift 44)).carryShift 44)).carryShift 42).toNat = (D2.val + (D1.val + D0.val / 2 ^ 44) / 2 ^ 44) / 2 ^ 42 := by
    rw [Donna.carry_val _ _ (by omega) (by omega) (by omega), v2]
  have w0 : (D0.and 0xFFFFFFFFFFF).toNat = D0.val % 2 ^ 44 := Donna.and_val _ _ 44 (by omega) rfl
  have w1 : ((D1.add64 (D0.carryShift 44)).and 0xFFFFFFFFFFF).toNat = (D1.val + D0.val / 2 ^ 44) % 2 ^ 44 := by
    rw [Donna.and_val _ _ 44 (by omega) rfl, v1]
  have w2 : ((D2.add64 ((D1.add64 (D0.carryShift 44)).carryShift 44)).and 0x3FFFFFFFFFF).toNat = (D2.val + (D1.val + D0.val / 2 ^ 44) / 2 ^ 44) % 2 ^ 42 := by
    rw [Donna.and_val _ _ 42 (by omega) rfl, v2]
  generalize D1.add64 (D0.carryShift 44) = E1 at *
  generalize D2.add64 (E1.carryShift 44) = E2 at *
  generalize D0.and 0xFFFFFFFFFFF = g0 at *
  generalize E1.and 0xFFFFFFFFFFF = g1 at *
  generalize E2.and 0x3FFFFFFFFFF = g2 at *
  generalize E2.carryShift 42 = c at *
  have k5 : (c * 5).toNat = c.toNat * 5 := by
    rw [BitVec.toNat_mul, show (5 : BitVec 64).toNat = 5 from rfl]; omega
  have x0 : (g0 + c * 5).toNat = g0.toNat + c.toNat * 5 := by rw [add_nat (by omega), k5]
  have y0 : ((g0 + c * 5) &&& 0xFFFFFFFFFFF).toNat = (g0.toNat + c.toNat * 5) % 2 ^ 44 := by rw [and_mask _ _ 44 rfl, x0]
  have y1 : (g1 + ((g0 + c * 5) >>> 44)).toNat = g1.toNat + (g0.toNat + c.toNat * 5) / 2 ^ 44 := by
    rw [add_nat (by rw [shr_nat]; omega), shr_nat, x0]
  refine ⟨⟨?_, ?_, ?_⟩, ?_⟩
  · simp only []; omega
  · simp only []; omega
  · simp only []; omega
  · unfold Limbs.val
    simp only []
    rw [hprod, y0, y1]
    have := reduce_nat (D0 := D0.val) (D1 := D1.val) (D2 := D2.val) (h0 := g0.toNat + c.toNat * 5) (by rw [w0, c2])
    rw [← w1, ← w2, ← c2] at this
    rw [← this]
    unfold Nat.ModEq
    rw [Nat.add_mul_mod_self_left, Nat.add_mul_mod_self_left]

/-! ## Finalisation -/

theorem p_eq : p = 1361129467683753853853498429727072845819 := by unfold p; norm_num

theorem finCarry_val (h : Limbs) (hh : h.Small) :
    (finCarry h).a.toNat < 2 ^ 44 ∧ (finCarry h).b.toNat < 2 ^ 44 ∧ (finCarry h).c.toNat < 2 ^ 42 ∧ (finCarry h).val ≡ h.val [MOD p] := by
  obtain ⟨a, b, c⟩ := h
  obtain ⟨hh0, hh1, hh2⟩ := hh
  simp only [] at hh0 hh1 hh2
  have five (c : BitVec 64) (h : c.toNat < 2 ^ 60) : (c * 5).toNat = c.toNat * 5 := by
    rw [BitVec.toNat_mul, show (5 : BitVec 64).toNat = 5 from rfl]; omega
  unfold finCarry
  simp only []
  have x1 : (c + (b >>> 44)).toNat = c.toNat + b.toNat / 2 ^ 44 := by rw [add_nat (by rw [shr_nat]; omega), shr_nat]
  have y1 : (b &&& 0xFFFFFFFFFFF).toNat = b.toNat % 2 ^ 44 := and_mask _ _ 44 rfl
  generalize c + (b >>> 44) = c1 at *
  generalize b &&& 0xFFFFFFFFFFF = b1 at *
  have x2 : (a + (c1 >>> 42) * 5).toNat = a.toNat + c1.toNat / 2 ^ 42 * 5 := by
    have := five (c1 >>> 42) (by rw [shr_nat]; omega)
    rw [shr_nat] at this
    rw [add_nat (by rw [this]; omega), this]
  have y2 : (c1 &&& 0x3FFFFFFFFFF).toNat = c1.toNat % 2 ^ 42 := and_mask _ _ 42 rfl
  generalize a + (c1 >>> 42) * 5 = a1 at *
  generalize c1 &&& 0x3FFFFFFFFFF = c2 at *
  have x3 : (b1 + (a1 >>> 44)).toNat = b1.toNat + a1.toNat / 2 ^ 44 := by rw [add_nat (by rw [shr_nat]; omega), shr_nat]
  have y3 : (a1 &&& 0xFFFFFFFFFFF).toNat = a1.toNat % 2 ^ 44 := and_mask _ _ 44 rfl
  generalize b1 + (a1 >>> 44) = b2 at *
  generalize a1 &&& 0xFFFFFFFFFFF = a2 at *
  have x4 : (c2 + (b2 >>> 44)).toNat = c2.toNat + b2.toNat / 2 ^ 44 := by rw [add_nat (by rw [shr_nat]; omega), shr_nat]
  have y4 : (b2 &&& 0xFFFFFFFFFFF).toNat = b2.toNat % 2 ^ 44 := and_mask _ _ 44 rfl
  generalize c2 + (b2 >>> 44) = c3 at *
  generalize b2 &&& 0xFFFFFFFFFFF = b3 at *
  have x5 : (a2 + (c3 >>> 42) * 5).toNat = a2.toNat + c3.toNat / 2 ^ 42 * 5 := by
    have := five (c3 >>> 42) (by rw [shr_nat]; omega)
    rw [shr_nat] at this
    rw [add_nat (by rw [this]; omega), this]
  have y5 : (c3 &&& 0x3FFFFFFFFFF).toNat = c3.toNat % 2 ^ 42 := and_mask _ _ 42 rfl
  generalize a2 + (c3 >>> 42) * 5 = a3 at *
  generalize c3 &&& 0x3FFFFFFFFFF = c4 at *
  have x6 : (b3 + (a3 >>> 44)).toNat = b3.toNat + a3.toNat / 2 ^ 44 := by rw [add_nat (by rw [shr_nat]; omega), shr_nat]
  have y6 : (a3 &&& 0xFFFFFFFFFFF).toNat = a3.toNat % 2 ^ 44 := and_mask _ _ 44 rfl
  generalize b3 + (a3 >>> 44) = b4 at *
  generalize a3 &&& 0xFFFFFFFFFFF = a4 at *
  refine ⟨by omega, by omega, by omega, ?_⟩
  unfold Limbs.val Nat.ModEq
  simp only []
  have key : a4.toNat + 2 ^ 44 * b4.toNat + 2 ^ 88 * c4.toNat + p * (c1.toNat / 2 ^ 42 + c3.toNat / 2 ^ 42) = a.toNat + 2 ^ 44 * b.toNat + 2 ^ 88 * c.toNat := by
    rw [p_eq]; omega
  rw [← key, Nat.add_mul_mod_self_left]

theorem finSelect_val (h : Limbs) (h0 : h.a.toNat < 2 ^ 44) (h1 : h.b.toNat < 2 ^ 44) (h2 : h.c.toNat < 2 ^ 42) :
    (finSelect h).a.toNat < 2 ^ 44 ∧ (finSelect h).b.toNat < 2 ^ 44 ∧ (finSelect h).c.toNat < 2 ^ 42 ∧ (finSelect h).val = h.val % p := by
  obtain ⟨a, b, c⟩ := h
  simp only [] at h0 h1 h2
  unfold finSelect
  simp only []
  have x0 : (a + 5).toNat = a.toNat + 5 := by rw [add_nat (by rw [show (5 : BitVec 64).toNat = 5 from rfl]; omega)]; rfl
  generalize a + 5 = a1 at *
  have x1 : (b + (a1 >>> 44)).toNat = b.toNat + a1.toNat / 2 ^ 44 := by rw [add_nat (by rw [shr_nat]; omega), shr_nat]
  generalize b + (a1 >>> 44) = b1 at *
  have y0 : (a1 &&& 0xFFFFFFFFFFF).toNat = a1.toNat % 2 ^ 44 := and_mask _ _ 44 rfl
  have y1 : (b1 &&& 0xFFFFFFFFFFF).toNat = b1.toNat % 2 ^ 44 := and_mask _ _ 44 rfl
  generalize a1 &&& 0xFFFFFFFFFFF = a2 at *
  generalize b1 &&& 0xFFFFFFFFFFF = b2 at *
  have x2 : (c + ((b1 >>> 44) - (1#64 <<< 42))).toNat = (c.toNat + b1.toNat / 2 ^ 44 + (2 ^ 64 - 2 ^ 42)) % 2 ^ 64 := by
    rw [BitVec.toNat_add, BitVec.toNat_sub, shr_nat, show (1#64 <<< 42).toNat = 2 ^ 42 from rfl]
    omega
  generalize c + ((b1 >>> 44) - (1#64 <<< 42)) = c1 at *
  by_cases hc : c.toNat + b1.toNat / 2 ^ 44 < 2 ^ 42
  · have hb : c1 >>> 63 = 1 := by
      apply BitVec.eq_of_toNat_eq
      rw [shr_nat, show (1 : BitVec 64).toNat = 1 from rfl]; omega
    have e : c1 >>> 63 - 1 = 0 := by rw [hb]; rfl
    rw [e]
    have z (x : BitVec 64) (y : BitVec 64) : (x &&& ~~~(0 : BitVec 64)) ||| (y &&& 0) = x := by
      rw [show ~~~(0 : BitVec 64) = BitVec.allOnes 64 from rfl, BitVec.and_allOnes, show y &&& 0 = 0#64 from BitVec.and_zero, BitVec.or_zero]
    rw [z, z, z]
    refine ⟨h0, h1, h2, ?_⟩
    unfold Limbs.val
    simp only []
    rw [Nat.mod_eq_of_lt]
    rw [p_eq]; omega
  · have hb : c1 >>> 63 = 0 := by
      apply BitVec.eq_of_toNat_eq
      rw [shr_nat, show (0 : BitVec 64).toNat = 0 from rfl]; omega
    have e : c1 >>> 63 - 1 = BitVec.allOnes 64 := by rw [hb]; rfl
    rw [e]
    have z (x : BitVec 64) (y : BitVec 64) : (x &&& ~~~(BitVec.allOnes 64)) ||| (y &&& BitVec.allOnes 64) = y := by
      rw [show ~~~(BitVec.allOnes 64) = 0#64 from rfl, BitVec.and_allOnes, BitVec.and_zero, BitVec.zero_or]
    rw [z, z, z]
    refine ⟨by omega, by omega, by omega, ?_⟩
    unfold Limbs.val
    simp only []
    have : a.toNat + 2 ^ 44 * b.toNat + 2 ^ 88 * c.toNat = (a2.toNat + 2 ^ 44 * b2.toNat + 2 ^ 88 * c1.toNat) + p * 1 := by
      rw [p_eq]; omega
    rw [this, Nat.add_mul_mod_self_left, Nat.mod_eq_of_lt]
    rw [p_eq]; omega

theorem finPad_val (t0 t1 : BitVec 64) (h : Limbs) (h0 : h.a.toNat < 2 ^ 44) (h1 : h.b.toNat < 2 ^ 44) (h2 : h.c.toNat < 2 ^ 42) :
    (finPad t0 t1 h).1.toNat + 2 ^ 64 * (finPad t0 t1 h).2.toNat = (h.val + (t0.toNat + 2 ^ 64 * t1.toNat)) % 2 ^ 128 := by
  obtain ⟨a, b, c⟩ := h
  simp only [] at h0 h1 h2
  obtain ⟨l0, l1, l2⟩ := limbs_eq t0 t1
  have t0l := t0.isLt
  have t1l := t1.isLt
  unfold finPad
  simp only []
  generalize t0 &&& 0xFFFFFFFFFFF = u0 at *
  generalize ((t0 >>> 44) ||| (t1 <<< 20)) &&& 0xFFFFFFFFFFF = u1 at *
  generalize (t1 >>> 24) &&& 0x3FFFFFFFFFF = u2 at *
  have x0 : (a + u0).toNat = a.toNat + u0.toNat := add_nat (by omega)
  generalize a + u0 = a1 at *
  have x1 : (b + (u1 + (a1 >>> 44))).toNat = b.toNat + (u1.toNat + a1.toNat / 2 ^ 44) := by
    have : (u1 + (a1 >>> 44)).toNat = u1.toNat + a1.toNat / 2 ^ 44 := by rw [add_nat (by rw [shr_nat]; omega), shr_nat]
    rw [add_nat (by omega), this]
  generalize b + (u1 + (a1 >>> 44)) = b1 at *
  have x2 : (c + (u2 + (b1 >>> 44))).toNat = c.toNat + (u2.toNat + b1.toNat / 2 ^ 44) := by
    have : (u2 + (b1 >>> 44)).toNat = u2.toNat + b1.toNat / 2 ^ 44 := by rw [add_nat (by rw [shr_nat]; omega), shr_nat]
    rw [add_nat (by omega), this]
  generalize c + (u2 + (b1 >>> 44)) = c1 at *
  have y0 : (a1 &&& 0xFFFFFFFFFFF).toNat = a1.toNat % 2 ^ 44 := and_mask _ _ 44 rfl
  have y1 : (b1 &&& 0xFFFFFFFFFFF).toNat = b1.toNat % 2 ^ 44 := and_mask _ _ 44 rfl
  have y2 : (c1 &&& 0x3FFFFFFFFFF).toNat = c1.toNat % 2 ^ 42 := and_mask _ _ 42 rfl
  generalize a1 &&& 0xFFFFFFFFFFF = a2 at *
  generalize b1 &&& 0xFFFFFFFFFFF = b2 at *
  generalize c1 &&& 0x3FFFFFFFFFF = c2 at *
  have z0 : (a2 ||| (b2 <<< 44)).toNat = a2.toNat + b2.toNat % 2 ^ 20 * 2 ^ 44 := by
    rw [BitVec.toNat_or, shl_nat, show b2.toNat * 2 ^ 44 % 2 ^ 64 = b2.toNat % 2 ^ 20 * 2 ^ 44 by omega, or_add _ _ _ (by omega)]
  have z1 : ((b2 >>> 20) ||| (c2 <<< 24)).toNat = b2.toNat / 2 ^ 20 + c2.toNat % 2 ^ 40 * 2 ^ 24 := by
    rw [BitVec.toNat_or, shr_nat, shl_nat, show c2.toNat * 2 ^ 24 % 2 ^ 64 = c2.toNat % 2 ^ 40 * 2 ^ 24 by omega, or_add _ _ _ (by omega)]
  rw [z0, z1]
  unfold Limbs.val
  simp only []
  omega

/-! ## Clamping -/

theorem land_split (x k c d : Nat) (h : d < 2 ^ k) : x &&& (c * 2 ^ k + d) = ((x / 2 ^ k) &&& c) * 2 ^ k + ((x % 2 ^ k) &&& d) := by
  have hd : (x &&& (c * 2 ^ k + d)) / 2 ^ k = (x / 2 ^ k) &&& c := by
    rw [Nat.and_div_two_pow]
    congr 1
    rw [Nat.mul_comm, Nat.mul_add_div (Nat.two_pow_pos _), Nat.div_eq_of_lt h, Nat.add_zero]
  have hm : (x &&& (c * 2 ^ k + d)) % 2 ^ k = (x % 2 ^ k) &&& d := by
    rw [Nat.and_mod_two_pow, Nat.mul_comm, Nat.mul_add_mod, Nat.mod_eq_of_lt h]
  rw [← Nat.div_add_mod (x &&& (c * 2 ^ k + d)) (2 ^ k), hd, hm, Nat.mul_comm]

theorem land_low (x k d : Nat) (h : d < 2 ^ k) : x &&& d = (x % 2 ^ k) &&& d := by
  have := land_split x k 0 d h
  simpa using this

def clampLimbs (t0 t1 : BitVec 64) : Limbs :=
  ⟨t0 &&& 0xFFC0FFFFFFF, ((t0 >>> 44) ||| (t1 <<< 20)) &&& 0xFFFFFC0FFFF, (t1 >>> 24) &&& 0x00FFFFFFC0F⟩

theorem clampLimbs_val (t0 t1 : BitVec 64) :
    (clampLimbs t0 t1).Clamped ∧ (clampLimbs t0 t1).val = (t0.toNat + 2 ^ 64 * t1.toNat) &&& 0x0ffffffc0ffffffc0ffffffc0fffffff := by
  have h0 := t0.isLt
  have h1 := t1.isLt
  have bd (x : BitVec 64) (m : BitVec 64) (k : Nat) (h : m.toNat < 2 ^ k) : (x &&& m).toNat < 2 ^ k := by
    rw [BitVec.toNat_and]; exact Nat.lt_of_le_of_lt Nat.and_le_right h
  refine ⟨⟨bd _ _ _ (by decide), bd _ _ _ (by decide), bd _ _ _ (by decide)⟩, ?_⟩
  rw [show (0x0ffffffc0ffffffc0ffffffc0fffffff : Nat) = (0x00FFFFFFC0F * 2 ^ 44 + 0xFFFFFC0FFFF) * 2 ^ 44 + 0xFFC0FFFFFFF by norm_num,
    land_split _ 44 _ _ (by norm_num), land_split _ 44 _ _ (by norm_num)]
  unfold Limbs.val clampLimbs
  simp only []
  rw [BitVec.toNat_and, BitVec.toNat_and, BitVec.toNat_and, mid_limb, shr_nat]
  simp only [show (0xFFC0FFFFFFF : BitVec 64).toNat = 0xFFC0FFFFFFF from rfl, show (0xFFFFFC0FFFF : BitVec 64).toNat = 0xFFFFFC0FFFF from rfl,
    show (0x00FFFFFFC0F : BitVec 64).toNat = 0x00FFFFFFC0F from rfl]
  rw [land_low t0.toNat 44 _ (by norm_num), land_low (t0.toNat / 2 ^ 44 + t1.toNat % 2 ^ 44 * 2 ^ 20) 44 _ (by norm_num),
    show t0.toNat % 2 ^ 44 = (t0.toNat + 2 ^ 64 * t1.toNat) % 2 ^ 44 by omega,
    show (t0.toNat / 2 ^ 44 + t1.toNat % 2 ^ 44 * 2 ^ 20) % 2 ^ 44 = (t0.toNat + 2 ^ 64 * t1.toNat) / 2 ^ 44 % 2 ^ 44 by omega,
    show t1.toNat / 2 ^ 24 = (t0.toNat + 2 ^ 64 * t1.toNat) / 2 ^ 44 / 2 ^ 44 by omega]
  ring

end Cex.Poly
