import Verif.Ec25519.ReduceLemmas

/-!
# The bytes of a canonical element
-/

namespace Cex.Ec25519

theorem lo_toNat {x n : Nat} (hx : x < 2 ^ 31) : (lo (BitVec.ofNat 32 x) n).toNat = x / 2 ^ n % 256 := by
  have e : (BitVec.ofNat 32 x).toNat = x := by rw [BitVec.toNat_ofNat]; omega
  have m : (BitVec.ofNat 32 x).msb = false := by rw [BitVec.msb_eq_decide, e]; simp; omega
  rw [lo, BitVec.sshiftRight_eq_of_msb_false m, BitVec.toNat_setWidth, BitVec.toNat_ushiftRight, e, Nat.shiftRight_eq_div_pow]

theorem mix_toNat {x u n m : Nat} (hx : x < 2 ^ 31) (hu : u < 2 ^ 26) (hn : x / 2 ^ n < 2 ^ m) (hm : m ≤ 6) :
    (mix (BitVec.ofNat 32 x) n (BitVec.ofNat 32 u) m).toNat = x / 2 ^ n + 2 ^ m * (u % 2 ^ (8 - m)) := by
  have e : (BitVec.ofNat 32 x).toNat = x := by rw [BitVec.toNat_ofNat]; omega
  have f : (BitVec.ofNat 32 u).toNat = u := by rw [BitVec.toNat_ofNat]; omega
  have k : (BitVec.ofNat 32 x).msb = false := by rw [BitVec.msb_eq_decide, e]; simp; omega
  have p : 2 ^ m ≤ 2 ^ 6 := Nat.pow_le_pow_right (by decide) hm
  rw [mix, BitVec.sshiftRight_eq_of_msb_false k, BitVec.toNat_setWidth, BitVec.toNat_or, BitVec.toNat_ushiftRight, e, BitVec.toNat_mul, f,
    BitVec.toNat_ofNat, Nat.shiftRight_eq_div_pow, Nat.mod_eq_of_lt (show 2 ^ m < 2 ^ 32 by omega),
    Nat.mod_eq_of_lt (show u * 2 ^ m < 2 ^ 32 by
      calc u * 2 ^ m < 2 ^ 26 * 2 ^ 6 := Nat.mul_lt_mul_of_lt_of_le hu p (by decide)
        _ = 2 ^ 32 := by decide), Nat.or_comm, Nat.mul_comm, ← Nat.two_pow_add_eq_or_of_lt hn]
  generalize x / 2 ^ n = a at *
  have : m = 0 ∨ m = 1 ∨ m = 2 ∨ m = 3 ∨ m = 4 ∨ m = 5 ∨ m = 6 := by omega
  rcases this with rfl | rfl | rfl | rfl | rfl | rfl | rfl <;> simp only [Nat.reducePow, Nat.reduceSub] at * <;> omega

theorem F10.bytes_ok {t : F10} (h : t.Canon) : t.bytes = leEnc 32 t.val.toNat := by
  obtain ⟨a0, a1, a2, a3, a4, a5, a6, a7, a8, a9⟩ := t
  obtain ⟨b0, b1, b2, b3, b4, b5, b6, b7, b8, b9⟩ := h
  have I : ∀ {x : Int} {n : Nat}, 0 ≤ x ∧ x < 2 ^ n → ∃ y : Nat, x = y ∧ y < 2 ^ n := fun {x n} h =>
    ⟨x.toNat, by omega, by
      have : ((x.toNat : Nat) : Int) < ((2 ^ n : Nat) : Int) := by rw [Int.toNat_of_nonneg h.1]; push_cast; exact h.2
      exact_mod_cast this⟩
  obtain ⟨n0, rfl, g0⟩ := I b0
  obtain ⟨n1, rfl, g1⟩ := I b1
  obtain ⟨n2, rfl, g2⟩ := I b2
  obtain ⟨n3, rfl, g3⟩ := I b3
  obtain ⟨n4, rfl, g4⟩ := I b4
  obtain ⟨n5, rfl, g5⟩ := I b5
  obtain ⟨n6, rfl, g6⟩ := I b6
  obtain ⟨n7, rfl, g7⟩ := I b7
  obtain ⟨n8, rfl, g8⟩ := I b8
  obtain ⟨n9, rfl, g9⟩ := I b9
  clear b0 b1 b2 b3 b4 b5 b6 b7 b8 b9
  have hV : (F10.val ⟨n0, n1, n2, n3, n4, n5, n6, n7, n8, n9⟩).toNat =
      n0 + 2 ^ 26 * n1 + 2 ^ 51 * n2 + 2 ^ 77 * n3 + 2 ^ 102 * n4 + 2 ^ 128 * n5 + 2 ^ 153 * n6 + 2 ^ 179 * n7 + 2 ^ 204 * n8 + 2 ^ 230 * n9 := by
    simp only [F10.val]; exact_mod_cast Int.toNat_natCast _
  rw [hV]
  have w5 : ∀ {x : Nat}, x < 2 ^ 25 → x < 2 ^ 31 := fun h => by omega
  have w6 : ∀ {x : Nat}, x < 2 ^ 26 → x < 2 ^ 31 := fun h => by omega
  have v5 : ∀ {x : Nat}, x < 2 ^ 25 → x < 2 ^ 26 := fun h => by omega
  have x0 : n0 = 2 ^ 0 * (n0 / 2 ^ 0 % 256) + 2 ^ 8 * (n0 / 2 ^ 8 % 256) + 2 ^ 16 * (n0 / 2 ^ 16 % 256) + 2 ^ 24 * (n0 / 2 ^ 24) := by clear hV; simp only [Nat.reducePow] at *; omega
  have x1 : n1 = (n1 % 2 ^ 6) + 2 ^ 6 * (n1 / 2 ^ 6 % 256) + 2 ^ 14 * (n1 / 2 ^ 14 % 256) + 2 ^ 22 * (n1 / 2 ^ 22) := by clear hV; simp only [Nat.reducePow] at *; omega
  have x2 : n2 = (n2 % 2 ^ 5) + 2 ^ 5 * (n2 / 2 ^ 5 % 256) + 2 ^ 13 * (n2 / 2 ^ 13 % 256) + 2 ^ 21 * (n2 / 2 ^ 21) := by clear hV; simp only [Nat.reducePow] at *; omega
  have x3 : n3 = (n3 % 2 ^ 3) + 2 ^ 3 * (n3 / 2 ^ 3 % 256) + 2 ^ 11 * (n3 / 2 ^ 11 % 256) + 2 ^ 19 * (n3 / 2 ^ 19) := by clear hV; simp only [Nat.reducePow] at *; omega
  have x4 : n4 = (n4 % 2 ^ 2) + 2 ^ 2 * (n4 / 2 ^ 2 % 256) + 2 ^ 10 * (n4 / 2 ^ 10 % 256) + 2 ^ 18 * (n4 / 2 ^ 18 % 256) := by clear hV; simp only [Nat.reducePow] at *; omega
  have x5 : n5 = 2 ^ 0 * (n5 / 2 ^ 0 % 256) + 2 ^ 8 * (n5 / 2 ^ 8 % 256) + 2 ^ 16 * (n5 / 2 ^ 16 % 256) + 2 ^ 24 * (n5 / 2 ^ 24) := by clear hV; simp only [Nat.reducePow] at *; omega
  have x6 : n6 = (n6 % 2 ^ 7) + 2 ^ 7 * (n6 / 2 ^ 7 % 256) + 2 ^ 15 * (n6 / 2 ^ 15 % 256) + 2 ^ 23 * (n6 / 2 ^ 23) := by clear hV; simp only [Nat.reducePow] at *; omega
  have x7 : n7 = (n7 % 2 ^ 5) + 2 ^ 5 * (n7 / 2 ^ 5 % 256) + 2 ^ 13 * (n7 / 2 ^ 13 % 256) + 2 ^ 21 * (n7 / 2 ^ 21) := by clear hV; simp only [Nat.reducePow] at *; omega
  have x8 : n8 = (n8 % 2 ^ 4) + 2 ^ 4 * (n8 / 2 ^ 4 % 256) + 2 ^ 12 * (n8 / 2 ^ 12 % 256) + 2 ^ 20 * (n8 / 2 ^ 20) := by clear hV; simp only [Nat.reducePow] at *; omega
  have x9 : n9 = (n9 % 2 ^ 2) + 2 ^ 2 * (n9 / 2 ^ 2 % 256) + 2 ^ 10 * (n9 / 2 ^ 10 % 256) + 2 ^ 18 * (n9 / 2 ^ 18 % 256) := by clear hV; simp only [Nat.reducePow] at *; omega
  refine eq_leEnc rfl ?_
  rw [Nat.mod_eq_of_lt (by clear hV x0 x1 x2 x3 x4 x5 x6 x7 x8 x9; simp only [Nat.reducePow] at *; omega)]
  simp only [F10.bytes, leVal, BitVec.ofInt_natCast]
  rw [lo_toNat (n := 0) (w6 g0),
    lo_toNat (n := 8) (w6 g0),
    lo_toNat (n := 16) (w6 g0),
    mix_toNat (n := 24) (m := 2) (w6 g0) (v5 g1) (by clear hV; omega) (by decide),
    lo_toNat (n := 6) (w5 g1),
    lo_toNat (n := 14) (w5 g1),
    mix_toNat (n := 22) (m := 3) (w5 g1) g2 (by clear hV; omega) (by decide),
    lo_toNat (n := 5) (w6 g2),
    lo_toNat (n := 13) (w6 g2),
    mix_toNat (n := 21) (m := 5) (w6 g2) (v5 g3) (by clear hV; omega) (by decide),
    lo_toNat (n := 3) (w5 g3),
    lo_toNat (n := 11) (w5 g3),
    mix_toNat (n := 19) (m := 6) (w5 g3) g4 (by clear hV; omega) (by decide),
    lo_toNat (n := 2) (w6 g4),
    lo_toNat (n := 10) (w6 g4),
    lo_toNat (n := 18) (w6 g4),
    lo_toNat (n := 0) (w5 g5),
    lo_toNat (n := 8) (w5 g5),
    lo_toNat (n := 16) (w5 g5),
    mix_toNat (n := 24) (m := 1) (w5 g5) g6 (by clear hV; omega) (by decide),
    lo_toNat (n := 7) (w6 g6),
    lo_toNat (n := 15) (w6 g6),
    mix_toNat (n := 23) (m := 3) (w6 g6) (v5 g7) (by clear hV; omega) (by decide),
    lo_toNat (n := 5) (w5 g7),
    lo_toNat (n := 13) (w5 g7),
    mix_toNat (n := 21) (m := 4) (w5 g7) g8 (by clear hV; omega) (by decide),
    lo_toNat (n := 4) (w6 g8),
    lo_toNat (n := 12) (w6 g8),
    mix_toNat (n := 20) (m := 6) (w6 g8) (v5 g9) (by clear hV; omega) (by decide),
    lo_toNat (n := 2) (w5 g9),
    lo_toNat (n := 10) (w5 g9),
    lo_toNat (n := 18) (w5 g9)]
  simp only [Nat.reduceSub, Nat.reducePow] at x0 x1 x2 x3 x4 x5 x6 x7 x8 x9 ⊢
  generalize n0 / 1 % 256 = d0_0 at *
  generalize n0 / 256 % 256 = d0_8 at *
  generalize n0 / 65536 % 256 = d0_16 at *
  generalize n1 % 64 = p1 at *
  generalize n1 / 64 % 256 = d1_6 at *
  generalize n1 / 16384 % 256 = d1_14 at *
  generalize n2 % 32 = p2 at *
  generalize n2 / 32 % 256 = d2_5 at *
  generalize n2 / 8192 % 256 = d2_13 at *
  generalize n3 % 8 = p3 at *
  generalize n3 / 8 % 256 = d3_3 at *
  generalize n3 / 2048 % 256 = d3_11 at *
  generalize n4 % 4 = p4 at *
  generalize n4 / 4 % 256 = d4_2 at *
  generalize n4 / 1024 % 256 = d4_10 at *
  generalize n4 / 262144 % 256 = d4_18 at *
  generalize n5 / 1 % 256 = d5_0 at *
  generalize n5 / 256 % 256 = d5_8 at *
  generalize n5 / 65536 % 256 = d5_16 at *
  generalize n6 % 128 = p6 at *
  generalize n6 / 128 % 256 = d6_7 at *
  generalize n6 / 32768 % 256 = d6_15 at *
  generalize n7 % 32 = p7 at *
  generalize n7 / 32 % 256 = d7_5 at *
  generalize n7 / 8192 % 256 = d7_13 at *
  generalize n8 % 16 = p8 at *
  generalize n8 / 16 % 256 = d8_4 at *
  generalize n8 / 4096 % 256 = d8_12 at *
  generalize n9 % 4 = p9 at *
  generalize n9 / 4 % 256 = d9_2 at *
  generalize n9 / 1024 % 256 = d9_10 at *
  generalize n9 / 262144 % 256 = d9_18 at *
  generalize n0 / 16777216 = c0 at *
  generalize n1 / 4194304 = c1 at *
  generalize n2 / 2097152 = c2 at *
  generalize n3 / 524288 = c3 at *
  generalize n5 / 16777216 = c5 at *
  generalize n6 / 8388608 = c6 at *
  generalize n7 / 2097152 = c7 at *
  generalize n8 / 1048576 = c8 at *
  clear g0 g1 g2 g3 g4 g5 g6 g7 g8 g9 hV w5 w6 v5 I
  rw [x0, x1, x2, x3, x4, x5, x6, x7, x8, x9]
  ring

end Cex.Ec25519
