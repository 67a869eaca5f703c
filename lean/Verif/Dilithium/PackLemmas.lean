import Verif.Dilithium.CodecModel

/-!
# The groups of the encodings of Dilithium
-/

namespace Cex.Dilithium
open Cex Cex.Lattice Cex.Spec.Lattice

theorem or2 {a b k : Nat} (h : a < 2 ^ k) : a ||| b * 2 ^ k = a + b * 2 ^ k := by
  have := or_shl (b := b) h
  rw [Nat.shiftLeft_eq] at this
  rw [this, Nat.mul_comm b]

theorem or2m {a b k : Nat} (hk : k ≤ 8) (h : a < 2 ^ k) : a ||| b * 2 ^ k % 2 ^ 8 = a + b * 2 ^ k % 2 ^ 8 := by
  have e : b * 2 ^ k % 2 ^ 8 = b % 2 ^ (8 - k) * 2 ^ k := by
    rw [show (2 : Nat) ^ 8 = 2 ^ (8 - k) * 2 ^ k from by rw [← Nat.pow_add]; congr 1; omega, Nat.mul_mod_mul_right]
  rw [e, or2 h]

theorem pk3_packs : Packs 3 8 3 pk3 := by
  refine ⟨rfl, fun cs hl hb => ?_⟩
  match cs, hl with
  | [t0, t1, t2, t3, t4, t5, t6, t7], _ =>
    simp only [List.mem_cons, List.not_mem_nil, or_false, forall_eq_or_imp, forall_eq] at hb
    obtain ⟨h0, h1, h2, h3, h4, h5, h6, h7⟩ := hb
    refine ⟨rfl, ?_⟩
    simp only [pk3, leVal, digits, u8, BitVec.toNat_or, BitVec.toNat_ofNat, Nat.shiftLeft_eq, Nat.shiftRight_eq_div_pow]
    have e0 : (t0 ||| t1 * 2 ^ 3 ||| t2 * 2 ^ 6) % 2 ^ 8 = (t0) + 8 * (t1) + 64 * (t2 % 4) := by simp (disch := omega) only [or2, or2m] <;> omega
    have e1 : (t2 / 2 ^ 2 ||| t3 * 2 ^ 1 ||| t4 * 2 ^ 4 ||| t5 * 2 ^ 7) % 2 ^ 8 = (t2 / 4) + 2 * (t3) + 16 * (t4) + 128 * (t5 % 2) := by simp (disch := omega) only [or2, or2m] <;> omega
    have e2 : (t5 / 2 ^ 1 ||| t6 * 2 ^ 2 ||| t7 * 2 ^ 5) % 2 ^ 8 = (t5 / 2) + 4 * (t6) + 32 * (t7) := by simp (disch := omega) only [or2, or2m] <;> omega
    rw [e0, e1, e2]
    have f2 : t2 = (t2 % 4) + 4 * (t2 / 4) := by omega
    have f5 : t5 = (t5 % 2) + 2 * (t5 / 2) := by omega
    conv_rhs => rw [f2, f5]
    ring

theorem un3_unpacks : Unpacks 3 8 3 un3 := by
  refine ⟨rfl, fun w hl => ?_⟩
  match w, hl with
  | [b0, b1, b2], _ =>
    have h0 := b0.isLt
    have h1 := b1.isLt
    have h2 := b2.isLt
    simp only [un3, leVal, digits, Nat.shiftLeft_eq, Nat.shiftRight_eq_div_pow, List.mem_cons, List.not_mem_nil, or_false, forall_eq_or_imp, forall_eq]
    generalize b0.toNat = x0 at *
    generalize b1.toNat = x1 at *
    generalize b2.toNat = x2 at *
    have e0 : x0 % 2 ^ 3 = (x0 % 8) := by omega
    have e1 : x0 / 2 ^ 3 % 2 ^ 3 = (x0 / 8 % 8) := by omega
    have e2 : (x0 / 2 ^ 6 ||| x1 * 2 ^ 2) % 2 ^ 3 = (x0 / 64) + 4 * (x1 % 2) := by simp (disch := omega) only [or2, or2m] <;> omega
    have e3 : x1 / 2 ^ 1 % 2 ^ 3 = (x1 / 2 % 8) := by omega
    have e4 : x1 / 2 ^ 4 % 2 ^ 3 = (x1 / 16 % 8) := by omega
    have e5 : (x1 / 2 ^ 7 ||| x2 * 2 ^ 1) % 2 ^ 3 = (x1 / 128) + 2 * (x2 % 4) := by simp (disch := omega) only [or2, or2m] <;> omega
    have e6 : x2 / 2 ^ 2 % 2 ^ 3 = (x2 / 4 % 8) := by omega
    have e7 : x2 / 2 ^ 5 % 2 ^ 3 = (x2 / 32) := by omega
    rw [e0, e1, e2, e3, e4, e5, e6, e7]
    refine ⟨rfl, ⟨by omega, by omega, by omega, by omega, by omega, by omega, by omega, by omega⟩, ?_⟩
    have f0 : x0 = (x0 % 8) + 8 * (x0 / 8 % 8) + 64 * (x0 / 64) := by omega
    have f1 : x1 = (x1 % 2) + 2 * (x1 / 2 % 8) + 16 * (x1 / 16 % 8) + 128 * (x1 / 128) := by omega
    have f2 : x2 = (x2 % 4) + 4 * (x2 / 4 % 8) + 32 * (x2 / 32) := by omega
    conv_rhs => rw [f0, f1, f2]
    ring

theorem pk4_packs : Packs 4 2 1 pk4 := by
  refine ⟨rfl, fun cs hl hb => ?_⟩
  match cs, hl with
  | [t0, t1], _ =>
    simp only [List.mem_cons, List.not_mem_nil, or_false, forall_eq_or_imp, forall_eq] at hb
    obtain ⟨h0, h1⟩ := hb
    refine ⟨rfl, ?_⟩
    simp only [pk4, leVal, digits, u8, BitVec.toNat_or, BitVec.toNat_ofNat, Nat.shiftLeft_eq, Nat.shiftRight_eq_div_pow]
    have e0 : (t0 ||| t1 * 2 ^ 4) % 2 ^ 8 = (t0) + 16 * (t1) := by simp (disch := omega) only [or2, or2m] <;> omega
    rw [e0]
    ring

theorem un4_unpacks : Unpacks 4 2 1 un4 := by
  refine ⟨rfl, fun w hl => ?_⟩
  match w, hl with
  | [b0], _ =>
    have h0 := b0.isLt
    simp only [un4, leVal, digits, Nat.shiftLeft_eq, Nat.shiftRight_eq_div_pow, List.mem_cons, List.not_mem_nil, or_false, forall_eq_or_imp, forall_eq]
    generalize b0.toNat = x0 at *
    have e0 : x0 % 2 ^ 4 = (x0 % 16) := by omega
    have e1 : x0 / 2 ^ 4 = (x0 / 16) := by omega
    rw [e0, e1]
    refine ⟨rfl, ⟨by omega, by omega⟩, ?_⟩
    have f0 : x0 = (x0 % 16) + 16 * (x0 / 16) := by omega
    conv_rhs => rw [f0]
    ring

theorem pk13_packs : Packs 13 8 13 pk13 := by
  refine ⟨rfl, fun cs hl hb => ?_⟩
  match cs, hl with
  | [t0, t1, t2, t3, t4, t5, t6, t7], _ =>
    simp only [List.mem_cons, List.not_mem_nil, or_false, forall_eq_or_imp, forall_eq] at hb
    obtain ⟨h0, h1, h2, h3, h4, h5, h6, h7⟩ := hb
    refine ⟨rfl, ?_⟩
    simp only [pk13, leVal, digits, u8, BitVec.toNat_or, BitVec.toNat_ofNat, Nat.shiftLeft_eq, Nat.shiftRight_eq_div_pow]
    have e0 : t0 % 2 ^ 8 = (t0 % 256) := by omega
    have e1 : t0 / 2 ^ 8 % 2 ^ 8 ||| t1 * 2 ^ 5 % 2 ^ 8 = (t0 / 256) + 32 * (t1 % 8) := by simp (disch := omega) only [or2, or2m] <;> omega
    have e2 : t1 / 2 ^ 3 % 2 ^ 8 = (t1 / 8 % 256) := by omega
    have e3 : t1 / 2 ^ 11 % 2 ^ 8 ||| t2 * 2 ^ 2 % 2 ^ 8 = (t1 / 2048) + 4 * (t2 % 64) := by simp (disch := omega) only [or2, or2m] <;> omega
    have e4 : t2 / 2 ^ 6 % 2 ^ 8 ||| t3 * 2 ^ 7 % 2 ^ 8 = (t2 / 64) + 128 * (t3 % 2) := by simp (disch := omega) only [or2, or2m] <;> omega
    have e5 : t3 / 2 ^ 1 % 2 ^ 8 = (t3 / 2 % 256) := by omega
    have e6 : t3 / 2 ^ 9 % 2 ^ 8 ||| t4 * 2 ^ 4 % 2 ^ 8 = (t3 / 512) + 16 * (t4 % 16) := by simp (disch := omega) only [or2, or2m] <;> omega
    have e7 : t4 / 2 ^ 4 % 2 ^ 8 = (t4 / 16 % 256) := by omega
    have e8 : t4 / 2 ^ 12 % 2 ^ 8 ||| t5 * 2 ^ 1 % 2 ^ 8 = (t4 / 4096) + 2 * (t5 % 128) := by simp (disch := omega) only [or2, or2m] <;> omega
    have e9 : t5 / 2 ^ 7 % 2 ^ 8 ||| t6 * 2 ^ 6 % 2 ^ 8 = (t5 / 128) + 64 * (t6 % 4) := by simp (disch := omega) only [or2, or2m] <;> omega
    have e10 : t6 / 2 ^ 2 % 2 ^ 8 = (t6 / 4 % 256) := by omega
    have e11 : t6 / 2 ^ 10 % 2 ^ 8 ||| t7 * 2 ^ 3 % 2 ^ 8 = (t6 / 1024) + 8 * (t7 % 32) := by simp (disch := omega) only [or2, or2m] <;> omega
    have e12 : t7 / 2 ^ 5 % 2 ^ 8 = (t7 / 32) := by omega
    rw [e0, e1, e2, e3, e4, e5, e6, e7, e8, e9, e10, e11, e12]
    have f0 : t0 = (t0 % 256) + 256 * (t0 / 256) := by omega
    have f1 : t1 = (t1 % 8) + 8 * (t1 / 8 % 256) + 2048 * (t1 / 2048) := by omega
    have f2 : t2 = (t2 % 64) + 64 * (t2 / 64) := by omega
    have f3 : t3 = (t3 % 2) + 2 * (t3 / 2 % 256) + 512 * (t3 / 512) := by omega
    have f4 : t4 = (t4 % 16) + 16 * (t4 / 16 % 256) + 4096 * (t4 / 4096) := by omega
    have f5 : t5 = (t5 % 128) + 128 * (t5 / 128) := by omega
    have f6 : t6 = (t6 % 4) + 4 * (t6 / 4 % 256) + 1024 * (t6 / 1024) := by omega
    have f7 : t7 = (t7 % 32) + 32 * (t7 / 32) := by omega
    conv_rhs => rw [f0, f1, f2, f3, f4, f5, f6, f7]
    ring

theorem un13_unpacks : Unpacks 13 8 13 un13 := by
  refine ⟨rfl, fun w hl => ?_⟩
  match w, hl with
  | [b0, b1, b2, b3, b4, b5, b6, b7, b8, b9, b10, b11, b12], _ =>
    have h0 := b0.isLt
    have h1 := b1.isLt
    have h2 := b2.isLt
    have h3 := b3.isLt
    have h4 := b4.isLt
    have h5 := b5.isLt
    have h6 := b6.isLt
    have h7 := b7.isLt
    have h8 := b8.isLt
    have h9 := b9.isLt
    have h10 := b10.isLt
    have h11 := b11.isLt
    have h12 := b12.isLt
    simp only [un13, leVal, digits, Nat.shiftLeft_eq, Nat.shiftRight_eq_div_pow, List.mem_cons, List.not_mem_nil, or_false, forall_eq_or_imp, forall_eq]
    generalize b0.toNat = x0 at *
    generalize b1.toNat = x1 at *
    generalize b2.toNat = x2 at *
    generalize b3.toNat = x3 at *
    generalize b4.toNat = x4 at *
    generalize b5.toNat = x5 at *
    generalize b6.toNat = x6 at *
    generalize b7.toNat = x7 at *
    generalize b8.toNat = x8 at *
    generalize b9.toNat = x9 at *
    generalize b10.toNat = x10 at *
    generalize b11.toNat = x11 at *
    generalize b12.toNat = x12 at *
    have e0 : (x0 ||| x1 * 2 ^ 8) % 2 ^ 13 = (x0) + 256 * (x1 % 32) := by simp (disch := omega) only [or2, or2m] <;> omega
    have e1 : (x1 / 2 ^ 5 ||| x2 * 2 ^ 3 ||| x3 * 2 ^ 11) % 2 ^ 13 = (x1 / 32) + 8 * (x2) + 2048 * (x3 % 4) := by simp (disch := omega) only [or2, or2m] <;> omega
    have e2 : (x3 / 2 ^ 2 ||| x4 * 2 ^ 6) % 2 ^ 13 = (x3 / 4) + 64 * (x4 % 128) := by simp (disch := omega) only [or2, or2m] <;> omega
    have e3 : (x4 / 2 ^ 7 ||| x5 * 2 ^ 1 ||| x6 * 2 ^ 9) % 2 ^ 13 = (x4 / 128) + 2 * (x5) + 512 * (x6 % 16) := by simp (disch := omega) only [or2, or2m] <;> omega
    have e4 : (x6 / 2 ^ 4 ||| x7 * 2 ^ 4 ||| x8 * 2 ^ 12) % 2 ^ 13 = (x6 / 16) + 16 * (x7) + 4096 * (x8 % 2) := by simp (disch := omega) only [or2, or2m] <;> omega
    have e5 : (x8 / 2 ^ 1 ||| x9 * 2 ^ 7) % 2 ^ 13 = (x8 / 2) + 128 * (x9 % 64) := by simp (disch := omega) only [or2, or2m] <;> omega
    have e6 : (x9 / 2 ^ 6 ||| x10 * 2 ^ 2 ||| x11 * 2 ^ 10) % 2 ^ 13 = (x9 / 64) + 4 * (x10) + 1024 * (x11 % 8) := by simp (disch := omega) only [or2, or2m] <;> omega
    have e7 : (x11 / 2 ^ 3 ||| x12 * 2 ^ 5) % 2 ^ 13 = (x11 / 8) + 32 * (x12) := by simp (disch := omega) only [or2, or2m] <;> omega
    rw [e0, e1, e2, e3, e4, e5, e6, e7]
    refine ⟨rfl, ⟨by omega, by omega, by omega, by omega, by omega, by omega, by omega, by omega⟩, ?_⟩
    have f1 : x1 = (x1 % 32) + 32 * (x1 / 32) := by omega
    have f3 : x3 = (x3 % 4) + 4 * (x3 / 4) := by omega
    have f4 : x4 = (x4 % 128) + 128 * (x4 / 128) := by omega
    have f6 : x6 = (x6 % 16) + 16 * (x6 / 16) := by omega
    have f8 : x8 = (x8 % 2) + 2 * (x8 / 2) := by omega
    have f9 : x9 = (x9 % 64) + 64 * (x9 / 64) := by omega
    have f11 : x11 = (x11 % 8) + 8 * (x11 / 8) := by omega
    conv_rhs => rw [f1, f3, f4, f6, f8, f9, f11]
    ring

theorem pk10_packs : Packs 10 4 5 pk10 := by
  refine ⟨rfl, fun cs hl hb => ?_⟩
  match cs, hl with
  | [t0, t1, t2, t3], _ =>
    simp only [List.mem_cons, List.not_mem_nil, or_false, forall_eq_or_imp, forall_eq] at hb
    obtain ⟨h0, h1, h2, h3⟩ := hb
    refine ⟨rfl, ?_⟩
    simp only [pk10, leVal, digits, u8, BitVec.toNat_or, BitVec.toNat_ofNat, Nat.shiftLeft_eq, Nat.shiftRight_eq_div_pow]
    have e0 : t0 % 2 ^ 8 = (t0 % 256) := by omega
    have e1 : (t0 / 2 ^ 8 ||| t1 * 2 ^ 2) % 2 ^ 8 = (t0 / 256) + 4 * (t1 % 64) := by simp (disch := omega) only [or2, or2m] <;> omega
    have e2 : (t1 / 2 ^ 6 ||| t2 * 2 ^ 4) % 2 ^ 8 = (t1 / 64) + 16 * (t2 % 16) := by simp (disch := omega) only [or2, or2m] <;> omega
    have e3 : (t2 / 2 ^ 4 ||| t3 * 2 ^ 6) % 2 ^ 8 = (t2 / 16) + 64 * (t3 % 4) := by simp (disch := omega) only [or2, or2m] <;> omega
    have e4 : t3 / 2 ^ 2 % 2 ^ 8 = (t3 / 4) := by omega
    rw [e0, e1, e2, e3, e4]
    have f0 : t0 = (t0 % 256) + 256 * (t0 / 256) := by omega
    have f1 : t1 = (t1 % 64) + 64 * (t1 / 64) := by omega
    have f2 : t2 = (t2 % 16) + 16 * (t2 / 16) := by omega
    have f3 : t3 = (t3 % 4) + 4 * (t3 / 4) := by omega
    conv_rhs => rw [f0, f1, f2, f3]
    ring

theorem un10_unpacks : Unpacks 10 4 5 un10 := by
  refine ⟨rfl, fun w hl => ?_⟩
  match w, hl with
  | [b0, b1, b2, b3, b4], _ =>
    have h0 := b0.isLt
    have h1 := b1.isLt
    have h2 := b2.isLt
    have h3 := b3.isLt
    have h4 := b4.isLt
    simp only [un10, leVal, digits, Nat.shiftLeft_eq, Nat.shiftRight_eq_div_pow, List.mem_cons, List.not_mem_nil, or_false, forall_eq_or_imp, forall_eq]
    generalize b0.toNat = x0 at *
    generalize b1.toNat = x1 at *
    generalize b2.toNat = x2 at *
    generalize b3.toNat = x3 at *
    generalize b4.toNat = x4 at *
    have e0 : (x0 ||| x1 * 2 ^ 8) % 2 ^ 10 = (x0) + 256 * (x1 % 4) := by simp (disch := omega) only [or2, or2m] <;> omega
    have e1 : (x1 / 2 ^ 2 ||| x2 * 2 ^ 6) % 2 ^ 10 = (x1 / 4) + 64 * (x2 % 16) := by simp (disch := omega) only [or2, or2m] <;> omega
    have e2 : (x2 / 2 ^ 4 ||| x3 * 2 ^ 4) % 2 ^ 10 = (x2 / 16) + 16 * (x3 % 64) := by simp (disch := omega) only [or2, or2m] <;> omega
    have e3 : (x3 / 2 ^ 6 ||| x4 * 2 ^ 2) % 2 ^ 10 = (x3 / 64) + 4 * (x4) := by simp (disch := omega) only [or2, or2m] <;> omega
    rw [e0, e1, e2, e3]
    refine ⟨rfl, ⟨by omega, by omega, by omega, by omega⟩, ?_⟩
    have f1 : x1 = (x1 % 4) + 4 * (x1 / 4) := by omega
    have f2 : x2 = (x2 % 16) + 16 * (x2 / 16) := by omega
    have f3 : x3 = (x3 % 64) + 64 * (x3 / 64) := by omega
    conv_rhs => rw [f1, f2, f3]
    ring

theorem pk18_packs : Packs 18 4 9 pk18 := by
  refine ⟨rfl, fun cs hl hb => ?_⟩
  match cs, hl with
  | [t0, t1, t2, t3], _ =>
    simp only [List.mem_cons, List.not_mem_nil, or_false, forall_eq_or_imp, forall_eq] at hb
    obtain ⟨h0, h1, h2, h3⟩ := hb
    refine ⟨rfl, ?_⟩
    simp only [pk18, leVal, digits, u8, BitVec.toNat_or, BitVec.toNat_ofNat, Nat.shiftLeft_eq, Nat.shiftRight_eq_div_pow]
    have e0 : t0 % 2 ^ 8 = (t0 % 256) := by omega
    have e1 : t0 / 2 ^ 8 % 2 ^ 8 = (t0 / 256 % 256) := by omega
    have e2 : t0 / 2 ^ 16 % 2 ^ 8 ||| t1 * 2 ^ 2 % 2 ^ 8 = (t0 / 65536) + 4 * (t1 % 64) := by simp (disch := omega) only [or2, or2m] <;> omega
    have e3 : t1 / 2 ^ 6 % 2 ^ 8 = (t1 / 64 % 256) := by omega
    have e4 : t1 / 2 ^ 14 % 2 ^ 8 ||| t2 * 2 ^ 4 % 2 ^ 8 = (t1 / 16384) + 16 * (t2 % 16) := by simp (disch := omega) only [or2, or2m] <;> omega
    have e5 : t2 / 2 ^ 4 % 2 ^ 8 = (t2 / 16 % 256) := by omega
    have e6 : t2 / 2 ^ 12 % 2 ^ 8 ||| t3 * 2 ^ 6 % 2 ^ 8 = (t2 / 4096) + 64 * (t3 % 4) := by simp (disch := omega) only [or2, or2m] <;> omega
    have e7 : t3 / 2 ^ 2 % 2 ^ 8 = (t3 / 4 % 256) := by omega
    have e8 : t3 / 2 ^ 10 % 2 ^ 8 = (t3 / 1024) := by omega
    rw [e0, e1, e2, e3, e4, e5, e6, e7, e8]
    have f0 : t0 = (t0 % 256) + 256 * (t0 / 256 % 256) + 65536 * (t0 / 65536) := by omega
    have f1 : t1 = (t1 % 64) + 64 * (t1 / 64 % 256) + 16384 * (t1 / 16384) := by omega
    have f2 : t2 = (t2 % 16) + 16 * (t2 / 16 % 256) + 4096 * (t2 / 4096) := by omega
    have f3 : t3 = (t3 % 4) + 4 * (t3 / 4 % 256) + 1024 * (t3 / 1024) := by omega
    conv_rhs => rw [f0, f1, f2, f3]
    ring

theorem un18_unpacks : Unpacks 18 4 9 un18 := by
  refine ⟨rfl, fun w hl => ?_⟩
  match w, hl with
  | [b0, b1, b2, b3, b4, b5, b6, b7, b8], _ =>
    have h0 := b0.isLt
    have h1 := b1.isLt
    have h2 := b2.isLt
    have h3 := b3.isLt
    have h4 := b4.isLt
    have h5 := b5.isLt
    have h6 := b6.isLt
    have h7 := b7.isLt
    have h8 := b8.isLt
    simp only [un18, leVal, digits, Nat.shiftLeft_eq, Nat.shiftRight_eq_div_pow, List.mem_cons, List.not_mem_nil, or_false, forall_eq_or_imp, forall_eq]
    generalize b0.toNat = x0 at *
    generalize b1.toNat = x1 at *
    generalize b2.toNat = x2 at *
    generalize b3.toNat = x3 at *
    generalize b4.toNat = x4 at *
    generalize b5.toNat = x5 at *
    generalize b6.toNat = x6 at *
    generalize b7.toNat = x7 at *
    generalize b8.toNat = x8 at *
    have e0 : (x0 ||| x1 * 2 ^ 8 ||| x2 * 2 ^ 16) % 2 ^ 18 = (x0) + 256 * (x1) + 65536 * (x2 % 4) := by simp (disch := omega) only [or2, or2m] <;> omega
    have e1 : (x2 / 2 ^ 2 ||| x3 * 2 ^ 6 ||| x4 * 2 ^ 14) % 2 ^ 18 = (x2 / 4) + 64 * (x3) + 16384 * (x4 % 16) := by simp (disch := omega) only [or2, or2m] <;> omega
    have e2 : (x4 / 2 ^ 4 ||| x5 * 2 ^ 4 ||| x6 * 2 ^ 12) % 2 ^ 18 = (x4 / 16) + 16 * (x5) + 4096 * (x6 % 64) := by simp (disch := omega) only [or2, or2m] <;> omega
    have e3 : (x6 / 2 ^ 6 ||| x7 * 2 ^ 2 ||| x8 * 2 ^ 10) % 2 ^ 18 = (x6 / 64) + 4 * (x7) + 1024 * (x8) := by simp (disch := omega) only [or2, or2m] <;> omega
    rw [e0, e1, e2, e3]
    refine ⟨rfl, ⟨by omega, by omega, by omega, by omega⟩, ?_⟩
    have f2 : x2 = (x2 % 4) + 4 * (x2 / 4) := by omega
    have f4 : x4 = (x4 % 16) + 16 * (x4 / 16) := by omega
    have f6 : x6 = (x6 % 64) + 64 * (x6 / 64) := by omega
    conv_rhs => rw [f2, f4, f6]
    ring

theorem pk20_packs : Packs 20 2 5 pk20 := by
  refine ⟨rfl, fun cs hl hb => ?_⟩
  match cs, hl with
  | [t0, t1], _ =>
    simp only [List.mem_cons, List.not_mem_nil, or_false, forall_eq_or_imp, forall_eq] at hb
    obtain ⟨h0, h1⟩ := hb
    refine ⟨rfl, ?_⟩
    simp only [pk20, leVal, digits, u8, BitVec.toNat_or, BitVec.toNat_ofNat, Nat.shiftLeft_eq, Nat.shiftRight_eq_div_pow]
    have e0 : t0 % 2 ^ 8 = (t0 % 256) := by omega
    have e1 : t0 / 2 ^ 8 % 2 ^ 8 = (t0 / 256 % 256) := by omega
    have e2 : t0 / 2 ^ 16 % 2 ^ 8 ||| t1 * 2 ^ 4 % 2 ^ 8 = (t0 / 65536) + 16 * (t1 % 16) := by simp (disch := omega) only [or2, or2m] <;> omega
    have e3 : t1 / 2 ^ 4 % 2 ^ 8 = (t1 / 16 % 256) := by omega
    have e4 : t1 / 2 ^ 12 % 2 ^ 8 = (t1 / 4096) := by omega
    rw [e0, e1, e2, e3, e4]
    have f0 : t0 = (t0 % 256) + 256 * (t0 / 256 % 256) + 65536 * (t0 / 65536) := by omega
    have f1 : t1 = (t1 % 16) + 16 * (t1 / 16 % 256) + 4096 * (t1 / 4096) := by omega
    conv_rhs => rw [f0, f1]
    ring

theorem un20_unpacks : Unpacks 20 2 5 un20 := by
  refine ⟨rfl, fun w hl => ?_⟩
  match w, hl with
  | [b0, b1, b2, b3, b4], _ =>
    have h0 := b0.isLt
    have h1 := b1.isLt
    have h2 := b2.isLt
    have h3 := b3.isLt
    have h4 := b4.isLt
    simp only [un20, leVal, digits, Nat.shiftLeft_eq, Nat.shiftRight_eq_div_pow, List.mem_cons, List.not_mem_nil, or_false, forall_eq_or_imp, forall_eq]
    generalize b0.toNat = x0 at *
    generalize b1.toNat = x1 at *
    generalize b2.toNat = x2 at *
    generalize b3.toNat = x3 at *
    generalize b4.toNat = x4 at *
    have e0 : (x0 ||| x1 * 2 ^ 8 ||| x2 * 2 ^ 16) % 2 ^ 20 = (x0) + 256 * (x1) + 65536 * (x2 % 16) := by simp (disch := omega) only [or2, or2m] <;> omega
    have e1 : x2 / 2 ^ 4 ||| x3 * 2 ^ 4 ||| x4 * 2 ^ 12 = (x2 / 16) + 16 * (x3) + 4096 * (x4) := by simp (disch := omega) only [or2, or2m] <;> omega
    rw [e0, e1]
    refine ⟨rfl, ⟨by omega, by omega⟩, ?_⟩
    have f2 : x2 = (x2 % 16) + 16 * (x2 / 16) := by omega
    conv_rhs => rw [f2]
    ring

theorem pk6_packs : Packs 6 4 3 pk6 := by
  refine ⟨rfl, fun cs hl hb => ?_⟩
  match cs, hl with
  | [t0, t1, t2, t3], _ =>
    simp only [List.mem_cons, List.not_mem_nil, or_false, forall_eq_or_imp, forall_eq] at hb
    obtain ⟨h0, h1, h2, h3⟩ := hb
    refine ⟨rfl, ?_⟩
    simp only [pk6, leVal, digits, u8, BitVec.toNat_or, BitVec.toNat_ofNat, Nat.shiftLeft_eq, Nat.shiftRight_eq_div_pow]
    have e0 : t0 % 2 ^ 8 ||| t1 * 2 ^ 6 % 2 ^ 8 = (t0) + 64 * (t1 % 4) := by simp (disch := omega) only [or2, or2m] <;> omega
    have e1 : t1 / 2 ^ 2 % 2 ^ 8 ||| t2 * 2 ^ 4 % 2 ^ 8 = (t1 / 4) + 16 * (t2 % 16) := by simp (disch := omega) only [or2, or2m] <;> omega
    have e2 : t2 / 2 ^ 4 % 2 ^ 8 ||| t3 * 2 ^ 2 % 2 ^ 8 = (t2 / 16) + 4 * (t3) := by simp (disch := omega) only [or2, or2m] <;> omega
    rw [e0, e1, e2]
    have f1 : t1 = (t1 % 4) + 4 * (t1 / 4) := by omega
    have f2 : t2 = (t2 % 16) + 16 * (t2 / 16) := by omega
    conv_rhs => rw [f1, f2]
    ring

end Cex.Dilithium
