import Verif.Kyber.CodecModel
import Verif.Kyber.SchemeSpec
import Verif.Kyber.MulLemmas

/-!
# Every group is packed and unpacked as specified
-/

namespace Cex.Kyber
open Cex Cex.Lattice Cex.Spec.Lattice Cex.Spec.Kyber

theorem or_add {a b : Nat} (k : Nat) (h : a < 2 ^ k) (hb : b % 2 ^ k = 0) : a ||| b = a + b := by
  have : b = (b / 2 ^ k) <<< k := by rw [Nat.shiftLeft_eq, Nat.div_mul_cancel (Nat.dvd_of_mod_eq_zero hb)]
  rw [this, or_shl h, Nat.shiftLeft_eq, Nat.mul_comm]

theorem pk12_packs : Packs 12 2 3 pk12 := by
  refine ⟨rfl, fun cs hl hb => ?_⟩
  obtain ⟨t0, t1, rfl⟩ : ∃ t0 t1, cs = [t0, t1] := by
    match cs, hl with
    | [t0, t1], _ => exact ⟨t0, t1, rfl⟩
  simp only [List.mem_cons, List.not_mem_nil, or_false, forall_eq_or_imp, forall_eq] at hb
  refine ⟨rfl, ?_⟩
  simp only [pk12, leVal, digits, u8, BitVec.toNat_ofNat, Nat.shiftLeft_eq, Nat.shiftRight_eq_div_pow]
  rw [or_add 4 (by omega) (by omega)]
  omega

theorem un12_unpacks : Unpacks 12 2 3 un12 := by
  refine ⟨rfl, fun w hl => ?_⟩
  match w, hl with
  | [b0, b1, b2], _ =>
    have h0 := b0.isLt
    have h1 := b1.isLt
    have h2 := b2.isLt
    refine ⟨rfl, ?_, ?_⟩
    · simp only [un12, List.mem_cons, List.not_mem_nil, or_false, forall_eq_or_imp, forall_eq]
      exact ⟨Nat.mod_lt _ (by decide), Nat.mod_lt _ (by decide)⟩
    · simp only [un12, leVal, digits, Nat.shiftLeft_eq, Nat.shiftRight_eq_div_pow]
      rw [or_add 8 (by omega) (by omega), or_add 4 (by omega) (by omega)]
      omega

theorem pk10_packs : Packs 10 4 5 pk10 := by
  refine ⟨rfl, fun cs hl hb => ?_⟩
  match cs, hl with
  | [t0, t1, t2, t3], _ =>
    simp only [List.mem_cons, List.not_mem_nil, or_false, forall_eq_or_imp, forall_eq] at hb
    refine ⟨rfl, ?_⟩
    simp only [pk10, leVal, digits, u8, BitVec.toNat_ofNat, Nat.shiftLeft_eq, Nat.shiftRight_eq_div_pow]
    rw [or_add 2 (by omega) (by omega), or_add 4 (by omega) (by omega), or_add 6 (by omega) (by omega)]
    omega

theorem un10_unpacks : Unpacks 10 4 5 un10 := by
  refine ⟨rfl, fun w hl => ?_⟩
  match w, hl with
  | [b0, b1, b2, b3, b4], _ =>
    have h0 := b0.isLt
    have h1 := b1.isLt
    have h2 := b2.isLt
    have h3 := b3.isLt
    have h4 := b4.isLt
    refine ⟨rfl, ?_, ?_⟩
    · simp only [un10, List.mem_cons, List.not_mem_nil, or_false, forall_eq_or_imp, forall_eq]
      exact ⟨Nat.mod_lt _ (by decide), Nat.mod_lt _ (by decide), Nat.mod_lt _ (by decide), Nat.mod_lt _ (by decide)⟩
    · simp only [un10, leVal, digits, Nat.shiftLeft_eq, Nat.shiftRight_eq_div_pow]
      rw [or_add 8 (by omega) (by omega), or_add 6 (by omega) (by omega), or_add 4 (by omega) (by omega), or_add 2 (by omega) (by omega)]
      omega

theorem pk11_packs : Packs 11 8 11 pk11 := by
  refine ⟨rfl, fun cs hl hb => ?_⟩
  match cs, hl with
  | [t0, t1, t2, t3, t4, t5, t6, t7], _ =>
    simp only [List.mem_cons, List.not_mem_nil, or_false, forall_eq_or_imp, forall_eq] at hb
    obtain ⟨h0, h1, h2, h3, h4, h5, h6, h7⟩ := hb
    refine ⟨rfl, ?_⟩
    simp only [pk11, leVal, digits, u8, BitVec.toNat_ofNat, Nat.shiftLeft_eq, Nat.shiftRight_eq_div_pow]
    rw [or_add 3 (by omega) (by omega), or_add 6 (by omega) (by omega), or_add 1 (by omega) (by omega), or_add 4 (by omega) (by omega),
      or_add 7 (by omega) (by omega), or_add 2 (by omega) (by omega), or_add 5 (by omega) (by omega)]
    have e0 : t0 % 2 ^ 8 + 256 * (t0 / 2 ^ 8) = t0 := by omega
    have e1 : (t0 / 2 ^ 8 + t1 * 2 ^ 3) % 2 ^ 8 = t0 / 2 ^ 8 + 8 * (t1 % 32) := by omega
    have e2 : (t1 / 2 ^ 5 + t2 * 2 ^ 6) % 2 ^ 8 = t1 / 32 + 64 * (t2 % 4) := by omega
    have e3 : t2 / 2 ^ 2 % 2 ^ 8 = t2 / 4 % 256 := by omega
    have e4 : (t2 / 2 ^ 10 + t3 * 2 ^ 1) % 2 ^ 8 = t2 / 4 / 256 + 2 * (t3 % 128) := by omega
    have e5 : (t3 / 2 ^ 7 + t4 * 2 ^ 4) % 2 ^ 8 = t3 / 128 + 16 * (t4 % 16) := by omega
    have e6 : (t4 / 2 ^ 4 + t5 * 2 ^ 7) % 2 ^ 8 = t4 / 16 + 128 * (t5 % 2) := by omega
    have e7 : t5 / 2 ^ 1 % 2 ^ 8 = t5 / 2 % 256 := by omega
    have e8 : (t5 / 2 ^ 9 + t6 * 2 ^ 2) % 2 ^ 8 = t5 / 2 / 256 + 4 * (t6 % 64) := by omega
    have e9 : (t6 / 2 ^ 6 + t7 * 2 ^ 5) % 2 ^ 8 = t6 / 64 + 32 * (t7 % 8) := by omega
    have e10 : t7 / 2 ^ 3 % 2 ^ 8 = t7 / 8 := by omega
    rw [e1, e2, e3, e4, e5, e6, e7, e8, e9, e10]
    have f1 : t1 = t1 % 32 + 32 * (t1 / 32) := by omega
    have f2 : t2 = t2 % 4 + 4 * (t2 / 4 % 256 + 256 * (t2 / 4 / 256)) := by omega
    have f3 : t3 = t3 % 128 + 128 * (t3 / 128) := by omega
    have f4 : t4 = t4 % 16 + 16 * (t4 / 16) := by omega
    have f5 : t5 = t5 % 2 + 2 * (t5 / 2 % 256 + 256 * (t5 / 2 / 256)) := by omega
    have f6 : t6 = t6 % 64 + 64 * (t6 / 64) := by omega
    have f7 : t7 = t7 % 8 + 8 * (t7 / 8) := by omega
    conv_rhs => rw [f1, f2, f3, f4, f5, f6, f7, ← e0]
    ring

theorem un11_unpacks : Unpacks 11 8 11 un11 := by
  refine ⟨rfl, fun w hl => ?_⟩
  match w, hl with
  | [b0, b1, b2, b3, b4, b5, b6, b7, b8, b9, b10], _ =>
    have h0 := b0.isLt
    have h1 := b1.isLt
    have h2 := b2.isLt
    have h3 := b3.isLt
    have h4 := b4.isLt
    have h5 := b5.isLt
    have h6 := b6.isLt
    have h7 := b7.isLt
    have h8 := b8.isLt
    have h9 := b9.isLt
    have h10 := b10.isLt
    refine ⟨rfl, ?_, ?_⟩
    · simp only [un11, List.mem_cons, List.not_mem_nil, or_false, forall_eq_or_imp, forall_eq]
      exact ⟨Nat.mod_lt _ (by decide), Nat.mod_lt _ (by decide), Nat.mod_lt _ (by decide), Nat.mod_lt _ (by decide), Nat.mod_lt _ (by decide), Nat.mod_lt _ (by decide),
        Nat.mod_lt _ (by decide), Nat.mod_lt _ (by decide)⟩
    · simp only [un11, leVal, digits, Nat.shiftLeft_eq, Nat.shiftRight_eq_div_pow]
      rw [or_add 8 (by omega) (by omega), or_add 5 (by omega) (by omega), or_add 2 (b := b3.toNat * 2 ^ 2) (by omega) (by omega), or_add 10 (by omega) (by omega),
        or_add 7 (by omega) (by omega), or_add 4 (a := b5.toNat / 2 ^ 4) (by omega) (by omega), or_add 1 (b := b7.toNat * 2 ^ 1) (by omega) (by omega), or_add 9 (by omega) (by omega),
        or_add 6 (by omega) (by omega), or_add 3 (by omega) (by omega)]
      generalize b0.toNat = x0 at *
      generalize b1.toNat = x1 at *
      generalize b2.toNat = x2 at *
      generalize b3.toNat = x3 at *
      generalize b4.toNat = x4 at *
      generalize b5.toNat = x5 at *
      generalize b6.toNat = x6 at *
      generalize b7.toNat = x7 at *
      generalize b8.toNat = x8 at *
      generalize b9.toNat = x9 at *
      generalize b10.toNat = x10 at *
      have e0 : (x0 + x1 * 2 ^ 8) % 2 ^ 11 = x0 + 256 * (x1 % 8) := by omega
      have e1 : (x1 / 2 ^ 3 + x2 * 2 ^ 5) % 2 ^ 11 = x1 / 8 + 32 * (x2 % 64) := by omega
      have e2 : (x2 / 2 ^ 6 + x3 * 2 ^ 2 + x4 * 2 ^ 10 % 65536) % 2 ^ 11 = x2 / 64 + 4 * x3 + 1024 * (x4 % 2) := by omega
      have e3 : (x4 / 2 ^ 1 + x5 * 2 ^ 7) % 2 ^ 11 = x4 / 2 + 128 * (x5 % 16) := by omega
      have e4 : (x5 / 2 ^ 4 + x6 * 2 ^ 4) % 2 ^ 11 = x5 / 16 + 16 * (x6 % 128) := by omega
      have e5 : (x6 / 2 ^ 7 + x7 * 2 ^ 1 + x8 * 2 ^ 9 % 65536) % 2 ^ 11 = x6 / 128 + 2 * x7 + 512 * (x8 % 4) := by omega
      have e6 : (x8 / 2 ^ 2 + x9 * 2 ^ 6) % 2 ^ 11 = x8 / 4 + 64 * (x9 % 32) := by omega
      have e7 : (x9 / 2 ^ 5 + x10 * 2 ^ 3) % 2 ^ 11 = x9 / 32 + 8 * x10 := by omega
      rw [e0, e1, e2, e3, e4, e5, e6, e7]
      have f1 : x1 = x1 % 8 + 8 * (x1 / 8) := by omega
      have f2 : x2 = x2 % 64 + 64 * (x2 / 64) := by omega
      have f4 : x4 = x4 % 2 + 2 * (x4 / 2) := by omega
      have f5 : x5 = x5 % 16 + 16 * (x5 / 16) := by omega
      have f6 : x6 = x6 % 128 + 128 * (x6 / 128) := by omega
      have f8 : x8 = x8 % 4 + 4 * (x8 / 4) := by omega
      have f9 : x9 = x9 % 32 + 32 * (x9 / 32) := by omega
      conv_rhs => rw [f1, f2, f4, f5, f6, f8, f9]
      ring

theorem pk4_packs : Packs 4 8 4 pk4 := by
  refine ⟨rfl, fun cs hl hb => ?_⟩
  match cs, hl with
  | [t0, t1, t2, t3, t4, t5, t6, t7], _ =>
    simp only [List.mem_cons, List.not_mem_nil, or_false, forall_eq_or_imp, forall_eq] at hb
    refine ⟨rfl, ?_⟩
    simp only [pk4, leVal, digits, u8, BitVec.toNat_ofNat, Nat.shiftLeft_eq, Nat.shiftRight_eq_div_pow]
    rw [or_add 4 (by omega) (by omega), or_add 4 (by omega) (by omega), or_add 4 (by omega) (by omega), or_add 4 (by omega) (by omega)]
    omega

theorem un4_unpacks : Unpacks 4 2 1 un4 := by
  refine ⟨rfl, fun w hl => ?_⟩
  match w, hl with
  | [b], _ =>
    have h0 := b.isLt
    refine ⟨rfl, ?_, ?_⟩
    · simp only [un4, List.mem_cons, List.not_mem_nil, or_false, forall_eq_or_imp, forall_eq, Nat.shiftRight_eq_div_pow]
      exact ⟨Nat.mod_lt _ (by decide), by omega⟩
    · simp only [un4, leVal, digits, Nat.shiftRight_eq_div_pow]
      omega

theorem pk5_packs : Packs 5 8 5 pk5 := by
  refine ⟨rfl, fun cs hl hb => ?_⟩
  match cs, hl with
  | [t0, t1, t2, t3, t4, t5, t6, t7], _ =>
    simp only [List.mem_cons, List.not_mem_nil, or_false, forall_eq_or_imp, forall_eq] at hb
    obtain ⟨h0, h1, h2, h3, h4, h5, h6, h7⟩ := hb
    refine ⟨rfl, ?_⟩
    simp only [pk5, leVal, digits, u8, BitVec.toNat_ofNat, Nat.shiftLeft_eq, Nat.shiftRight_eq_div_pow]
    rw [or_add 5 (by omega) (by omega), or_add 2 (b := t2 * 2 ^ 2) (by omega) (by omega), or_add 7 (by omega) (by omega), or_add 4 (a := t3 / 2 ^ 1) (by omega) (by omega),
      or_add 1 (b := t5 * 2 ^ 1) (by omega) (by omega), or_add 6 (by omega) (by omega), or_add 3 (by omega) (by omega)]
    omega

theorem un5_unpacks : Unpacks 5 8 5 un5 := by
  refine ⟨rfl, fun w hl => ?_⟩
  match w, hl with
  | [b0, b1, b2, b3, b4], _ =>
    have h0 := b0.isLt
    have h1 := b1.isLt
    have h2 := b2.isLt
    have h3 := b3.isLt
    have h4 := b4.isLt
    refine ⟨rfl, ?_, ?_⟩
    · simp only [un5, List.mem_cons, List.not_mem_nil, or_false, forall_eq_or_imp, forall_eq]
      exact ⟨Nat.mod_lt _ (by decide), Nat.mod_lt _ (by decide), Nat.mod_lt _ (by decide), Nat.mod_lt _ (by decide), Nat.mod_lt _ (by decide), Nat.mod_lt _ (by decide),
        Nat.mod_lt _ (by decide), Nat.mod_lt _ (by decide)⟩
    · simp only [un5, leVal, digits, Nat.shiftLeft_eq, Nat.shiftRight_eq_div_pow]
      rw [or_add 3 (by omega) (by omega), or_add 1 (by omega) (by omega), or_add 4 (by omega) (by omega), or_add 2 (by omega) (by omega)]
      generalize b0.toNat = x0 at *
      generalize b1.toNat = x1 at *
      generalize b2.toNat = x2 at *
      generalize b3.toNat = x3 at *
      generalize b4.toNat = x4 at *
      have e1 : (x0 / 2 ^ 5 + x1 * 2 ^ 3) % 256 % 2 ^ 5 = x0 / 32 + 8 * (x1 % 4) := by omega
      have e2 : x1 / 2 ^ 2 % 2 ^ 5 = x1 / 4 % 32 := by omega
      have e3 : (x1 / 2 ^ 7 + x2 * 2 ^ 1) % 256 % 2 ^ 5 = x1 / 4 / 32 + 2 * (x2 % 16) := by omega
      have e4 : (x2 / 2 ^ 4 + x3 * 2 ^ 4) % 256 % 2 ^ 5 = x2 / 16 + 16 * (x3 % 2) := by omega
      have e5 : x3 / 2 ^ 1 % 2 ^ 5 = x3 / 2 % 32 := by omega
      have e6 : (x3 / 2 ^ 6 + x4 * 2 ^ 2) % 256 % 2 ^ 5 = x3 / 2 / 32 + 4 * (x4 % 8) := by omega
      have e7 : x4 / 2 ^ 3 % 2 ^ 5 = x4 / 8 := by omega
      have e0 : x0 % 2 ^ 5 = x0 % 32 := rfl
      rw [e0, e1, e2, e3, e4, e5, e6, e7]
      have f0 : x0 = x0 % 32 + 32 * (x0 / 32) := by omega
      have f1 : x1 = x1 % 4 + 4 * (x1 / 4 % 32 + 32 * (x1 / 4 / 32)) := by omega
      have f2 : x2 = x2 % 16 + 16 * (x2 / 16) := by omega
      have f3 : x3 = x3 % 2 + 2 * (x3 / 2 % 32 + 32 * (x3 / 2 / 32)) := by omega
      have f4 : x4 = x4 % 8 + 8 * (x4 / 8) := by omega
      conv_rhs => rw [f0, f1, f2, f3, f4]
      ring

theorem pk1_packs : Packs 1 8 1 pk1 := by
  refine ⟨rfl, fun cs hl hb => ?_⟩
  match cs, hl with
  | [t0, t1, t2, t3, t4, t5, t6, t7], _ =>
    simp only [List.mem_cons, List.not_mem_nil, or_false, forall_eq_or_imp, forall_eq] at hb
    refine ⟨rfl, ?_⟩
    simp only [pk1, leVal, digits, u8, BitVec.toNat_ofNat, Nat.shiftLeft_eq]
    rw [or_add 1 (a := t0) (by omega) (by omega), or_add 2 (b := t2 * 2 ^ 2) (by omega) (by omega), or_add 3 (b := t3 * 2 ^ 3) (by omega) (by omega), or_add 4 (b := t4 * 2 ^ 4) (by omega) (by omega),
      or_add 5 (b := t5 * 2 ^ 5) (by omega) (by omega), or_add 6 (b := t6 * 2 ^ 6) (by omega) (by omega), or_add 7 (b := t7 * 2 ^ 7) (by omega) (by omega)]
    omega

theorem un1_unpacks : Unpacks 1 8 1 un1 := by
  refine ⟨rfl, fun w hl => ?_⟩
  match w, hl with
  | [b], _ =>
    have h0 := b.isLt
    refine ⟨by simp [un1], ?_, ?_⟩
    · intro c hc
      simp only [un1, List.mem_map] at hc
      obtain ⟨j, _, rfl⟩ := hc
      exact Nat.mod_lt _ (by decide)
    · have h : ∀ n < 256, digits 1 ((List.range 8).map fun j => (n >>> j) % 2) = n := by decide +kernel
      rw [un1, h _ h0, leVal, leVal, Nat.mul_zero, Nat.add_zero]

/-! ## Coefficients -/

theorem toPos_spec {v : Int} {x : F} (h : Is 3328 v x) : toPos v = x.val := by
  obtain ⟨h1, h2⟩ := h
  have h3 := ZMod.val_intCast (n := 3329) v
  rw [h2] at h3
  have h4 := abs_le.mp h1
  rw [toPos, Q]
  push_cast at h3
  split <;> omega

theorem val_lt (x : F) : x.val < 3329 := ZMod.val_lt x

theorem compress_lt (d : Nat) (x : F) : compress d x < 2 ^ d := Nat.mod_lt _ (Nat.two_pow_pos d)

theorem round_up {a b : Nat} (h : b = 2 * a) : (a + 1664) / 3329 = (b + 3329) / (2 * 3329) := by omega

theorem compress_spec {d : Nat} (hd : d ∈ [1, 4, 10, 11]) {v : Int} {x : F} (h : Is 3328 v x) : compressCoeff d v = compress d x := by
  have hx := val_lt x
  simp only [List.mem_cons, List.not_mem_nil, or_false] at hd
  rw [compressCoeff, toPos_spec h, compress, Nat.mod_eq_of_lt (b := 4294967296) (by rcases hd with rfl | rfl | rfl | rfl <;> omega), round_up]
  rw [Nat.mul_comm (2 ^ d)]

theorem compress5_spec {v : Int} {x : F} (h : Is 3328 v x) : compressCoeff5 v = compress 5 x := by
  have hx := val_lt x
  obtain ⟨h1, h2⟩ := h
  have h3 := ZMod.val_intCast (n := 3329) v
  rw [h2] at h3
  have h4 := abs_le.mp h1
  have : i16 (v + if v < 0 then Q else 0) = x.val := by
    rw [i16_id]
    · rw [Q]; push_cast at h3; split <;> omega
    · rw [Q]; split <;> exact abs_le.mpr (by omega)
  rw [compressCoeff5, this, compress, show ((x.val : Int) % 4294967296).toNat = x.val from by omega, Nat.mod_eq_of_lt (b := 4294967296) (by omega),
    round_up (b := 2 * (2 ^ 5 * x.val)) (by omega), show (2 : Nat) ^ 5 = 32 from rfl]

theorem decompress_spec {d : Nat} (hd : d ∈ [4, 5, 10, 11]) {t : Nat} (h : t < 2 ^ d) : 0 ≤ decompressCoeff d t ∧ decompressCoeff d t ≤ 3328 ∧ ((decompressCoeff d t : Int) : F) = decompress d t := by
  simp only [List.mem_cons, List.not_mem_nil, or_false] at hd
  have hb : (t * 3329 + 2 ^ (d - 1)) / 2 ^ d ≤ 3328 := by
    rcases hd with rfl | rfl | rfl | rfl <;> omega
  have he : (t * 3329 + 2 ^ (d - 1)) / 2 ^ d = (2 * 3329 * t + 2 ^ d) / (2 * 2 ^ d) := by
    rcases hd with rfl | rfl | rfl | rfl <;> omega
  have hi : decompressCoeff d t = (((t * 3329 + 2 ^ (d - 1)) / 2 ^ d : Nat) : Int) := by
    rw [decompressCoeff, i16_id]
    generalize (t * 3329 + 2 ^ (d - 1)) / 2 ^ d = n at hb
    exact abs_le.mpr (by omega)
  refine ⟨?_, ?_, ?_⟩
  · rw [hi]; exact Int.natCast_nonneg _
  · rw [hi]; exact_mod_cast hb
  rw [hi, he, decompress, Int.cast_natCast]

/-! ## Polynomials -/

theorem packLoop_rep {d G m g : Nat} {val : Int → Nat} {sp : F → Nat} {pk : List Nat → List Byte} {B : Int} (hp : Packs d m g pk) (hG : m * G = 256)
    (hv : ∀ v x, Is B v x → val v = sp x) (hs : ∀ x, sp x < 2 ^ d) {a : List Int} {f : Nat → F} (ha : Rep (Is B) a f) {off : Nat} (pre junk post : List Byte)
    (ho : off = pre.length) (hj : junk.length = g * G) :
    packLoop G m g val pk a (pre ++ junk ++ post) off = .ok (pre ++ encode d ((List.range 256).map fun i => sp (f i)) ++ post) := by
  subst ho
  have hm : a.map val = (List.range 256).map fun i => sp (f i) := by
    apply List.ext_getElem?
    intro i
    rw [List.getElem?_map, List.getElem?_map]
    by_cases hi : i < 256
    · obtain ⟨v, _, e, s⟩ := ha.get hi
      rw [e, List.getElem?_range hi, Option.map_some, Option.map_some, hv v _ s]
    · rw [List.getElem?_eq_none (by rw [ha.1]; omega), List.getElem?_eq_none (by rw [List.length_range]; omega)]
      rfl
  rw [packLoop_spec hp (by rw [ha.1, hG]) (fun v hv' => ?_) pre junk post hj, hm]
  obtain ⟨i, hi, rfl⟩ := List.mem_iff_getElem.mp hv'
  rw [hv _ _ (ha.2 i _ (List.getElem?_eq_getElem hi))]
  exact hs _

theorem rep_range {P : Int → F → Prop} {g : Nat → Int} {f : Nat → F} (h : ∀ i, i < 256 → P (g i) (f i)) : Rep P ((List.range 256).map g) f := by
  refine ⟨by rw [List.length_map, List.length_range], fun i v hv => ?_⟩
  rw [List.getElem?_map] at hv
  by_cases hi : i < 256
  · rw [List.getElem?_range hi, Option.map_some, Option.some.injEq] at hv
    exact hv ▸ h i hi
  · rw [List.getElem?_eq_none (by rw [List.length_range]; omega)] at hv
    simp at hv

theorem unpackLoop_rep {d G m g : Nat} {out : Nat → Int} {un : List Byte → List Nat} (hu : Unpacks d m g un) (hG : m * G = 256) {w : List Byte} (hw : w.length = g * G) {bs : List Byte} {off : Nat}
    (hb : Holds bs off w) {r : List Int} (hr : r.length = 256) :
    unpackLoop G m g un out bs off r = .ok ((List.range 256).map fun i => out (number d w i)) := by
  rw [unpackLoop_spec hu hw hb (by rw [hr, hG]), hG, decode, List.map_map]
  rfl

theorem number_lt (d : Nat) (w : List Byte) (i : Nat) : number d w i < 2 ^ d := Nat.mod_lt _ (Nat.two_pow_pos d)

/-! ## Vectors -/

theorem vecPack {K L : Nat} {f : Nat → List Byte → M (List Byte)} {e : Nat → List Byte} (hl : ∀ i, i < K → (e i).length = L)
    (h : ∀ i, i < K → ∀ pre junk post, pre.length = L * i → junk.length = L → f i (pre ++ junk ++ post) = .ok (pre ++ e i ++ post)) {junk : List Byte} (hj : junk.length = L * K)
    (post : List Byte) : loopN K 0 f (junk ++ post) = .ok ((List.range K).flatMap e ++ post) := by
  obtain ⟨r', h1, h2⟩ := loopN_inv (f := f) (fun i r => i ≤ K ∧ ∃ rest, r = (List.range i).flatMap e ++ (rest ++ post) ∧ ((List.range i).flatMap e).length = L * i ∧ rest.length = L * (K - i)) K 0 (junk ++ post)
    (by
      rintro i r _ hi ⟨_, rest, rfl, hl', hr⟩
      have hi : i < K := by omega
      have hgr : L * (K - i) = L + L * (K - (i + 1)) := by rw [show K - i = 1 + (K - (i + 1)) from by omega, Nat.mul_add, Nat.mul_one]
      refine ⟨_, ?_, hi, rest.drop L, rfl, ?_, by rw [List.length_drop]; omega⟩
      · have e1 : (List.range i).flatMap e ++ (rest ++ post) = (List.range i).flatMap e ++ rest.take L ++ (rest.drop L ++ post) := by
          conv_lhs => rw [← List.take_append_drop L rest]
          simp only [List.append_assoc]
        rw [e1, h i hi _ _ _ hl' (by rw [List.length_take]; omega), List.range_succ, List.flatMap_append]
        simp [List.append_assoc]
      · rw [List.range_succ, List.flatMap_append, List.length_append, hl', Nat.mul_add, Nat.mul_one]
        simp [hl i hi])
    ⟨by omega, junk, by simp, by simp, by simpa using hj⟩
  obtain ⟨_, rest, rfl, _, hr⟩ := h2
  rw [h1]
  have hr0 : rest = [] := by apply List.eq_nil_of_length_eq_zero; rw [hr]; simp
  rw [hr0, List.nil_append, Nat.zero_add]

/-- One step of the loops that unpack a vector. -/
theorem vecUnpack {K : Nat} {f : Nat → List (List Int) → M (List (List Int))} {u : Nat → List Int → M (List Int)} {g : Nat → List Int}
    (hf : ∀ i r, f i r = (do wr r i (← u i (← rd r i)))) (h : ∀ i, i < K → ∀ p, p.length = 256 → u i p = .ok (g i))
    {r : List (List Int)} (hK : r.length = K) (hr : ∀ p ∈ r, p.length = 256) : loopN K 0 f r = .ok ((List.range K).map g) := by
  obtain ⟨r', h1, h2⟩ := loopN_inv (f := f) (fun i s => ∃ rest, s = (List.range i).map g ++ rest ∧ rest.length = K - i ∧ ∀ p ∈ rest, p.length = 256) K 0 r
    (by
      rintro i s _ hi ⟨rest, rfl, hl, hp⟩
      have hi : i < K := by omega
      obtain ⟨p, rest, rfl⟩ : ∃ p t, rest = p :: t := by
        match rest, hl with
        | [], hl => simp at hl; omega
        | p :: t, _ => exact ⟨p, t, rfl⟩
      refine ⟨(List.range (i + 1)).map g ++ rest, ?_, rest, rfl, by rw [List.length_cons] at hl; omega, fun q hq => hp q (by simp [hq])⟩
      have hli : ((List.range i).map g).length = i := by rw [List.length_map, List.length_range]
      rw [hf, rd_ok (h := by rw [List.length_append, hli, List.length_cons]; omega), ok_bind, h i hi]
      · rw [ok_bind, wr_ok (h := by rw [List.length_append, hli, List.length_cons]; omega), List.set_append_right _ _ (by rw [hli]), hli]
        simp [List.range_succ]
      · apply hp
        rw [List.getElem_append_right (by rw [hli])]
        simp [hli])
    ⟨r, by simp, by omega, hr⟩
  obtain ⟨rest, rfl, hl, _⟩ := h2
  rw [h1]
  have hr0 : rest = [] := by apply List.eq_nil_of_length_eq_zero; rw [hl]; simp
  rw [hr0, List.append_nil, Nat.zero_add]

/-! ## The functions -/

theorem polyToBytes_rep {a : List Int} {f : Nat → F} (ha : Rep (Is 3328) a f) {off : Nat} (pre junk post : List Byte) (ho : off = pre.length) (hj : junk.length = 384) :
    polyToBytes (pre ++ junk ++ post) off a = .ok (pre ++ encodePoly f ++ post) :=
  packLoop_rep pk12_packs rfl (fun _ _ h => toPos_spec h) (fun x => Nat.lt_trans (val_lt x) (by decide)) ha pre junk post ho hj

theorem polyFromBytes_eq {w bs : List Byte} {off : Nat} (hw : w.length = 384) (hb : Holds bs off w) {r : List Int} (hr : r.length = 256) :
    polyFromBytes r bs off = .ok ((List.range 256).map fun i => (number 12 w i : Int)) :=
  unpackLoop_rep un12_unpacks rfl hw hb hr

theorem fromBytes_rep (w : List Byte) : Rep (Is 4095) ((List.range 256).map fun i => (number 12 w i : Int)) (decodePoly w) :=
  rep_range fun i _ => ⟨by
    have := number_lt 12 w i
    exact abs_le.mpr (by omega), by rw [decodePoly, Int.cast_natCast]⟩

theorem encode_length (d : Nat) (cs : List Nat) : (encode d cs).length = d * cs.length / 8 := by rw [encode, leEnc_length]

theorem encodePoly_length (f : Nat → F) : (encodePoly f).length = 384 := by
  rw [encodePoly, encode_length, List.length_map, List.length_range]

theorem encodeCompressed_length (d : Nat) (f : Nat → F) : (encodeCompressed d f).length = 32 * d := by
  rw [encodeCompressed, encode_length, List.length_map, List.length_range]
  omega

theorem polyVecToBytes_rep {K : Nat} {a : List (List Int)} {f : Nat → Nat → F} (ha : Reps (Is 3328) K a f) {junk : List Byte} (hj : junk.length = 384 * K) (post : List Byte) :
    polyVecToBytes (junk ++ post) a = .ok ((List.range K).flatMap (fun i => encodePoly (f i)) ++ post) := by
  rw [polyVecToBytes, ha.1]
  refine vecPack (L := 384) (fun i _ => encodePoly_length _) (fun i hi pre j p h1 h2 => ?_) hj post
  obtain ⟨r, e, s⟩ := ha.get hi
  rw [e, ok_bind, polyToBytes_rep s pre j p (by omega) h2]

/-- The bytes of entry `i` of a packed vector. -/
def chunk (L : Nat) (w : List Byte) (i : Nat) : List Byte := (w.drop (L * i)).take L

theorem chunk_length {L K i : Nat} {w : List Byte} (hw : L * K ≤ w.length) (hi : i < K) : (chunk L w i).length = L := by
  have : L * (i + 1) ≤ L * K := Nat.mul_le_mul_left _ hi
  rw [Nat.mul_add, Nat.mul_one] at this
  rw [chunk, List.length_take, List.length_drop]
  omega

theorem chunk_holds {L K i : Nat} {w : List Byte} (hw : L * K ≤ w.length) (hi : i < K) : Holds w (L * i) (chunk L w i) := by
  have : L * (i + 1) ≤ L * K := Nat.mul_le_mul_left _ hi
  rw [Nat.mul_add, Nat.mul_one] at this
  refine ⟨w.take (L * i), w.drop (L * i + L), ?_, by rw [List.length_take]; omega⟩
  rw [chunk, List.append_assoc, ← List.drop_drop, List.take_append_drop, List.take_append_drop]

theorem polyVecFromBytes_eq {K : Nat} {w : List Byte} (hw : 384 * K ≤ w.length) {r : List (List Int)} (hr : r.length = K) (hp : ∀ p ∈ r, p.length = 256) :
    polyVecFromBytes r w = .ok ((List.range K).map fun i => (List.range 256).map fun j => (number 12 (chunk 384 w i) j : Int)) := by
  rw [polyVecFromBytes, hr]
  refine vecUnpack (u := fun i p => polyFromBytes p w (i * 384)) (fun i r => rfl) (fun i hi p hp' => ?_) hr hp
  exact polyFromBytes_eq (chunk_length hw hi) (by rw [Nat.mul_comm]; exact chunk_holds hw hi) hp'

theorem reps_range {P : Int → F → Prop} {K : Nat} {g : Nat → List Int} {f : Nat → Nat → F} (h : ∀ i, i < K → Rep P (g i) (f i)) : Reps P K ((List.range K).map g) f := by
  refine ⟨by rw [List.length_map, List.length_range], fun i r hr => ?_⟩
  rw [List.getElem?_map] at hr
  by_cases hi : i < K
  · rw [List.getElem?_range hi, Option.map_some, Option.some.injEq] at hr
    exact hr ▸ h i hi
  · rw [List.getElem?_eq_none (by rw [List.length_range]; omega)] at hr
    simp at hr

theorem polyCompress_rep {a : List Int} {f : Nat → F} (ha : Rep (Is 3328) a f) (K : Nat) {off : Nat} (pre junk post : List Byte) (ho : off = pre.length) (hj : junk.length = 32 * dv K) :
    polyCompress (pre ++ junk ++ post) off a K = .ok (pre ++ encodeCompressed (dv K) f ++ post) := by
  rw [polyCompress]
  unfold dv at hj ⊢
  split
  · rw [if_pos ‹_›] at hj
    exact packLoop_rep pk4_packs rfl (fun _ _ h => compress_spec (by decide) h) (compress_lt 4) ha pre junk post ho hj
  · rw [if_neg ‹_›] at hj
    exact packLoop_rep pk5_packs rfl (fun _ _ h => compress5_spec h) (compress_lt 5) ha pre junk post ho hj

theorem polyDecompress_eq {w bs : List Byte} {off : Nat} (K : Nat) (hw : w.length = 32 * dv K) (hb : Holds bs off w) {r : List Int} (hr : r.length = 256) :
    polyDecompress r bs off K = .ok ((List.range 256).map fun i => decompressCoeff (dv K) (number (dv K) w i)) := by
  rw [polyDecompress]
  unfold dv at hw ⊢
  split
  · rw [if_pos ‹_›] at hw
    exact unpackLoop_rep un4_unpacks rfl (by omega) hb hr
  · rw [if_neg ‹_›] at hw
    exact unpackLoop_rep un5_unpacks rfl (by omega) hb hr

theorem decompress_rep {d : Nat} (hd : d ∈ [4, 5, 10, 11]) (w : List Byte) : Rep (Is 3328) ((List.range 256).map fun i => decompressCoeff d (number d w i)) (decodeCompressed d w) :=
  rep_range fun i _ => by
    obtain ⟨h1, h2, h3⟩ := decompress_spec hd (number_lt d w i)
    exact ⟨abs_le.mpr (by omega), h3⟩

theorem polyVecCompress_rep {K : Nat} (hK : K ∈ [2, 3, 4, 5]) {a : List (List Int)} {f : Nat → Nat → F} (ha : Reps (Is 3328) K a f) {junk : List Byte} (hj : junk.length = 32 * du K * K) (post : List Byte) :
    polyVecCompress (junk ++ post) a = .ok ((List.range K).flatMap (fun i => encodeCompressed (du K) (f i)) ++ post) := by
  rw [polyVecCompress, ha.1]
  unfold du at hj ⊢
  by_cases h : K = 2 ∨ K = 3
  · rw [if_neg (by omega), if_pos h, if_pos h]
    rw [if_pos h] at hj
    refine vecPack (L := 320) (fun i _ => encodeCompressed_length _ _) (fun i hi pre j p h1 h2 => ?_) (by omega) post
    obtain ⟨r, e, s⟩ := ha.get hi
    rw [e, ok_bind]
    exact packLoop_rep pk10_packs rfl (fun _ _ h => compress_spec (by decide) h) (compress_lt 10) s pre j p (by omega) h2
  · have h' : K = 4 ∨ K = 5 := by simp only [List.mem_cons, List.not_mem_nil, or_false] at hK; omega
    rw [if_pos h', if_neg h]
    rw [if_neg h] at hj
    refine vecPack (L := 352) (fun i _ => encodeCompressed_length _ _) (fun i hi pre j p h1 h2 => ?_) (by omega) post
    obtain ⟨r, e, s⟩ := ha.get hi
    rw [e, ok_bind]
    exact packLoop_rep pk11_packs rfl (fun _ _ h => compress_spec (by decide) h) (compress_lt 11) s pre j p (by omega) h2

theorem polyVecDecompress_eq {K : Nat} (hK : K ∈ [2, 3, 4, 5]) {w : List Byte} (hw : 32 * du K * K ≤ w.length) {r : List (List Int)} (hr : r.length = K) (hp : ∀ p ∈ r, p.length = 256) :
    polyVecDecompress r w = .ok ((List.range K).map fun i => (List.range 256).map fun j => decompressCoeff (du K) (number (du K) (chunk (32 * du K) w i) j)) := by
  rw [polyVecDecompress, hr]
  unfold du at hw ⊢
  by_cases h : K = 2 ∨ K = 3
  · rw [if_neg (by omega), if_pos h, if_pos h]
    rw [if_pos h] at hw
    refine vecUnpack (u := fun i p => unpackLoop 64 4 5 un10 (decompressCoeff 10) w (320 * i) p) (fun i r => rfl) (fun i hi p hp' => ?_) hr hp
    exact unpackLoop_rep un10_unpacks rfl (chunk_length hw hi) (chunk_holds hw hi) hp'
  · have h' : K = 4 ∨ K = 5 := by simp only [List.mem_cons, List.not_mem_nil, or_false] at hK; omega
    rw [if_pos h', if_neg h]
    rw [if_neg h] at hw
    refine vecUnpack (u := fun i p => unpackLoop 32 8 11 un11 (decompressCoeff 11) w (352 * i) p) (fun i r => rfl) (fun i hi p hp' => ?_) hr hp
    exact unpackLoop_rep un11_unpacks rfl (chunk_length hw hi) (chunk_holds hw hi) hp'

theorem polyToMsg_rep {a : List Int} {f : Nat → F} (ha : Rep (Is 3328) a f) (junk post : List Byte) (hj : junk.length = 32) :
    polyToMsg (junk ++ post) a = .ok (encodeCompressed 1 f ++ post) :=
  packLoop_rep (d := 1) (sp := compress 1) pk1_packs rfl (fun _ _ h => compress_spec (by decide) h) (compress_lt 1) ha [] junk post rfl hj

theorem polyFromMsg_rep {w bs : List Byte} (hw : w.length = 32) (hb : Holds bs 0 w) {r : List Int} (hr : r.length = 256) :
    ∃ r', polyFromMsg r bs = .ok r' ∧ Rep (Is 1665) r' (decodeCompressed 1 w) := by
  refine ⟨_, unpackLoop_rep (d := 1) un1_unpacks rfl hw hb hr, rep_range fun i _ => ?_⟩
  have h := number_lt 1 w i
  rw [decodeCompressed]
  rcases Nat.lt_succ_iff_lt_or_eq.mp h with h | h
  · rw [show number 1 w i = 0 from by omega]
    exact ⟨by decide, by decide +kernel⟩
  · rw [h]
    exact ⟨by decide, by decide +kernel⟩

end Cex.Kyber
