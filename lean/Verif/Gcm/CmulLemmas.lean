import Verif.Gcm.CmulModel
import Verif.Gcm.Field
import Verif.IntTools.Props
import Verif.Digest.Sha2Lemmas

/-! # The scalar multiplication is Algorithm 1 -/

namespace Cex.Gcm
open Cex Cex.IntTools

theorem and_top (X : BitVec 64) (i : Nat) (hi : i < 64) : (X &&& ((0x8000000000000000 : BitVec 64) >>> i) = 0) ↔ X.getMsbD i = false := by
  have hb : ∀ j < 64, ((0x8000000000000000 : BitVec 64) >>> i).getLsbD j = decide (j + i = 63) := by
    intro j hj
    rw [BitVec.getLsbD_ushiftRight, show (0x8000000000000000 : BitVec 64) = BitVec.twoPow 64 63 from by decide, BitVec.getLsbD_twoPow]
    simp; omega
  constructor
  · intro h
    have := congrArg (fun z => z.getLsbD (63 - i)) h
    rw [BitVec.getLsbD_and, hb _ (by omega)] at this
    rw [BitVec.getMsbD]
    simp only [hi, decide_true, Bool.true_and]
    simpa [show 63 - i + i = 63 by omega] using this
  · intro h
    apply BitVec.eq_of_getLsbD_eq
    intro j hj
    rw [BitVec.getLsbD_and, hb j hj]
    by_cases hji : j + i = 63
    · rw [BitVec.getMsbD] at h
      simp only [hi, decide_true, Bool.true_and] at h
      rw [show 64 - 1 - i = j by omega] at h
      simp [h]
    · simp [hji]

/-- Two words as one block. -/
def cat (a b : BitVec 64) : BitVec 128 := a ++ b

theorem cat_lsb (a b : BitVec 64) (i : Nat) : (cat a b).getLsbD i = if i < 64 then b.getLsbD i else a.getLsbD (i - 64) := BitVec.getLsbD_append

theorem cat_xor (a b c d : BitVec 64) : cat a b ^^^ cat c d = cat (a ^^^ c) (b ^^^ d) := BitVec.xor_append

theorem msb_left (a b : BitVec 64) (j : Nat) (hj : j < 64) : (cat a b).getMsbD j = a.getMsbD j := by
  rw [cat, BitVec.getMsbD_append, if_neg (by omega)]

theorem msb_right (a b : BitVec 64) (j : Nat) : (cat a b).getMsbD (64 + j) = b.getMsbD j := by
  rw [cat, BitVec.getMsbD_append, if_pos (by omega)]; congr 1; omega

theorem cat_toNat (a b : BitVec 64) : (cat a b).toNat = a.toNat * 2 ^ 64 + b.toNat := by
  rw [cat, BitVec.toNat_append, ← Nat.shiftLeft_add_eq_or_of_lt b.isLt, Nat.shiftLeft_eq]

theorem mulx_halves (a b : BitVec 64) :
    cat ((a >>> 1) ^^^ ((0xE100000000000000 : BitVec 64) &&& expandMask 6 (b &&& 1))) ((b >>> 1) ||| (a <<< 63)) = Nist.mulx (cat a b) := by
  have hs : cat (a >>> 1) ((b >>> 1) ||| (a <<< 63)) = (cat a b) >>> 1 := by
    apply BitVec.eq_of_getLsbD_eq
    intro i hi
    rw [cat_lsb, BitVec.getLsbD_ushiftRight (cat a b), cat_lsb]
    by_cases h1 : i < 63
    · rw [if_pos (by omega), if_pos (by omega), BitVec.getLsbD_or, BitVec.getLsbD_ushiftRight, BitVec.getLsbD_shiftLeft]
      simp [h1]
    · by_cases h2 : i = 63
      · subst h2; simp
      · rw [if_neg (by omega), if_neg (by omega), BitVec.getLsbD_ushiftRight]
        congr 1; omega
  have h0 : (cat a b).getLsbD 0 = b.getLsbD 0 := by rw [cat_lsb, if_pos (by omega)]
  have hb : (b &&& 1 = 0) ↔ b.getLsbD 0 = false := by
    constructor
    · intro h
      have := congrArg (fun z => z.getLsbD 0) h
      simpa using this
    · intro h
      apply BitVec.eq_of_getLsbD_eq
      intro j hj
      rw [BitVec.getLsbD_and]
      cases j with
      | zero => rw [h]; simp
      | succ j => simp
  rw [expandMask_eq 6 (by decide), Nist.mulx, h0]
  by_cases h : b.getLsbD 0 = true
  · rw [if_pos h, if_neg (by rw [hb, h]; decide), ← hs, Nist.R]
    rw [show (0xE1000000000000000000000000000000 : BitVec 128) = cat (0xE100000000000000 : BitVec 64) (0 : BitVec 64) from by decide, cat_xor]
    rw [BitVec.and_allOnes, show ∀ y : BitVec 64, y ^^^ 0 = y from fun y => BitVec.xor_zero]
  · rw [if_neg h, if_pos (by rw [hb]; simpa using h), ← hs, show ∀ y : BitVec 64, y &&& 0 = 0 from fun y => BitVec.and_zero,
      show ∀ y : BitVec 64, y ^^^ 0 = y from fun y => BitVec.xor_zero]

theorem mask_append (c : Bool) (z0 z1 t0 t1 : BitVec 64) :
    cat (z0 ^^^ (t0 &&& if c then BitVec.allOnes 64 else 0)) (z1 ^^^ (t1 &&& if c then BitVec.allOnes 64 else 0)) =
      if c then cat z0 z1 ^^^ cat t0 t1 else cat z0 z1 := by
  cases c
  · simp
  · simp only [if_true, cat_xor, BitVec.and_allOnes]

theorem mask_bit (x : BitVec 64) (i : Nat) (hi : i < 64) :
    expandMask 6 (x &&& ((0x8000000000000000 : BitVec 64) >>> i)) = if x.getMsbD i then BitVec.allOnes 64 else 0 := by
  rw [expandMask_eq 6 (by decide)]
  by_cases h : x.getMsbD i = true
  · rw [if_pos h, if_neg (by rw [and_top x i hi, h]; decide)]
  · rw [if_neg h, if_pos (by rw [and_top x i hi]; simpa using h)]

theorem cmulRounds_eq (X : BitVec 128) (x : BitVec 64) (d : Nat) (hx : ∀ j < 64, X.getMsbD (d + j) = x.getMsbD j) :
    ∀ n i (s : CmulSt), i + n ≤ 64 → s.mpos = (0x8000000000000000 : BitVec 64) >>> i →
      (cat (cmulRounds x n s).Z0 (cmulRounds x n s).Z1, cat (cmulRounds x n s).T0 (cmulRounds x n s).T1) = Nist.steps X (d + i) n (cat s.Z0 s.Z1, cat s.T0 s.T1) ∧
      (cmulRounds x n s).mpos = (0x8000000000000000 : BitVec 64) >>> (i + n)
  | 0, i, s, _, hm => ⟨rfl, hm⟩
  | n + 1, i, s, hin, hm => by
    have hr := cmulRounds_eq X x d hx n (i + 1) (cmulRound x s) (by omega) (by
      simp only [cmulRound]; rw [hm, ← BitVec.shiftRight_add])
    rw [cmulRounds]
    refine ⟨?_, by rw [hr.2]; congr 1; omega⟩
    rw [hr.1, Nist.steps, hx i (by omega)]
    have h1 : cat (cmulRound x s).Z0 (cmulRound x s).Z1 = if x.getMsbD i then cat s.Z0 s.Z1 ^^^ cat s.T0 s.T1 else cat s.Z0 s.Z1 := by
      simp only [cmulRound, hm, mask_bit x i (by omega)]
      exact mask_append _ _ _ _ _
    have h2 : cat (cmulRound x s).T0 (cmulRound x s).T1 = Nist.mulx (cat s.T0 s.T1) := mulx_halves _ _
    rw [h1, h2, Nat.add_assoc]

theorem steps_add (x : BitVec 128) : ∀ n m i s, Nist.steps x i (n + m) s = Nist.steps x (i + n) m (Nist.steps x i n s)
  | 0, m, i, s => by rw [Nat.zero_add]; rfl
  | n + 1, m, i, s => by
    rw [show n + 1 + m = (n + m) + 1 by omega, Nist.steps, steps_add x n m, Nist.steps]
    congr 1; omega

theorem cmulCore_eq (h0 h1 x0 x1 : BitVec 64) : cat (cmulCore h0 h1 x0 x1).1 (cmulCore h0 h1 x0 x1).2 = Nist.mul (cat x0 x1) (cat h0 h1) := by
  have r1 := cmulRounds_eq (cat x0 x1) x0 0 (fun j hj => by rw [Nat.zero_add]; exact msb_left _ _ _ hj) 64 0 ⟨h0, h1, 0, 0, 0x8000000000000000⟩ (by omega) (by simp)
  have r2 := cmulRounds_eq (cat x0 x1) x1 64 (fun j hj => msb_right _ _ _) 63 0 { cmulRounds x0 64 ⟨h0, h1, 0, 0, 0x8000000000000000⟩ with mpos := 0x8000000000000000 } (by omega) (by simp)
  generalize hS : cmulRounds x1 63 { cmulRounds x0 64 ⟨h0, h1, 0, 0, 0x8000000000000000⟩ with mpos := 0x8000000000000000 } = S at r2
  rw [cmulCore]
  simp only [hS]
  rw [r2.2, Nat.zero_add, mask_bit x1 63 (by omega), mask_append]
  have r1' := r1.1
  rw [show cat (0 : BitVec 64) (0 : BitVec 64) = (0 : BitVec 128) from by decide] at r1'
  have r2' := r2.1
  simp only [Nat.add_zero] at r2' r1'
  rw [r1'] at r2'
  rw [Nist.mul, show Nist.steps (cat x0 x1) 0 128 (0, cat h0 h1) = Nist.steps (cat x0 x1) 0 (64 + (63 + 1)) (0, cat h0 h1) from rfl, steps_add _ 64, steps_add _ 63 1, Nat.zero_add, ← r2',
    Nist.steps, Nist.steps, msb_right]

/-! ## Blocks as bytes -/

/-- The 128 bits of a block. -/
def blk (b : List Byte) : BitVec 128 := BitVec.ofNat 128 (beVal b)

/-- The bytes of 128 bits. -/
def unblk (v : BitVec 128) : List Byte := beEnc 16 v.toNat

theorem unblk_length (v : BitVec 128) : (unblk v).length = 16 := beEnc_length 16 _

theorem blk_unblk (v : BitVec 128) : blk (unblk v) = v := by
  apply BitVec.eq_of_toNat_eq
  rw [blk, unblk, BitVec.toNat_ofNat, beVal_beEnc, show (256 : Nat) ^ 16 = 2 ^ 128 from by decide, Nat.mod_mod, Nat.mod_eq_of_lt v.isLt]

theorem unblk_blk {b : List Byte} (h : b.length = 16) : unblk (blk b) = b := by
  have hb := beVal_lt b
  rw [h, show (256 : Nat) ^ 16 = 2 ^ 128 from by decide] at hb
  rw [unblk, blk, BitVec.toNat_ofNat, Nat.mod_eq_of_lt hb, ← h, beEnc_beVal]

theorem unblk_cat (a b : BitVec 64) : unblk (cat a b) = beEnc 8 a.toNat ++ beEnc 8 b.toNat := by
  symm
  apply eq_beEnc (by simp)
  rw [beVal_append, beVal_beEnc, beVal_beEnc, beEnc_length, cat_toNat]
  have := a.isLt
  have := b.isLt
  rw [Nat.mod_eq_of_lt (by omega), Nat.mod_eq_of_lt (by omega), Nat.mod_eq_of_lt (by omega)]
  omega

theorem permuteC_eq (h0 h1 : BitVec 64) (b : List Byte) (hb : b.length = 16) : permuteC h0 h1 b = .ok (unblk (Nist.mul (blk b) (cat h0 h1))) := by
  have e : b = b.take 8 ++ b.drop 8 := (List.take_append_drop 8 b).symm
  have hl1 : (b.take 8).length = 8 := by rw [List.length_take]; omega
  have hl2 : (b.drop 8).length = 8 := by rw [List.length_drop]; omega
  obtain ⟨x0, e0, v0⟩ := C01_be64_read.1 [] (b.take 8) (b.drop 8) hl1
  obtain ⟨x1, e1, v1⟩ := C01_be64_read.1 (b.take 8) (b.drop 8) [] hl2
  simp only [List.nil_append, List.append_nil, List.length_nil, ← e, hl1] at e0 e1
  have hx : blk b = cat x0 x1 := by
    apply BitVec.eq_of_toNat_eq
    rw [cat_toNat, v0, v1, blk, BitVec.toNat_ofNat]
    conv_lhs => rw [e]
    have h1 := beVal_lt (b.take 8)
    have h2 := beVal_lt (b.drop 8)
    rw [beVal_append, hl2]
    rw [hl1] at h1; rw [hl2] at h2
    rw [Nat.mod_eq_of_lt (by omega)]
    omega
  have w0 := Cex.Digest.write_be64 (cmulCore h0 h1 x0 x1).1 [] (b.take 8) (b.drop 8) hl1
  have w1 := Cex.Digest.write_be64 (cmulCore h0 h1 x0 x1).2 (beEnc 8 (cmulCore h0 h1 x0 x1).1.toNat) (b.drop 8) [] hl2
  simp only [List.nil_append, List.append_nil, List.length_nil, ← e, beEnc_length] at w0 w1
  rw [permuteC, e0, ok_bind, e1, ok_bind]
  simp only []
  rw [w0, ok_bind, w1, ← unblk_cat, cmulCore_eq, hx]

end Cex.Gcm
