import Verif.Ec25519.OpLemmas

/-!
# Decoding, encoding and swapping of the 32-bit path
-/

namespace Cex.Ec25519

theorem leVal_take_succ {s : List Byte} {n : Nat} (h : n < s.length) :
    leVal (s.take (n + 1)) = leVal (s.take n) + 256 ^ n * byteAt s n := by
  rw [List.take_succ_eq_append_getElem h, leVal_append, List.length_take, Nat.min_eq_left (Nat.le_of_lt h), byteAt_eq h]
  simp [leVal]

theorem leVal_take32 {s : List Byte} (h : 32 ≤ s.length) :
    leVal (s.take 32) = byteAt s 0 + 2 ^ 8 * byteAt s 1 + 2 ^ 16 * byteAt s 2 + 2 ^ 24 * byteAt s 3 + 2 ^ 32 * byteAt s 4 +
      2 ^ 40 * byteAt s 5 + 2 ^ 48 * byteAt s 6 + 2 ^ 56 * byteAt s 7 + 2 ^ 64 * byteAt s 8 + 2 ^ 72 * byteAt s 9 + 2 ^ 80 * byteAt s 10 +
      2 ^ 88 * byteAt s 11 + 2 ^ 96 * byteAt s 12 + 2 ^ 104 * byteAt s 13 + 2 ^ 112 * byteAt s 14 + 2 ^ 120 * byteAt s 15 +
      2 ^ 128 * byteAt s 16 + 2 ^ 136 * byteAt s 17 + 2 ^ 144 * byteAt s 18 + 2 ^ 152 * byteAt s 19 + 2 ^ 160 * byteAt s 20 +
      2 ^ 168 * byteAt s 21 + 2 ^ 176 * byteAt s 22 + 2 ^ 184 * byteAt s 23 + 2 ^ 192 * byteAt s 24 + 2 ^ 200 * byteAt s 25 +
      2 ^ 208 * byteAt s 26 + 2 ^ 216 * byteAt s 27 + 2 ^ 224 * byteAt s 28 + 2 ^ 232 * byteAt s 29 + 2 ^ 240 * byteAt s 30 +
      2 ^ 248 * byteAt s 31 := by
  rw [leVal_take_succ (show 31 < s.length from by omega), leVal_take_succ (show 30 < s.length from by omega), leVal_take_succ (show 29 < s.length from by omega),
    leVal_take_succ (show 28 < s.length from by omega), leVal_take_succ (show 27 < s.length from by omega), leVal_take_succ (show 26 < s.length from by omega),
    leVal_take_succ (show 25 < s.length from by omega), leVal_take_succ (show 24 < s.length from by omega), leVal_take_succ (show 23 < s.length from by omega),
    leVal_take_succ (show 22 < s.length from by omega), leVal_take_succ (show 21 < s.length from by omega), leVal_take_succ (show 20 < s.length from by omega),
    leVal_take_succ (show 19 < s.length from by omega), leVal_take_succ (show 18 < s.length from by omega), leVal_take_succ (show 17 < s.length from by omega),
    leVal_take_succ (show 16 < s.length from by omega), leVal_take_succ (show 15 < s.length from by omega), leVal_take_succ (show 14 < s.length from by omega),
    leVal_take_succ (show 13 < s.length from by omega), leVal_take_succ (show 12 < s.length from by omega), leVal_take_succ (show 11 < s.length from by omega),
    leVal_take_succ (show 10 < s.length from by omega), leVal_take_succ (show 9 < s.length from by omega), leVal_take_succ (show 8 < s.length from by omega),
    leVal_take_succ (show 7 < s.length from by omega), leVal_take_succ (show 6 < s.length from by omega), leVal_take_succ (show 5 < s.length from by omega),
    leVal_take_succ (show 4 < s.length from by omega), leVal_take_succ (show 3 < s.length from by omega), leVal_take_succ (show 2 < s.length from by omega),
    leVal_take_succ (show 1 < s.length from by omega), leVal_take_succ (show 0 < s.length from by omega)]
  simp only [List.take_zero, leVal, Nat.zero_add, Nat.reducePow, Nat.one_mul]

theorem and23 (x : Nat) : x &&& 8388607 = x % 8388608 := Nat.and_two_pow_sub_one_eq_mod x 23

theorem F10.fromBytes_ok {s : List Byte} (h : 32 ≤ s.length) :
    ∃ r, F10.fromBytes s = .ok r ∧ r.Bd 1 ∧ ∃ c : Int, r.val = ((leVal (s.take 32) % 2 ^ 255 : Nat) : Int) - c * P := by
  have hv := leVal_take32 h
  have B := byteAt_lt s
  have p0 := B 0
  have p1 := B 1
  have p2 := B 2
  have p3 := B 3
  have p4 := B 4
  have p5 := B 5
  have p6 := B 6
  have p7 := B 7
  have p8 := B 8
  have p9 := B 9
  have p10 := B 10
  have p11 := B 11
  have p12 := B 12
  have p13 := B 13
  have p14 := B 14
  have p15 := B 15
  have p16 := B 16
  have p17 := B 17
  have p18 := B 18
  have p19 := B 19
  have p20 := B 20
  have p21 := B 21
  have p22 := B 22
  have p23 := B 23
  have p24 := B 24
  have p25 := B 25
  have p26 := B 26
  have p27 := B 27
  have p28 := B 28
  have p29 := B 29
  have p30 := B 30
  have p31 := B 31
  have q0 := load4_ok (s := s) (o := 0) (by omega)
  have q1 := load3_ok (s := s) (o := 4) (by omega)
  have q2 := load3_ok (s := s) (o := 7) (by omega)
  have q3 := load3_ok (s := s) (o := 10) (by omega)
  have q4 := load3_ok (s := s) (o := 13) (by omega)
  have q5 := load4_ok (s := s) (o := 16) (by omega)
  have q6 := load3_ok (s := s) (o := 20) (by omega)
  have q7 := load3_ok (s := s) (o := 23) (by omega)
  have q8 := load3_ok (s := s) (o := 26) (by omega)
  have q9 := load3_ok (s := s) (o := 29) (by omega)
  simp only [Nat.reduceAdd] at q0 q1 q2 q3 q4 q5 q6 q7 q8 q9
  have hm : leVal (s.take 32) % 2 ^ 255 = leVal (s.take 32) - 2 ^ 255 * (byteAt s 31 / 128) := by
    rw [hv]; simp only [Nat.reducePow]; clear q0 q1 q2 q3 q4 q5 q6 q7 q8 q9 hv
    omega
  obtain ⟨T, hT⟩ : ∃ T, T = leVal (s.take 32) % 2 ^ 255 := ⟨_, rfl⟩
  rw [← hT, F10.fromBytes, q0, ok_bind, q1, ok_bind, q2, ok_bind, q3, ok_bind, q4, ok_bind, q5, ok_bind, q6, ok_bind, q7, ok_bind, q8, ok_bind, q9, ok_bind]
  clear q0 q1 q2 q3 q4 q5 q6 q7 q8 q9
  simp only [Nat.shiftLeft_eq, and23, Nat.reducePow]
  generalize hl0 : byteAt s 0 + 256 * byteAt s 1 + 65536 * byteAt s 2 + 16777216 * byteAt s 3 = l0
  generalize hl1 : byteAt s 4 + 256 * byteAt s 5 + 65536 * byteAt s 6 = l1
  generalize hl2 : byteAt s 7 + 256 * byteAt s 8 + 65536 * byteAt s 9 = l2
  generalize hl3 : byteAt s 10 + 256 * byteAt s 11 + 65536 * byteAt s 12 = l3
  generalize hl4 : byteAt s 13 + 256 * byteAt s 14 + 65536 * byteAt s 15 = l4
  generalize hl5 : byteAt s 16 + 256 * byteAt s 17 + 65536 * byteAt s 18 + 16777216 * byteAt s 19 = l5
  generalize hl6 : byteAt s 20 + 256 * byteAt s 21 + 65536 * byteAt s 22 = l6
  generalize hl7 : byteAt s 23 + 256 * byteAt s 24 + 65536 * byteAt s 25 = l7
  generalize hl8 : byteAt s 26 + 256 * byteAt s 27 + 65536 * byteAt s 28 = l8
  generalize hl9 : (byteAt s 29 + 256 * byteAt s 30 + 65536 * byteAt s 31) % 8388608 = l9
  have hV : T = l0 + 2 ^ 26 * (l1 * 64) + 2 ^ 51 * (l2 * 32) + 2 ^ 77 * (l3 * 8) + 2 ^ 102 * (l4 * 4) + 2 ^ 128 * l5 +
      2 ^ 153 * (l6 * 128) + 2 ^ 179 * (l7 * 32) + 2 ^ 204 * (l8 * 16) + 2 ^ 230 * (l9 * 4) := by
    rw [hT, hm, hv]; simp only [Nat.reducePow]; omega
  have r0 : ((l0 : Nat) : Int).natAbs ≤ 2 ^ 32 := by omega
  have r1 : ((l1 * 64 : Nat) : Int).natAbs ≤ 2 ^ 30 := by omega
  have r2 : ((l2 * 32 : Nat) : Int).natAbs ≤ 2 ^ 29 := by omega
  have r3 : ((l3 * 8 : Nat) : Int).natAbs ≤ 2 ^ 27 := by omega
  have r4 : ((l4 * 4 : Nat) : Int).natAbs ≤ 2 ^ 26 := by omega
  have r5 : ((l5 : Nat) : Int).natAbs ≤ 2 ^ 32 := by omega
  have r6 : ((l6 * 128 : Nat) : Int).natAbs ≤ 2 ^ 31 := by omega
  have r7 : ((l7 * 32 : Nat) : Int).natAbs ≤ 2 ^ 29 := by omega
  have r8 : ((l8 * 16 : Nat) : Int).natAbs ≤ 2 ^ 28 := by omega
  have r9 : ((l9 * 4 : Nat) : Int).natAbs ≤ 2 ^ 25 := by omega
  clear p0 p1 p2 p3 p4 p5 p6 p7 p8 p9 p10 p11 p12 p13 p14 p15 p16 p17 p18 p19 p20 p21 p22 p23 p24 p25 p26 p27 p28 p29 p30 p31
    hl0 hl1 hl2 hl3 hl4 hl5 hl6 hl7 hl8 hl9 hm hv B
  rw [hV]
  clear hV hT
  obtain ⟨c0, e0, b9, b0⟩ := carry_ok (s := 25) (m := 19) (.inl rfl) (.inr rfl) r9 r0 (by decide) (by decide)
  obtain ⟨c1, e1, b1, b2⟩ := carry_ok (s := 25) (m := 1) (.inl rfl) (.inl rfl) r1 r2 (by decide) (by decide)
  obtain ⟨c2, e2, b3, b4⟩ := carry_ok (s := 25) (m := 1) (.inl rfl) (.inl rfl) r3 r4 (by decide) (by decide)
  obtain ⟨c3, e3, b5, b6⟩ := carry_ok (s := 25) (m := 1) (.inl rfl) (.inl rfl) r5 r6 (by decide) (by decide)
  obtain ⟨c4, e4, b7, b8⟩ := carry_ok (s := 25) (m := 1) (.inl rfl) (.inl rfl) r7 r8 (by decide) (by decide)
  have n0 : (0 : Int) ≤ ((l0 : Nat) : Int) + c0 * ((19 : Nat) : Int) := by
    simp only [Nat.reduceSub, Nat.reducePow, Int.reducePow] at b9; omega
  obtain ⟨c5, e5, b0', b1'⟩ := carryU_ok n0 b0 b1 (by decide) (by decide)
  obtain ⟨c6, e6, b2', b3'⟩ := carry_ok (s := 26) (m := 1) (.inr rfl) (.inl rfl) b2 b3 (by decide) (by decide)
  obtain ⟨c7, e7, b4', b5'⟩ := carry_ok (s := 26) (m := 1) (.inr rfl) (.inl rfl) b4 b5 (by decide) (by decide)
  obtain ⟨c8, e8, b6', b7'⟩ := carry_ok (s := 26) (m := 1) (.inr rfl) (.inl rfl) b6 b7 (by decide) (by decide)
  obtain ⟨c9, e9, b8', b9'⟩ := carry_ok (s := 26) (m := 1) (.inr rfl) (.inl rfl) b8 b9 (by decide) (by decide)
  have S : ∀ {x : Int} {n k : Nat}, x.natAbs ≤ n → n ≤ k → x.natAbs ≤ 1 * k := fun a b => by omega
  simp only [Nat.cast_one, Nat.cast_ofNat] at e0 e1 e2 e3 e4 e5 e6 e7 e8 e9 b0' b1' b2' b3' b4' b5' b6' b7' b8' b9'
  refine ⟨⟨_, _, _, _, _, _, _, _, _, _⟩, ?_, ⟨S b0' (by decide), S b1' (by decide), S b2' (by decide), S b3' (by decide),
    S b4' (by decide), S b5' (by decide), S b6' (by decide), S b7' (by decide), S b8' (by decide), S b9' (by decide)⟩, c0, ?_⟩
  · rw [e0, ok_bind]
    dsimp only
    rw [e1, ok_bind]; dsimp only
    rw [e2, ok_bind]; dsimp only
    rw [e3, ok_bind]; dsimp only
    rw [e4, ok_bind]; dsimp only
    rw [e5, ok_bind]; dsimp only
    rw [e6, ok_bind]; dsimp only
    rw [e7, ok_bind]; dsimp only
    rw [e8, ok_bind]; dsimp only
    rw [e9, ok_bind]; dsimp only
    rw [i32_id (b0'.trans_lt (by decide)), i32_id (b1'.trans_lt (by decide)), i32_id (b2'.trans_lt (by decide)), i32_id (b3'.trans_lt (by decide)),
      i32_id (b4'.trans_lt (by decide)), i32_id (b5'.trans_lt (by decide)), i32_id (b6'.trans_lt (by decide)), i32_id (b7'.trans_lt (by decide)),
      i32_id (b8'.trans_lt (by decide)), i32_id (b9'.trans_lt (by decide))]
    rfl
  · simp only [F10.val, P]
    push_cast
    ring

/-! ## The conditional swap -/

theorem ofInt_toInt {x : Int} (h : x.natAbs < 2 ^ 31) : (BitVec.ofInt 32 x).toInt = x := by
  rw [BitVec.toInt_ofInt, Int.bmod_eq_of_le] <;> omega

theorem swapLimb_zero {f g : Int} (hf : f.natAbs < 2 ^ 31) (hg : g.natAbs < 2 ^ 31) : swapLimb 0 f g = (f, g) := by
  simp only [swapLimb]
  rw [show ~~~(0 : BitVec 32) + 1 = 0#32 from by decide, BitVec.and_zero, BitVec.xor_zero, BitVec.xor_zero, ofInt_toInt hf, ofInt_toInt hg]

theorem swapLimb_one {f g : Int} (hf : f.natAbs < 2 ^ 31) (hg : g.natAbs < 2 ^ 31) : swapLimb 1 f g = (g, f) := by
  simp only [swapLimb]
  rw [show ~~~(1 : BitVec 32) + 1 = BitVec.allOnes 32 from by decide, BitVec.and_allOnes]
  generalize hx : BitVec.ofInt 32 f = x
  generalize hy : BitVec.ofInt 32 g = y
  rw [show x ^^^ (x ^^^ y) = y from by rw [← BitVec.xor_assoc, BitVec.xor_self, BitVec.zero_xor],
    show y ^^^ (x ^^^ y) = x from by rw [BitVec.xor_comm x y, ← BitVec.xor_assoc, BitVec.xor_self, BitVec.zero_xor], ← hx, ← hy, ofInt_toInt hf, ofInt_toInt hg]

theorem F10.Bd.lt {k : Nat} {f : F10} (h : f.Bd k) (hk : k ≤ 3) :
    f.a0.natAbs < 2 ^ 31 ∧ f.a1.natAbs < 2 ^ 31 ∧ f.a2.natAbs < 2 ^ 31 ∧ f.a3.natAbs < 2 ^ 31 ∧ f.a4.natAbs < 2 ^ 31 ∧
    f.a5.natAbs < 2 ^ 31 ∧ f.a6.natAbs < 2 ^ 31 ∧ f.a7.natAbs < 2 ^ 31 ∧ f.a8.natAbs < 2 ^ 31 ∧ f.a9.natAbs < 2 ^ 31 := by
  have h := h.mono hk
  exact ⟨h.b0.trans_lt (by decide), h.b1.trans_lt (by decide), h.b2.trans_lt (by decide), h.b3.trans_lt (by decide), h.b4.trans_lt (by decide),
    h.b5.trans_lt (by decide), h.b6.trans_lt (by decide), h.b7.trans_lt (by decide), h.b8.trans_lt (by decide), h.b9.trans_lt (by decide)⟩

theorem F10.cSwap_zero {f g : F10} (hf : f.Bd 3) (hg : g.Bd 3) : f.cSwap g 0 = (f, g) := by
  obtain ⟨f0, f1, f2, f3, f4, f5, f6, f7, f8, f9⟩ := hf.lt (Nat.le_refl _)
  obtain ⟨g0, g1, g2, g3, g4, g5, g6, g7, g8, g9⟩ := hg.lt (Nat.le_refl _)
  rw [F10.cSwap]
  rw [swapLimb_zero f0 g0, swapLimb_zero f1 g1, swapLimb_zero f2 g2, swapLimb_zero f3 g3, swapLimb_zero f4 g4, swapLimb_zero f5 g5,
    swapLimb_zero f6 g6, swapLimb_zero f7 g7, swapLimb_zero f8 g8, swapLimb_zero f9 g9]

theorem F10.cSwap_one {f g : F10} (hf : f.Bd 3) (hg : g.Bd 3) : f.cSwap g 1 = (g, f) := by
  obtain ⟨f0, f1, f2, f3, f4, f5, f6, f7, f8, f9⟩ := hf.lt (Nat.le_refl _)
  obtain ⟨g0, g1, g2, g3, g4, g5, g6, g7, g8, g9⟩ := hg.lt (Nat.le_refl _)
  rw [F10.cSwap]
  rw [swapLimb_one f0 g0, swapLimb_one f1 g1, swapLimb_one f2 g2, swapLimb_one f3 g3, swapLimb_one f4 g4, swapLimb_one f5 g5,
    swapLimb_one f6 g6, swapLimb_one f7 g7, swapLimb_one f8 g8, swapLimb_one f9 g9]

end Cex.Ec25519
