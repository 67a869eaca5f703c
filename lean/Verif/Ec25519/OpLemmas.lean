import Verif.Ec25519.MulLemmas
import Verif.IntTools.Enc
import Verif.IntTools.Lemmas

/-!
# The other operations of the 32-bit path
-/

namespace Cex.Ec25519

local infixl:70 " *! " => mulC

theorem nb_add {x y : Int} {j k W : Nat} (a : x.natAbs ≤ j * W) (b : y.natAbs ≤ k * W) : (x + y).natAbs ≤ (j + k) * W := by
  rw [Nat.add_mul]; omega
theorem nb_sub {x y : Int} {j k W : Nat} (a : x.natAbs ≤ j * W) (b : y.natAbs ≤ k * W) : (x - y).natAbs ≤ (j + k) * W := by
  rw [Nat.add_mul]; omega

theorem F10.add_ok {f g : F10} {j k : Nat} (hf : f.Bd j) (hg : g.Bd k) (h : j + k ≤ 3) :
    ∃ r, f.add g = .ok r ∧ r.Bd (j + k) ∧ r.val = f.val + g.val := by
  have hU : (j + k) * U ≤ 3 * U := Nat.mul_le_mul_right _ h
  have hV : (j + k) * V ≤ 3 * V := Nat.mul_le_mul_right _ h
  have sU : ∀ {x y : Int}, x.natAbs ≤ j * U → y.natAbs ≤ k * U → (x + y).natAbs ≤ (j + k) * U := nb_add
  have sV : ∀ {x y : Int}, x.natAbs ≤ j * V → y.natAbs ≤ k * V → (x + y).natAbs ≤ (j + k) * V := nb_add
  have tU : ∀ {x : Int}, x.natAbs ≤ (j + k) * U → ck32 x = .ok x := fun a => ck32_ok ((a.trans hU).trans_lt (by decide))
  have tV : ∀ {x : Int}, x.natAbs ≤ (j + k) * V → ck32 x = .ok x := fun a => ck32_ok ((a.trans hV).trans_lt (by decide))
  have B0 := sU hf.b0 hg.b0
  have B1 := sV hf.b1 hg.b1
  have B2 := sU hf.b2 hg.b2
  have B3 := sV hf.b3 hg.b3
  have B4 := sU hf.b4 hg.b4
  have B5 := sV hf.b5 hg.b5
  have B6 := sU hf.b6 hg.b6
  have B7 := sV hf.b7 hg.b7
  have B8 := sU hf.b8 hg.b8
  have B9 := sV hf.b9 hg.b9
  refine ⟨⟨f.a0 + g.a0, f.a1 + g.a1, f.a2 + g.a2, f.a3 + g.a3, f.a4 + g.a4, f.a5 + g.a5, f.a6 + g.a6, f.a7 + g.a7, f.a8 + g.a8, f.a9 + g.a9⟩, ?_, ⟨B0, B1, B2, B3, B4, B5, B6, B7, B8, B9⟩, by simp only [F10.val]; ring⟩
  rw [F10.add, tU B0, tV B1, tU B2, tV B3, tU B4, tV B5, tU B6, tV B7, tU B8, tV B9]
  rfl

theorem F10.sub_ok {f g : F10} {j k : Nat} (hf : f.Bd j) (hg : g.Bd k) (h : j + k ≤ 3) :
    ∃ r, f.sub g = .ok r ∧ r.Bd (j + k) ∧ r.val = f.val - g.val := by
  have hU : (j + k) * U ≤ 3 * U := Nat.mul_le_mul_right _ h
  have hV : (j + k) * V ≤ 3 * V := Nat.mul_le_mul_right _ h
  have sU : ∀ {x y : Int}, x.natAbs ≤ j * U → y.natAbs ≤ k * U → (x - y).natAbs ≤ (j + k) * U := nb_sub
  have sV : ∀ {x y : Int}, x.natAbs ≤ j * V → y.natAbs ≤ k * V → (x - y).natAbs ≤ (j + k) * V := nb_sub
  have tU : ∀ {x : Int}, x.natAbs ≤ (j + k) * U → ck32 x = .ok x := fun a => ck32_ok ((a.trans hU).trans_lt (by decide))
  have tV : ∀ {x : Int}, x.natAbs ≤ (j + k) * V → ck32 x = .ok x := fun a => ck32_ok ((a.trans hV).trans_lt (by decide))
  have B0 := sU hf.b0 hg.b0
  have B1 := sV hf.b1 hg.b1
  have B2 := sU hf.b2 hg.b2
  have B3 := sV hf.b3 hg.b3
  have B4 := sU hf.b4 hg.b4
  have B5 := sV hf.b5 hg.b5
  have B6 := sU hf.b6 hg.b6
  have B7 := sV hf.b7 hg.b7
  have B8 := sU hf.b8 hg.b8
  have B9 := sV hf.b9 hg.b9
  refine ⟨⟨f.a0 - g.a0, f.a1 - g.a1, f.a2 - g.a2, f.a3 - g.a3, f.a4 - g.a4, f.a5 - g.a5, f.a6 - g.a6, f.a7 - g.a7, f.a8 - g.a8, f.a9 - g.a9⟩, ?_, ⟨B0, B1, B2, B3, B4, B5, B6, B7, B8, B9⟩, by simp only [F10.val]; ring⟩
  rw [F10.sub, tU B0, tV B1, tU B2, tV B3, tU B4, tV B5, tU B6, tV B7, tU B8, tV B9]
  rfl

/-! ## The carries of `Mul32` and `FromBytes` -/

theorem F10.mul32_ok {f : F10} (hf : f.Bd 2) : ∃ r, f.mul32 121666 = .ok r ∧ r.Bd 1 ∧ ∃ c : Int, r.val = 121666 * f.val - c * P := by
  have N : Ok (lit 121666) 121666 121666 := Ok.lit (by decide)
  obtain ⟨m0, d0⟩ := Ok.mul (Ok.lit hf.b0) N (by decide)
  obtain ⟨m1, d1⟩ := Ok.mul (Ok.lit hf.b1) N (by decide)
  obtain ⟨m2, d2⟩ := Ok.mul (Ok.lit hf.b2) N (by decide)
  obtain ⟨m3, d3⟩ := Ok.mul (Ok.lit hf.b3) N (by decide)
  obtain ⟨m4, d4⟩ := Ok.mul (Ok.lit hf.b4) N (by decide)
  obtain ⟨m5, d5⟩ := Ok.mul (Ok.lit hf.b5) N (by decide)
  obtain ⟨m6, d6⟩ := Ok.mul (Ok.lit hf.b6) N (by decide)
  obtain ⟨m7, d7⟩ := Ok.mul (Ok.lit hf.b7) N (by decide)
  obtain ⟨m8, d8⟩ := Ok.mul (Ok.lit hf.b8) N (by decide)
  obtain ⟨m9, d9⟩ := Ok.mul (Ok.lit hf.b9) N (by decide)
  obtain ⟨c0, e0, b9, b0⟩ := carry_ok (s := 25) (m := 19) (.inl rfl) (.inr rfl) d9 d0 (by decide) (by decide)
  obtain ⟨c1, e1, b1, b2⟩ := carry_ok (s := 25) (m := 1) (.inl rfl) (.inl rfl) d1 d2 (by decide) (by decide)
  obtain ⟨c2, e2, b3, b4⟩ := carry_ok (s := 25) (m := 1) (.inl rfl) (.inl rfl) d3 d4 (by decide) (by decide)
  obtain ⟨c3, e3, b5, b6⟩ := carry_ok (s := 25) (m := 1) (.inl rfl) (.inl rfl) d5 d6 (by decide) (by decide)
  obtain ⟨c4, e4, b7, b8⟩ := carry_ok (s := 25) (m := 1) (.inl rfl) (.inl rfl) d7 d8 (by decide) (by decide)
  obtain ⟨c5, e5, b0', b1'⟩ := carry_ok (s := 26) (m := 1) (.inr rfl) (.inl rfl) b0 b1 (by decide) (by decide)
  obtain ⟨c6, e6, b2', b3'⟩ := carry_ok (s := 26) (m := 1) (.inr rfl) (.inl rfl) b2 b3 (by decide) (by decide)
  obtain ⟨c7, e7, b4', b5'⟩ := carry_ok (s := 26) (m := 1) (.inr rfl) (.inl rfl) b4 b5 (by decide) (by decide)
  obtain ⟨c8, e8, b6', b7'⟩ := carry_ok (s := 26) (m := 1) (.inr rfl) (.inl rfl) b6 b7 (by decide) (by decide)
  obtain ⟨c9, e9, b8', b9'⟩ := carry_ok (s := 26) (m := 1) (.inr rfl) (.inl rfl) b8 b9 (by decide) (by decide)
  have S : ∀ {x : Int} {n k : Nat}, x.natAbs ≤ n → n ≤ k → x.natAbs ≤ 1 * k := fun a b => by omega
  simp only [Nat.cast_one, Nat.cast_ofNat] at e0 e1 e2 e3 e4 e5 e6 e7 e8 e9 b0' b1' b2' b3' b4' b5' b6' b7' b8' b9'
  refine ⟨⟨_, _, _, _, _, _, _, _, _, _⟩, ?_, ⟨S b0' (by decide), S b1' (by decide), S b2' (by decide), S b3' (by decide),
    S b4' (by decide), S b5' (by decide), S b6' (by decide), S b7' (by decide), S b8' (by decide), S b9' (by decide)⟩, c0, ?_⟩
  · rw [F10.mul32, m0, ok_bind, m1, ok_bind, m2, ok_bind, m3, ok_bind, m4, ok_bind, m5, ok_bind, m6, ok_bind, m7, ok_bind, m8, ok_bind, m9, ok_bind,
      e0, ok_bind]
    dsimp only
    rw [e1, ok_bind]; dsimp only
    rw [e2, ok_bind]; dsimp only
    rw [e3, ok_bind]; dsimp only
    rw [e4, ok_bind]; dsimp only
    rw [e5, ok_bind]; dsimp only
    rw [e6, ok_bind]; dsimp only
    rw [e7, ok_bind]; dsimp only
    rw [e8, ok_bind]; dsimp only
    rw [e9, ok_bind]; dsimp only
    rw [i32_id (b0'.trans_lt (by decide)), i32_id (b1'.trans_lt (by decide)), i32_id (b2'.trans_lt (by decide)), i32_id (b3'.trans_lt (by decide)),
      i32_id (b4'.trans_lt (by decide)), i32_id (b5'.trans_lt (by decide)), i32_id (b6'.trans_lt (by decide)), i32_id (b7'.trans_lt (by decide)),
      i32_id (b8'.trans_lt (by decide)), i32_id (b9'.trans_lt (by decide))]
    rfl
  · simp only [F10.val, P]
    push_cast
    ring

theorem or8 (a b : Nat) (ha : a < 2 ^ 8) : a ||| b <<< 8 = a + 256 * b := by
  rw [Nat.or_comm, ← Nat.shiftLeft_add_eq_or_of_lt ha, Nat.shiftLeft_eq]; omega
theorem or16 (a b : Nat) (ha : a < 2 ^ 16) : a ||| b <<< 16 = a + 65536 * b := by
  rw [Nat.or_comm, ← Nat.shiftLeft_add_eq_or_of_lt ha, Nat.shiftLeft_eq]; omega
theorem or24 (a b : Nat) (ha : a < 2 ^ 24) : a ||| b <<< 24 = a + 16777216 * b := by
  rw [Nat.or_comm, ← Nat.shiftLeft_add_eq_or_of_lt ha, Nat.shiftLeft_eq]; omega

/-- byte `i` of a list as a number -/
def byteAt (s : List Byte) (i : Nat) : Nat := (s.map BitVec.toNat)[i]?.getD 0

theorem byteAt_lt (s : List Byte) (i : Nat) : byteAt s i < 256 := by
  unfold byteAt
  rw [List.getElem?_map]
  cases s[i]? with
  | none => simp
  | some b => simpa using b.isLt

theorem byteAt_eq {s : List Byte} {i : Nat} (h : i < s.length) : byteAt s i = (s[i]).toNat := by
  simp [byteAt, h]

theorem load3_ok {s : List Byte} {o : Nat} (h : o + 3 ≤ s.length) :
    load3 s o = .ok (byteAt s o + 256 * byteAt s (o + 1) + 65536 * byteAt s (o + 2)) := by
  have a := byteAt_lt s o
  have b := byteAt_lt s (o + 1)
  rw [byteAt_eq (by omega)] at a ⊢
  rw [byteAt_eq (by omega)] at b ⊢
  rw [byteAt_eq (show o + 2 < s.length from by omega)]
  rw [load3, rd_ok (by omega), rd_ok (by omega), rd_ok (by omega)]
  simp only [ok_bind, pure_eq_ok]
  rw [or8 _ _ a, or16 _ _ (by omega)]

theorem load4_ok {s : List Byte} {o : Nat} (h : o + 4 ≤ s.length) :
    load4 s o = .ok (byteAt s o + 256 * byteAt s (o + 1) + 65536 * byteAt s (o + 2) + 16777216 * byteAt s (o + 3)) := by
  have a := byteAt_lt s o
  have b := byteAt_lt s (o + 1)
  have c := byteAt_lt s (o + 2)
  rw [byteAt_eq (by omega)] at a ⊢
  rw [byteAt_eq (by omega)] at b ⊢
  rw [byteAt_eq (by omega)] at c ⊢
  rw [byteAt_eq (show o + 3 < s.length from by omega)]
  rw [load4, rd_ok (by omega), rd_ok (by omega), rd_ok (by omega), rd_ok (by omega)]
  simp only [ok_bind, pure_eq_ok]
  rw [or8 _ _ a, or16 _ _ (by omega), or24 _ _ (by omega)]

end Cex.Ec25519
