import Verif.Ec25519.Model32
import Verif.Ec25519.Spec
import Mathlib.Tactic.Ring
import Mathlib.Tactic.LinearCombination

/-!
# The limb arithmetic of the 32-bit path: no overflow, and the value modulo `P`
-/

namespace Cex.Ec25519

local infixl:65 " +! " => addC
local infixl:70 " *! " => mulC

/-- `x` succeeds with a value `v` of magnitude at most `B` -/
def Ok (x : M Int) (v : Int) (B : Nat) : Prop := x = .ok v ∧ v.natAbs ≤ B

theorem Ok.lit {v : Int} {B : Nat} (h : v.natAbs ≤ B) : Ok (lit v) v B := ⟨rfl, h⟩

theorem ck64_ok {x : Int} (h : x.natAbs < 2 ^ 63) : ck64 x = .ok x := by
  rw [ck64, if_pos (by omega)]

theorem ck32_ok {x : Int} (h : x.natAbs < 2 ^ 31) : ck32 x = .ok x := by
  rw [ck32, if_pos (by omega)]

theorem Ok.add {x y : M Int} {v w : Int} {B C : Nat} (hx : Ok x v B) (hy : Ok y w C) (h : B + C < 2 ^ 63) :
    Ok (x +! y) (v + w) (B + C) := by
  obtain ⟨rfl, hv⟩ := hx
  obtain ⟨rfl, hw⟩ := hy
  have : (v + w).natAbs ≤ B + C := by omega
  exact ⟨ck64_ok (by omega), this⟩

theorem Ok.mul {x y : M Int} {v w : Int} {B C : Nat} (hx : Ok x v B) (hy : Ok y w C) (h : B * C < 2 ^ 63) :
    Ok (x *! y) (v * w) (B * C) := by
  obtain ⟨rfl, hv⟩ := hx
  obtain ⟨rfl, hw⟩ := hy
  have : (v * w).natAbs ≤ B * C := by rw [Int.natAbs_mul]; exact Nat.mul_le_mul hv hw
  exact ⟨ck64_ok (by omega), this⟩

theorem i64_id {x : Int} (h : x.natAbs < 2 ^ 63) : i64 x = x := by
  unfold i64; omega

theorem i32_id {x : Int} (h : x.natAbs < 2 ^ 31) : i32 x = x := by
  unfold i32; omega

theorem carry_ok {s m : Nat} {hi hj : Int} {B C : Nat} (hs : s = 25 ∨ s = 26) (hm : m = 1 ∨ m = 19)
    (hB : hi.natAbs ≤ B) (hC : hj.natAbs ≤ C) (h1 : B ≤ 2 ^ 62)
    (h2 : C + m * (B / 2 ^ s + 1) < 2 ^ 63) :
    ∃ c, carry s m hi hj = .ok (hi - c * 2 ^ s, hj + c * m) ∧ (hi - c * 2 ^ s).natAbs ≤ 2 ^ (s - 1) ∧
      (hj + c * m).natAbs ≤ C + m * (B / 2 ^ s + 1) := by
  refine ⟨(hi + 2 ^ (s - 1)) / 2 ^ s, ?_⟩
  rcases hs with rfl | rfl <;> rcases hm with rfl | rfl
  all_goals
    simp only [Nat.reduceSub, Nat.reducePow, Int.reducePow, Nat.cast_ofNat, Nat.cast_one, Int.mul_one, Nat.one_mul] at h1 h2 ⊢
    refine ⟨?_, by omega, by omega⟩
    rw [carry]
    simp only [Nat.reduceSub, Int.reducePow, Int.mul_one]
    rw [ck64_ok (by omega), ok_bind, ck64_ok (by omega), ok_bind, ck64_ok (by omega), ok_bind, i64_id (by omega)]
    rfl

theorem carryU_ok {hi hj : Int} {B C : Nat} (h0 : 0 ≤ hi) (hB : hi.natAbs ≤ B) (hC : hj.natAbs ≤ C) (h1 : B ≤ 2 ^ 62)
    (h2 : C + (B / 2 ^ 26 + 1) < 2 ^ 63) :
    ∃ c, carryU hi hj = .ok (hi - c * 2 ^ 26, hj + c) ∧ (hi - c * 2 ^ 26).natAbs ≤ 2 ^ 25 ∧
      (hj + c).natAbs ≤ C + (B / 2 ^ 26 + 1) := by
  refine ⟨(hi + 2 ^ 25) / 2 ^ 26, ?_⟩
  simp only [Nat.reducePow, Int.reducePow] at h1 h2 ⊢
  refine ⟨?_, by omega, by omega⟩
  rw [carryU]
  simp only [Int.reducePow]
  have e : (hi + 33554432) % 18446744073709551616 / 67108864 = (hi + 33554432) / 67108864 := by omega
  rw [e, i64_id (by omega), ck64_ok (by omega), ok_bind, i64_id (by omega)]
  rfl

/-- the integer of ten limbs -/
def F10.val (f : F10) : Int :=
  f.a0 + 2 ^ 26 * f.a1 + 2 ^ 51 * f.a2 + 2 ^ 77 * f.a3 + 2 ^ 102 * f.a4 + 2 ^ 128 * f.a5 + 2 ^ 153 * f.a6 +
    2 ^ 179 * f.a7 + 2 ^ 204 * f.a8 + 2 ^ 230 * f.a9

/-- bound of the even limbs of a carried element -/
abbrev U : Nat := 2 ^ 25 + 2 ^ 18
/-- bound of the odd limbs of a carried element -/
abbrev V : Nat := 2 ^ 24 + 2 ^ 18

/-- limbs within `k` times the bounds of a carried element -/
structure F10.Bd (k : Nat) (f : F10) : Prop where
  b0 : f.a0.natAbs ≤ k * U
  b1 : f.a1.natAbs ≤ k * V
  b2 : f.a2.natAbs ≤ k * U
  b3 : f.a3.natAbs ≤ k * V
  b4 : f.a4.natAbs ≤ k * U
  b5 : f.a5.natAbs ≤ k * V
  b6 : f.a6.natAbs ≤ k * U
  b7 : f.a7.natAbs ≤ k * V
  b8 : f.a8.natAbs ≤ k * U
  b9 : f.a9.natAbs ≤ k * V

theorem F10.Bd.mono {j k : Nat} {f : F10} (h : f.Bd j) (hjk : j ≤ k) : f.Bd k := by
  have a : j * U ≤ k * U := Nat.mul_le_mul_right _ hjk
  have b : j * V ≤ k * V := Nat.mul_le_mul_right _ hjk
  exact ⟨h.b0.trans a, h.b1.trans b, h.b2.trans a, h.b3.trans b, h.b4.trans a, h.b5.trans b, h.b6.trans a, h.b7.trans b,
    h.b8.trans a, h.b9.trans b⟩

theorem carryMul_ok {h0 h1 h2 h3 h4 h5 h6 h7 h8 h9 : Int} (b0 : h0.natAbs ≤ 3 * 2 ^ 60) (b1 : h1.natAbs ≤ 3 * 2 ^ 60) (b2 : h2.natAbs ≤ 3 * 2 ^ 60)
    (b3 : h3.natAbs ≤ 3 * 2 ^ 60) (b4 : h4.natAbs ≤ 3 * 2 ^ 60) (b5 : h5.natAbs ≤ 3 * 2 ^ 60) (b6 : h6.natAbs ≤ 3 * 2 ^ 60) (b7 : h7.natAbs ≤ 3 * 2 ^ 60)
    (b8 : h8.natAbs ≤ 3 * 2 ^ 60) (b9 : h9.natAbs ≤ 3 * 2 ^ 60) :
    ∃ r, carryMul h0 h1 h2 h3 h4 h5 h6 h7 h8 h9 = .ok r ∧ r.Bd 1 ∧
      ∃ c : Int, r.val = F10.val ⟨h0, h1, h2, h3, h4, h5, h6, h7, h8, h9⟩ - c * P := by
  obtain ⟨c0, e0, b0', b1'⟩ := carry_ok (s := 26) (m := 1) (.inr rfl) (.inl rfl) b0 b1 (by decide) (by decide)
  obtain ⟨c1, e1, b4', b5'⟩ := carry_ok (s := 26) (m := 1) (.inr rfl) (.inl rfl) b4 b5 (by decide) (by decide)
  obtain ⟨c2, e2, b1'', b2'⟩ := carry_ok (s := 25) (m := 1) (.inl rfl) (.inl rfl) b1' b2 (by decide) (by decide)
  obtain ⟨c3, e3, b5'', b6'⟩ := carry_ok (s := 25) (m := 1) (.inl rfl) (.inl rfl) b5' b6 (by decide) (by decide)
  obtain ⟨c4, e4, b2'', b3'⟩ := carry_ok (s := 26) (m := 1) (.inr rfl) (.inl rfl) b2' b3 (by decide) (by decide)
  obtain ⟨c5, e5, b6'', b7'⟩ := carry_ok (s := 26) (m := 1) (.inr rfl) (.inl rfl) b6' b7 (by decide) (by decide)
  obtain ⟨c6, e6, b3'', b4''⟩ := carry_ok (s := 25) (m := 1) (.inl rfl) (.inl rfl) b3' b4' (by decide) (by decide)
  obtain ⟨c7, e7, b7'', b8'⟩ := carry_ok (s := 25) (m := 1) (.inl rfl) (.inl rfl) b7' b8 (by decide) (by decide)
  obtain ⟨c8, e8, b4''', b5'''⟩ := carry_ok (s := 26) (m := 1) (.inr rfl) (.inl rfl) b4'' b5'' (by decide) (by decide)
  obtain ⟨c9, e9, b8'', b9'⟩ := carry_ok (s := 26) (m := 1) (.inr rfl) (.inl rfl) b8' b9 (by decide) (by decide)
  obtain ⟨c10, e10, b9'', b0''⟩ := carry_ok (s := 25) (m := 19) (.inl rfl) (.inr rfl) b9' b0' (by decide) (by decide)
  obtain ⟨c11, e11, b0''', b1'''⟩ := carry_ok (s := 26) (m := 1) (.inr rfl) (.inl rfl) b0'' b1'' (by decide) (by decide)
  have S : ∀ {x : Int} {n k : Nat}, x.natAbs ≤ n → n ≤ k → x.natAbs ≤ 1 * k := fun a b => by omega
  simp only [Nat.cast_one, Nat.cast_ofNat] at e0 e1 e2 e3 e4 e5 e6 e7 e8 e9 e10 e11 b0''' b1''' b2'' b3'' b4''' b5''' b6'' b7'' b8'' b9''
  refine ⟨⟨_, _, _, _, _, _, _, _, _, _⟩, ?_, ⟨S b0''' (by decide), S b1''' (by decide), S b2'' (by decide), S b3'' (by decide),
    S b4''' (by decide), S b5''' (by decide), S b6'' (by decide), S b7'' (by decide), S b8'' (by decide), S b9'' (by decide)⟩, c10, ?_⟩
  · rw [carryMul, e0, ok_bind]
    dsimp only
    rw [e1, ok_bind]; dsimp only
    rw [e2, ok_bind]; dsimp only
    rw [e3, ok_bind]; dsimp only
    rw [e4, ok_bind]; dsimp only
    rw [e5, ok_bind]; dsimp only
    rw [e6, ok_bind]; dsimp only
    rw [e7, ok_bind]; dsimp only
    rw [e8, ok_bind]; dsimp only
    rw [e9, ok_bind]; dsimp only
    rw [e10, ok_bind]; dsimp only
    rw [e11, ok_bind]; dsimp only
    rw [i32_id (b0'''.trans_lt (by decide)), i32_id (b1'''.trans_lt (by decide)), i32_id (b2''.trans_lt (by decide)), i32_id (b3''.trans_lt (by decide)),
      i32_id (b4'''.trans_lt (by decide)), i32_id (b5'''.trans_lt (by decide)), i32_id (b6''.trans_lt (by decide)), i32_id (b7''.trans_lt (by decide)),
      i32_id (b8''.trans_lt (by decide)), i32_id (b9''.trans_lt (by decide))]
    rfl
  · simp only [F10.val, P]
    push_cast
    ring

end Cex.Ec25519
