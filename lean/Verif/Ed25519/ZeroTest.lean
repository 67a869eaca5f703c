import Verif.Ed25519.SigModel
import Verif.Ed25519.Field

/-!
# The test for zero, on elements that are not carried
-/

namespace Cex.Ec25519

theorem qStep3_ok {s : Nat} (hs : s = 25 ∨ s = 26) {h q : Int} (hh : h.natAbs ≤ 2 ^ 27) (hq : q.natAbs ≤ 2 ^ 7) :
    ∃ q', qStep s h q = .ok q' ∧ q'.natAbs ≤ 2 ^ 7 ∧ q' * 2 ^ s ≤ h + q ∧ h + q < q' * 2 ^ s + 2 ^ s := by
  refine ⟨(h + q) / 2 ^ s, ?_, ?_⟩
  · rw [qStep, ck32_ok (by omega)]; rfl
  · rcases hs with rfl | rfl <;> simp only [Int.reducePow, Nat.reducePow] at hh hq ⊢ <;> omega

theorem carry3_ok {s : Nat} (hs : s = 25 ∨ s = 26) {hi hj : Int} (hh : hi.natAbs ≤ 2 ^ 28) (hq : hj.natAbs ≤ 2 ^ 27) :
    ∃ l c, carry32 s hi hj = .ok (l, hj + c) ∧ 0 ≤ l ∧ l < 2 ^ s ∧ c.natAbs ≤ 8 ∧ hi = l + c * 2 ^ s := by
  refine ⟨hi - hi / 2 ^ s * 2 ^ s, hi / 2 ^ s, ?_, ?_⟩
  · rcases hs with rfl | rfl <;> simp only [Int.reducePow, Nat.reducePow] at hh hq ⊢ <;>
      rw [carry32] <;> simp only [Int.reducePow] <;> rw [ck32_ok (by omega), ok_bind, i32_id (by omega)] <;> rfl
  · rcases hs with rfl | rfl <;> simp only [Int.reducePow, Nat.reducePow] at hh hq ⊢ <;> omega

theorem q03_ok {W : Nat} (hW : W = 32 ∨ W = 64) {x : Int} (hx : x.natAbs ≤ 3 * (2 ^ 24 + 2 ^ 18)) :
    (i32 ((19 * x + 2 ^ 24) % 2 ^ W / 2 ^ 25)).natAbs ≤ 2 ^ 7 ∧
      (i32 ((19 * x + 2 ^ 24) % 2 ^ W / 2 ^ 25) = (19 * x + 2 ^ 24) / 2 ^ 25 ∨ 19 * x + 2 ^ 24 < 0 ∧ i32 ((19 * x + 2 ^ 24) % 2 ^ W / 2 ^ 25) = (19 * x + 2 ^ 24) / 2 ^ 25 + 128) := by
  have e : ∀ {y M : Int}, y.natAbs ≤ 2 ^ 30 → M = 2 ^ 32 ∨ M = 2 ^ 64 → (0 ≤ y ∧ y % M = y) ∨ (y < 0 ∧ y % M = y + M) := by
    rintro y M hy (rfl | rfl) <;> simp only [Int.reducePow, Nat.reducePow] at hy ⊢ <;> omega
  have b : (19 * x + 2 ^ 24).natAbs ≤ 2 ^ 30 := by omega
  obtain ⟨y, hy⟩ : ∃ y, y = 19 * x + 2 ^ 24 := ⟨_, rfl⟩
  have hc : (y / 2 ^ 25).natAbs ≤ 30 := by simp only [Int.reducePow, Nat.reducePow, Nat.reduceAdd, Nat.reduceMul] at hx hy ⊢; omega
  rw [← hy] at b ⊢
  rcases hW with rfl | rfl
  · rcases e b (.inl rfl) with ⟨p, h⟩ | ⟨p, h⟩
    · rw [h, i32_id (by omega)]; exact ⟨by omega, .inl rfl⟩
    · have a : (y + 2 ^ 32) / 2 ^ 25 = y / 2 ^ 25 + 128 := by simp only [Int.reducePow]; omega
      have n : y / 2 ^ 25 < 0 := by simp only [Int.reducePow]; omega
      rw [h, a, i32_id (by omega)]; exact ⟨by omega, .inr ⟨p, rfl⟩⟩
  · rcases e b (.inr rfl) with ⟨p, h⟩ | ⟨p, h⟩
    · rw [h, i32_id (by omega)]; exact ⟨by omega, .inl rfl⟩
    · have a : (y + 2 ^ 64) / 2 ^ 25 = y / 2 ^ 25 + 2 ^ 39 := by simp only [Int.reducePow]; omega
      rw [h, a]
      have c : i32 (y / 2 ^ 25 + 2 ^ 39) = y / 2 ^ 25 := by
        generalize y / 2 ^ 25 = z at *
        simp only [i32, Int.reducePow]; omega
      rw [c]; exact ⟨by omega, .inl rfl⟩

theorem zero_q {T F R q q0 c x : Int} (hT : T = F + 19 * q - c * 2 ^ 255) (hT0 : 0 ≤ T ∧ T < 2 ^ 255)
    (hL : q * 2 ^ 255 ≤ F + q0 ∧ F + q0 < q * 2 ^ 255 + 2 ^ 255) (hR : F = 2 ^ 230 * x + R) (hA : -(2 ^ 231) < R ∧ R < 2 ^ 231)
    (hx : x.natAbs ≤ 3 * (2 ^ 24 + 2 ^ 18)) (n1 : q0 = (19 * x + 2 ^ 24) / 2 ^ 25 ∨ 19 * x + 2 ^ 24 < 0 ∧ q0 = (19 * x + 2 ^ 24) / 2 ^ 25 + 128) :
    T = 0 ↔ F % P = 0 := by
  have hP : (P : Int) = 2 ^ 255 - 19 := by decide
  rw [hP]
  have hFk : F % (2 ^ 255 - 19) = 0 ↔ F = -(2 ^ 255 - 19) ∨ F = 0 ∨ F = 2 ^ 255 - 19 := by
    simp only [Int.reducePow, Nat.reducePow, Nat.reduceAdd, Nat.reduceMul, Int.reduceSub] at *
    clear hT hT0 hL n1
    omega
  rw [hFk]
  have hq : q = -2 ∨ q = -1 ∨ q = 0 ∨ q = 1 := by
    simp only [Int.reducePow, Nat.reducePow, Nat.reduceAdd, Nat.reduceMul, Int.reduceSub] at *
    clear hT hT0 hFk
    omega
  simp only [Int.reducePow, Nat.reducePow, Nat.reduceAdd, Nat.reduceMul, Int.reduceSub] at *
  clear hFk
  constructor
  · intro h
    rcases hq with rfl | rfl | rfl | rfl <;> omega
  · intro h
    rcases hq with rfl | rfl | rfl | rfl <;> omega

theorem F10.reduce3_ok {W : Nat} (hW : W = 32 ∨ W = 64) {f : F10} (hf : f.Bd 3) :
    ∃ t, f.reduce W = .ok t ∧ t.Canon ∧ (t.val = 0 ↔ f.val % P = 0) := by
  obtain ⟨a0, a1, a2, a3, a4, a5, a6, a7, a8, a9⟩ := f
  obtain ⟨b0, b1, b2, b3, b4, b5, b6, b7, b8, b9⟩ := hf
  simp only [U, V] at b0 b1 b2 b3 b4 b5 b6 b7 b8 b9
  have wU : ∀ {x : Int}, x.natAbs ≤ 3 * (2 ^ 25 + 2 ^ 18) → x.natAbs ≤ 2 ^ 27 := fun h => by omega
  have wV : ∀ {x : Int}, x.natAbs ≤ 3 * (2 ^ 24 + 2 ^ 18) → x.natAbs ≤ 2 ^ 27 := fun h => by omega
  have wC : ∀ {x c : Int}, x.natAbs ≤ 2 ^ 27 → c.natAbs ≤ 8 → (x + c).natAbs ≤ 2 ^ 28 := fun h h' => by omega
  have wZ : ∀ {x q : Int}, x.natAbs ≤ 3 * (2 ^ 25 + 2 ^ 18) → q.natAbs ≤ 2 ^ 7 → (x + 19 * q).natAbs ≤ 2 ^ 28 := fun h h' => by omega
  have v1 : ∀ {x : Int}, x.natAbs ≤ 3 * (2 ^ 24 + 2 ^ 18) → ck32 (19 * x) = .ok (19 * x) := fun h => ck32_ok (by omega)
  have v2 : ∀ {x : Int}, x.natAbs ≤ 2 ^ 7 → ck32 (19 * x) = .ok (19 * x) := fun h => ck32_ok (by omega)
  have v3 : ∀ {x : Int}, x.natAbs ≤ 2 ^ 28 → ck32 x = .ok x := fun h => ck32_ok (by omega)
  obtain ⟨n0, n1⟩ := q03_ok hW b9
  obtain ⟨q0, hq0⟩ : ∃ q, q = i32 ((19 * a9 + 2 ^ 24) % 2 ^ W / 2 ^ 25) := ⟨_, rfl⟩
  rw [← hq0] at n0 n1
  obtain ⟨q1, e1, m1, l1, u1⟩ := qStep3_ok (s := 26) (.inr rfl) (wU b0) n0
  obtain ⟨q2, e2, m2, l2, u2⟩ := qStep3_ok (s := 25) (.inl rfl) (wV b1) m1
  obtain ⟨q3, e3, m3, l3, u3⟩ := qStep3_ok (s := 26) (.inr rfl) (wU b2) m2
  obtain ⟨q4, e4, m4, l4, u4⟩ := qStep3_ok (s := 25) (.inl rfl) (wV b3) m3
  obtain ⟨q5, e5, m5, l5, u5⟩ := qStep3_ok (s := 26) (.inr rfl) (wU b4) m4
  obtain ⟨q6, e6, m6, l6, u6⟩ := qStep3_ok (s := 25) (.inl rfl) (wV b5) m5
  obtain ⟨q7, e7, m7, l7, u7⟩ := qStep3_ok (s := 26) (.inr rfl) (wU b6) m6
  obtain ⟨q8, e8, m8, l8, u8⟩ := qStep3_ok (s := 25) (.inl rfl) (wV b7) m7
  obtain ⟨q9, e9, m9, l9, u9⟩ := qStep3_ok (s := 26) (.inr rfl) (wU b8) m8
  obtain ⟨q, e10, m10, l10, u10⟩ := qStep3_ok (s := 25) (.inl rfl) (wV b9) m9
  have hz : (a0 + 19 * q).natAbs ≤ 2 ^ 28 := wZ b0 m10
  obtain ⟨t0, c0, k0, x0, y0, z0, w0⟩ := carry3_ok (s := 26) (.inr rfl) hz (wV b1)
  obtain ⟨t1, c1, k1, x1, y1, z1, w1⟩ := carry3_ok (s := 25) (.inl rfl) (wC (wV b1) z0) (wU b2)
  obtain ⟨t2, c2, k2, x2, y2, z2, w2⟩ := carry3_ok (s := 26) (.inr rfl) (wC (wU b2) z1) (wV b3)
  obtain ⟨t3, c3, k3, x3, y3, z3, w3⟩ := carry3_ok (s := 25) (.inl rfl) (wC (wV b3) z2) (wU b4)
  obtain ⟨t4, c4, k4, x4, y4, z4, w4⟩ := carry3_ok (s := 26) (.inr rfl) (wC (wU b4) z3) (wV b5)
  obtain ⟨t5, c5, k5, x5, y5, z5, w5⟩ := carry3_ok (s := 25) (.inl rfl) (wC (wV b5) z4) (wU b6)
  obtain ⟨t6, c6, k6, x6, y6, z6, w6⟩ := carry3_ok (s := 26) (.inr rfl) (wC (wU b6) z5) (wV b7)
  obtain ⟨t7, c7, k7, x7, y7, z7, w7⟩ := carry3_ok (s := 25) (.inl rfl) (wC (wV b7) z6) (wU b8)
  obtain ⟨t8, c8, k8, x8, y8, z8, w8⟩ := carry3_ok (s := 26) (.inr rfl) (wC (wU b8) z7) (wV b9)
  have z9 := wC (wV b9) z8
  obtain ⟨t9, c9, k9, x9, y9, z9', w9⟩ := carry3_ok (s := 25) (hi := a9 + c8) (hj := 0) (.inl rfl) z9 (by decide)
  have h9 : i32 (a9 + c8 - (a9 + c8) / 2 ^ 25 * 2 ^ 25) = t9 := top_limb x9 y9 w9
  refine ⟨⟨t0, t1, t2, t3, t4, t5, t6, t7, t8, t9⟩, ?_, ⟨⟨x0, y0⟩, ⟨x1, y1⟩, ⟨x2, y2⟩, ⟨x3, y3⟩, ⟨x4, y4⟩, ⟨x5, y5⟩, ⟨x6, y6⟩, ⟨x7, y7⟩, ⟨x8, y8⟩, ⟨x9, y9⟩⟩, ?_⟩
  · rw [F10.reduce]
    dsimp only
    rw [v1 b9, ok_bind]
    rw [← hq0, e1, ok_bind, e2, ok_bind, e3, ok_bind, e4, ok_bind, e5, ok_bind, e6, ok_bind, e7, ok_bind, e8, ok_bind, e9, ok_bind, e10, ok_bind,
      v2 m10, ok_bind, v3 hz, ok_bind, k0, ok_bind]
    dsimp only
    rw [k1, ok_bind]; dsimp only
    rw [k2, ok_bind]; dsimp only
    rw [k3, ok_bind]; dsimp only
    rw [k4, ok_bind]; dsimp only
    rw [k5, ok_bind]; dsimp only
    rw [k6, ok_bind]; dsimp only
    rw [k7, ok_bind]; dsimp only
    rw [k8, ok_bind]; dsimp only
    rw [h9]
    rfl
  · clear e1 e2 e3 e4 e5 e6 e7 e8 e9 e10 k0 k1 k2 k3 k4 k5 k6 k7 k8 k9 h9 hq0 hW wU wV wC wZ v1 v2 v3 m1 m2 m3 m4 m5 m6 m7 m8 m9 m10 z0 z1 z2 z3 z4 z5 z6 z7 z8 z9 z9' hz
    have hT : F10.val ⟨t0, t1, t2, t3, t4, t5, t6, t7, t8, t9⟩ = F10.val ⟨a0, a1, a2, a3, a4, a5, a6, a7, a8, a9⟩ + 19 * q - c9 * 2 ^ 255 := by
      simp only [F10.val]
      linear_combination -(w0 + 2 ^ 26 * w1 + 2 ^ 51 * w2 + 2 ^ 77 * w3 + 2 ^ 102 * w4 + 2 ^ 128 * w5 + 2 ^ 153 * w6 + 2 ^ 179 * w7 + 2 ^ 204 * w8 + 2 ^ 230 * w9)
    have hT0 : 0 ≤ F10.val ⟨t0, t1, t2, t3, t4, t5, t6, t7, t8, t9⟩ ∧ F10.val ⟨t0, t1, t2, t3, t4, t5, t6, t7, t8, t9⟩ < 2 ^ 255 := by
      clear w0 w1 w2 w3 w4 w5 w6 w7 w8 w9 l1 l2 l3 l4 l5 l6 l7 l8 l9 l10 u1 u2 u3 u4 u5 u6 u7 u8 u9 u10 b0 b1 b2 b3 b4 b5 b6 b7 b8 b9 hT n0 n1
      simp only [F10.val, Int.reducePow] at *
      omega
    clear x0 x1 x2 x3 x4 x5 x6 x7 x8 x9 y0 y1 y2 y3 y4 y5 y6 y7 y8 y9 w0 w1 w2 w3 w4 w5 w6 w7 w8 w9
    have hL : q * 2 ^ 255 ≤ F10.val ⟨a0, a1, a2, a3, a4, a5, a6, a7, a8, a9⟩ + q0 ∧
        F10.val ⟨a0, a1, a2, a3, a4, a5, a6, a7, a8, a9⟩ + q0 < q * 2 ^ 255 + 2 ^ 255 := by
      clear b0 b1 b2 b3 b4 b5 b6 b7 b8 b9 hT hT0 n0 n1
      simp only [F10.val, Int.reducePow] at *
      constructor <;> linarith
    clear l1 l2 l3 l4 l5 l6 l7 l8 l9 l10 u1 u2 u3 u4 u5 u6 u7 u8 u9 u10
    have hA : ∃ R, F10.val ⟨a0, a1, a2, a3, a4, a5, a6, a7, a8, a9⟩ = 2 ^ 230 * a9 + R ∧ (-(2 ^ 231) < R ∧ R < 2 ^ 231) := by
      refine ⟨_, (Int.add_comm _ _ : F10.val ⟨a0, a1, a2, a3, a4, a5, a6, a7, a8, a9⟩ = _), ?_⟩
      have s : ∀ {x : Int} {n : Nat}, x.natAbs ≤ n → -(n : Int) ≤ x ∧ x ≤ n := fun h => by omega
      obtain ⟨d0, e0⟩ := s b0
      obtain ⟨d1, e1⟩ := s b1
      obtain ⟨d2, e2⟩ := s b2
      obtain ⟨d3, e3⟩ := s b3
      obtain ⟨d4, e4⟩ := s b4
      obtain ⟨d5, e5⟩ := s b5
      obtain ⟨d6, e6⟩ := s b6
      obtain ⟨d7, e7⟩ := s b7
      obtain ⟨d8, e8⟩ := s b8
      clear hT hT0 n0 n1 hL b9 b0 b1 b2 b3 b4 b5 b6 b7 b8 s
      push_cast at *
      constructor <;> linarith
    obtain ⟨R, hR, hA⟩ := hA
    exact zero_q hT hT0 hL hR hA b9 n1

end Cex.Ec25519
