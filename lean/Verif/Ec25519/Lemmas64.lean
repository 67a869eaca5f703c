import Verif.Ec25519.Model64
import Verif.Ec25519.KexLemmas

/-!
# The limb arithmetic of the path with 128-bit integers
-/

namespace Cex.Ec25519

/-- the integer of five limbs -/
def F5.val (f : F5) : Nat := f.a0 + 2 ^ 51 * f.a1 + 2 ^ 102 * f.a2 + 2 ^ 153 * f.a3 + 2 ^ 204 * f.a4

/-- limbs below `n` -/
structure F5.Lt (n : Nat) (f : F5) : Prop where
  b0 : f.a0 < n
  b1 : f.a1 < n
  b2 : f.a2 < n
  b3 : f.a3 < n
  b4 : f.a4 < n

theorem F5.Lt.mono {m n : Nat} {f : F5} (h : f.Lt m) (l : m ≤ n) : f.Lt n :=
  ⟨h.b0.trans_le l, h.b1.trans_le l, h.b2.trans_le l, h.b3.trans_le l, h.b4.trans_le l⟩

theorem w64_id {x : Nat} (h : x < 2 ^ 64) : w64 x = x := Nat.mod_eq_of_lt h
theorem w128_id {x : Nat} (h : x < 2 ^ 128) : w128 x = x := Nat.mod_eq_of_lt h

theorem F5.add_ok {f g : F5} {m n : Nat} (hf : f.Lt m) (hg : g.Lt n) (h : m + n ≤ 2 ^ 64) : (f.add g).Lt (m + n) ∧ (f.add g).val = f.val + g.val := by
  obtain ⟨f0, f1, f2, f3, f4⟩ := hf
  obtain ⟨g0, g1, g2, g3, g4⟩ := hg
  rw [F5.add, w64_id (by omega), w64_id (by omega), w64_id (by omega), w64_id (by omega), w64_id (by omega)]
  refine ⟨⟨by dsimp only; omega, by dsimp only; omega, by dsimp only; omega, by dsimp only; omega, by dsimp only; omega⟩, ?_⟩
  simp only [F5.val]
  ring

theorem split51 (x : Nat) : ∃ q r, x / 2 ^ 51 = q ∧ x % 2 ^ 51 = r ∧ x = r + 2 ^ 51 * q ∧ r < 2 ^ 51 :=
  ⟨_, _, rfl, rfl, by omega, Nat.mod_lt _ (by decide)⟩

theorem subLimb_ok {f c h : Nat} (hf : f < 2 ^ 53) (hc : c < 2 ^ 53) (hh : h ≤ f + c) : subLimb f c h = f + c - h := by
  simp only [subLimb, w64, Nat.reducePow] at *; omega

theorem F5.sub_ok {f g : F5} (hf : f.Lt (2 ^ 52)) (hg : g.Lt (2 ^ 52)) :
    (f.sub g).Lt (2 ^ 53) ∧ ∃ c : Int, ((f.sub g).val : Int) = f.val - g.val - c * P := by
  obtain ⟨f0, f1, f2, f3, f4⟩ := f
  obtain ⟨g0, g1, g2, g3, g4⟩ := g
  obtain ⟨bf0, bf1, bf2, bf3, bf4⟩ := hf
  obtain ⟨bg0, bg1, bg2, bg3, bg4⟩ := hg
  dsimp only at *
  obtain ⟨q0, r0, d0, m0, e0, l0⟩ := split51 g0
  obtain ⟨q1, r1, d1, m1, e1, l1⟩ := split51 (g1 + q0)
  obtain ⟨q2, r2, d2, m2, e2, l2⟩ := split51 (g2 + q1)
  obtain ⟨q3, r3, d3, m3, e3, l3⟩ := split51 (g3 + q2)
  obtain ⟨q4, r4, d4, m4, e4, l4⟩ := split51 (g4 + q3)
  have k0 : q0 ≤ 1 := by omega
  have k1 : q1 ≤ 2 := by omega
  have k2 : q2 ≤ 2 := by omega
  have k3 : q3 ≤ 2 := by omega
  have k4 : q4 ≤ 2 := by omega
  have hs : (F5.mk f0 f1 f2 f3 f4).sub ⟨g0, g1, g2, g3, g4⟩ = ⟨f0 + 0xFFFFFFFFFFFDA - (r0 + 19 * q4), f1 + 0xFFFFFFFFFFFFE - r1,
      f2 + 0xFFFFFFFFFFFFE - r2, f3 + 0xFFFFFFFFFFFFE - r3, f4 + 0xFFFFFFFFFFFFE - r4⟩ := by
    rw [F5.sub]
    dsimp only
    rw [d0, m0, w64_id (show g1 + q0 < 2 ^ 64 by omega), d1, m1, w64_id (show g2 + q1 < 2 ^ 64 by omega), d2, m2,
      w64_id (show g3 + q2 < 2 ^ 64 by omega), d3, m3, w64_id (show g4 + q3 < 2 ^ 64 by omega), d4, m4, w64_id (show r0 + 19 * q4 < 2 ^ 64 by omega),
      subLimb_ok (by omega) (by decide) (by omega), subLimb_ok (by omega) (by decide) (by omega), subLimb_ok (by omega) (by decide) (by omega),
      subLimb_ok (by omega) (by decide) (by omega), subLimb_ok (by omega) (by decide) (by omega)]
  clear d0 m0 d1 m1 d2 m2 d3 m3 d4 m4
  rw [hs]
  refine ⟨⟨by dsimp only; omega, by dsimp only; omega, by dsimp only; omega, by dsimp only; omega, by dsimp only; omega⟩, -(q4 : Int) - 2, ?_⟩
  have hP : (P : Int) = 2 ^ 255 - 19 := by decide
  rw [hP]
  simp only [F5.val]
  clear bf0 bf1 bf2 bf3 bf4 bg0 bg1 bg2 bg3 bg4
  have c0 : ((f0 + 0xFFFFFFFFFFFDA - (r0 + 19 * q4) : Nat) : Int) = f0 + 0xFFFFFFFFFFFDA - (r0 + 19 * q4) := by omega
  have c1 : ((f1 + 0xFFFFFFFFFFFFE - r1 : Nat) : Int) = f1 + 0xFFFFFFFFFFFFE - r1 := by omega
  have c2 : ((f2 + 0xFFFFFFFFFFFFE - r2 : Nat) : Int) = f2 + 0xFFFFFFFFFFFFE - r2 := by omega
  have c3 : ((f3 + 0xFFFFFFFFFFFFE - r3 : Nat) : Int) = f3 + 0xFFFFFFFFFFFFE - r3 := by omega
  have c4 : ((f4 + 0xFFFFFFFFFFFFE - r4 : Nat) : Int) = f4 + 0xFFFFFFFFFFFFE - r4 := by omega
  push_cast [c0, c1, c2, c3, c4]
  zify at e0 e1 e2 e3 e4
  linear_combination (e0 + 2 ^ 51 * e1 + 2 ^ 102 * e2 + 2 ^ 153 * e3 + 2 ^ 204 * e4)

theorem carry5_ok {r0 r1 r2 r3 r4 : Nat} (h0 : r0 < 2 ^ 114) (h1 : r1 < 2 ^ 114) (h2 : r2 < 2 ^ 114) (h3 : r3 < 2 ^ 114) (h4 : r4 < 2 ^ 109) :
    (carry5 r0 r1 r2 r3 r4).Lt (2 ^ 51 + 1) ∧
      ∃ c : Int, ((carry5 r0 r1 r2 r3 r4).val : Int) = ((F5.mk r0 r1 r2 r3 r4).val : Nat) - c * P := by
  obtain ⟨q0, s0, d0, m0, e0, l0⟩ := split51 r0
  obtain ⟨q1, s1, d1, m1, e1, l1⟩ := split51 (r1 + q0)
  obtain ⟨q2, s2, d2, m2, e2, l2⟩ := split51 (r2 + q1)
  obtain ⟨q3, s3, d3, m3, e3, l3⟩ := split51 (r3 + q2)
  obtain ⟨q4, s4, d4, m4, e4, l4⟩ := split51 (r4 + q3)
  have k0 : q0 < 2 ^ 63 := by omega
  have k1 : q1 < 2 ^ 64 := by omega
  have k2 : q2 < 2 ^ 64 := by omega
  have k3 : q3 < 2 ^ 64 := by omega
  have k4 : q4 < 2 ^ 59 := by omega
  obtain ⟨q5, s5, d5, m5, e5, l5⟩ := split51 (s0 + 19 * q4)
  have k5 : q5 < 2 ^ 13 := by omega
  obtain ⟨q6, s6, d6, m6, e6, l6⟩ := split51 (s1 + q5)
  have k6 : q6 ≤ 1 := by omega
  have hs : carry5 r0 r1 r2 r3 r4 = ⟨s5, s6, s2 + q6, s3, s4⟩ := by
    rw [carry5]
    rw [d0, m0, w64_id (show q0 < 2 ^ 64 by omega), w128_id (show r1 + q0 < 2 ^ 128 by omega), d1, m1, w64_id k1,
      w128_id (show r2 + q1 < 2 ^ 128 by omega), d2, m2, w64_id k2, w128_id (show r3 + q2 < 2 ^ 128 by omega), d3, m3, w64_id k3,
      w128_id (show r4 + q3 < 2 ^ 128 by omega), d4, m4, w64_id (show q4 < 2 ^ 64 by omega), w64_id (show 19 * q4 < 2 ^ 64 by omega),
      w64_id (show s0 + 19 * q4 < 2 ^ 64 by omega), d5, m5, d6, m6, w64_id (show q6 < 2 ^ 64 by omega), w64_id (show s2 + q6 < 2 ^ 64 by omega)]
  rw [hs]
  clear d0 m0 d1 m1 d2 m2 d3 m3 d4 m4 d5 m5 d6 m6 hs k0 k1 k2 k3 k4 k5
  refine ⟨⟨by dsimp only; omega, by dsimp only; omega, by dsimp only; omega, by dsimp only; omega, by dsimp only; omega⟩, (q4 : Int), ?_⟩
  have hP : (P : Int) = 2 ^ 255 - 19 := by decide
  rw [hP]
  simp only [F5.val]
  push_cast
  zify at e0 e1 e2 e3 e4 e5 e6
  linear_combination -(e0 + 2 ^ 51 * e1 + 2 ^ 102 * e2 + 2 ^ 153 * e3 + 2 ^ 204 * e4 + e5 + 2 ^ 51 * e6)

theorem prod_lt {x y : Nat} (hx : x < 2 ^ 53) (hy : y < 2 ^ 53) : x * y < 2 ^ 106 := by
  calc x * y < 2 ^ 53 * 2 ^ 53 := Nat.mul_lt_mul'' hx hy
    _ = 2 ^ 106 := by decide

theorem F5.mul_ok {f g : F5} (hf : f.Lt (2 ^ 53)) (hg : g.Lt (2 ^ 53)) :
    (f.mul g).Lt (2 ^ 51 + 1) ∧ ∃ c : Int, ((f.mul g).val : Int) = f.val * g.val - c * P := by
  obtain ⟨f0, f1, f2, f3, f4⟩ := f
  obtain ⟨g0, g1, g2, g3, g4⟩ := g
  obtain ⟨a0, a1, a2, a3, a4⟩ := hf
  obtain ⟨b0, b1, b2, b3, b4⟩ := hg
  dsimp only at *
  have p00 := prod_lt a0 b0
  have p01 := prod_lt a0 b1
  have p02 := prod_lt a0 b2
  have p03 := prod_lt a0 b3
  have p04 := prod_lt a0 b4
  have p10 := prod_lt a1 b0
  have p11 := prod_lt a1 b1
  have p12 := prod_lt a1 b2
  have p13 := prod_lt a1 b3
  have p14 := prod_lt a1 b4
  have p20 := prod_lt a2 b0
  have p21 := prod_lt a2 b1
  have p22 := prod_lt a2 b2
  have p23 := prod_lt a2 b3
  have p24 := prod_lt a2 b4
  have p30 := prod_lt a3 b0
  have p31 := prod_lt a3 b1
  have p32 := prod_lt a3 b2
  have p33 := prod_lt a3 b3
  have p34 := prod_lt a3 b4
  have p40 := prod_lt a4 b0
  have p41 := prod_lt a4 b1
  have p42 := prod_lt a4 b2
  have p43 := prod_lt a4 b3
  have p44 := prod_lt a4 b4
  have h0 : f0 * g0 + 19 * f1 * g4 + 19 * f2 * g3 + 19 * f3 * g2 + 19 * f4 * g1 < 2 ^ 114 := by simp only [Nat.mul_assoc]; omega
  have h1 : f0 * g1 + f1 * g0 + 19 * f2 * g4 + 19 * f3 * g3 + 19 * f4 * g2 < 2 ^ 114 := by simp only [Nat.mul_assoc]; omega
  have h2 : f0 * g2 + f1 * g1 + f2 * g0 + 19 * f3 * g4 + 19 * f4 * g3 < 2 ^ 114 := by simp only [Nat.mul_assoc]; omega
  have h3 : f0 * g3 + f1 * g2 + f2 * g1 + f3 * g0 + 19 * f4 * g4 < 2 ^ 114 := by simp only [Nat.mul_assoc]; omega
  have h4 : f0 * g4 + f1 * g3 + f2 * g2 + f3 * g1 + f4 * g0 < 2 ^ 109 := by omega
  have w : ∀ {x : Nat}, x < 2 ^ 114 → w128 x = x := fun h => w128_id (by omega)
  have w' : ∀ {x : Nat}, x < 2 ^ 109 → w128 x = x := fun h => w128_id (by omega)
  rw [F5.mul]
  dsimp only
  rw [w h0, w h1, w h2, w h3, w' h4]
  obtain ⟨hl, c, hv⟩ := carry5_ok h0 h1 h2 h3 h4
  refine ⟨hl, c + (f1 * g4 + f2 * g3 + f3 * g2 + f4 * g1 + 2 ^ 51 * (f2 * g4 + f3 * g3 + f4 * g2) + 2 ^ 102 * (f3 * g4 + f4 * g3) + 2 ^ 153 * (f4 * g4)), ?_⟩
  rw [hv]
  have hP : (P : Int) = 2 ^ 255 - 19 := by decide
  rw [hP]
  simp only [F5.val]
  push_cast
  ring

theorem F5.sq_ok {f : F5} (hf : f.Lt (2 ^ 53)) :
    f.sq.Lt (2 ^ 51 + 1) ∧ ∃ c : Int, (f.sq.val : Int) = f.val * f.val - c * P := by
  have e : f.sq = f.mul f := by
    rw [F5.sq, F5.mul]
    congr 2 <;> ring
  rw [e]
  exact F5.mul_ok hf hf

theorem F5.mul32_ok {f : F5} {n : Nat} (hf : f.Lt (2 ^ 53)) (hn : n < 2 ^ 32) :
    (f.mul32 n).Lt (2 ^ 52) ∧ ∃ c : Int, ((f.mul32 n).val : Int) = n * f.val - c * P := by
  obtain ⟨f0, f1, f2, f3, f4⟩ := f
  obtain ⟨a0, a1, a2, a3, a4⟩ := hf
  dsimp only at *
  have pl : ∀ {x : Nat}, x < 2 ^ 53 → x * n < 2 ^ 85 := fun {x} h => by
    calc x * n < 2 ^ 53 * 2 ^ 32 := Nat.mul_lt_mul'' h hn
      _ = 2 ^ 85 := by decide
  have p0 := pl a0
  have p1 := pl a1
  have p2 := pl a2
  have p3 := pl a3
  have p4 := pl a4
  obtain ⟨q0, s0, d0, m0, e0, l0⟩ := split51 (f0 * n)
  obtain ⟨q1, s1, d1, m1, e1, l1⟩ := split51 (f1 * n + q0)
  obtain ⟨q2, s2, d2, m2, e2, l2⟩ := split51 (f2 * n + q1)
  obtain ⟨q3, s3, d3, m3, e3, l3⟩ := split51 (f3 * n + q2)
  obtain ⟨q4, s4, d4, m4, e4, l4⟩ := split51 (f4 * n + q3)
  have k0 : q0 < 2 ^ 35 := by omega
  have k1 : q1 < 2 ^ 35 := by omega
  have k2 : q2 < 2 ^ 35 := by omega
  have k3 : q3 < 2 ^ 35 := by omega
  have k4 : q4 < 2 ^ 35 := by omega
  have hs : (F5.mk f0 f1 f2 f3 f4).mul32 n = ⟨s0 + q4 * 19, s1, s2, s3, s4⟩ := by
    rw [F5.mul32]
    dsimp only
    rw [w128_id (show f0 * n < 2 ^ 128 by omega), d0, m0, w64_id (show q0 < 2 ^ 64 by omega), w128_id (show f1 * n + q0 < 2 ^ 128 by omega), d1, m1,
      w64_id (show q1 < 2 ^ 64 by omega), w128_id (show f2 * n + q1 < 2 ^ 128 by omega), d2, m2, w64_id (show q2 < 2 ^ 64 by omega),
      w128_id (show f3 * n + q2 < 2 ^ 128 by omega), d3, m3, w64_id (show q3 < 2 ^ 64 by omega), w128_id (show f4 * n + q3 < 2 ^ 128 by omega), d4, m4,
      w64_id (show q4 < 2 ^ 64 by omega), w64_id (show q4 * 19 < 2 ^ 64 by omega), w64_id (show s0 + q4 * 19 < 2 ^ 64 by omega)]
  rw [hs]
  refine ⟨⟨by dsimp only; omega, by dsimp only; omega, by dsimp only; omega, by dsimp only; omega, by dsimp only; omega⟩, (q4 : Int), ?_⟩
  have hP : (P : Int) = 2 ^ 255 - 19 := by decide
  rw [hP]
  simp only [F5.val]
  push_cast
  zify at e0 e1 e2 e3 e4
  linear_combination -(e0 + 2 ^ 51 * e1 + 2 ^ 102 * e2 + 2 ^ 153 * e3 + 2 ^ 204 * e4)

end Cex.Ec25519
