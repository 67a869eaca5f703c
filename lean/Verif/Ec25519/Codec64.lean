import Verif.Ec25519.Lemmas64

/-!
# Decoding and encoding of the path with 128-bit integers
-/

namespace Cex.Ec25519

/-- the five digits of a number, least significant first -/
def F5.digits (n : Nat) : F5 := ⟨n % 2 ^ 51, n / 2 ^ 51 % 2 ^ 51, n / 2 ^ 102 % 2 ^ 51, n / 2 ^ 153 % 2 ^ 51, n / 2 ^ 204 % 2 ^ 51⟩

theorem digits_lt (n : Nat) : (F5.digits n).Lt (2 ^ 51) :=
  ⟨Nat.mod_lt _ (by decide), Nat.mod_lt _ (by decide), Nat.mod_lt _ (by decide), Nat.mod_lt _ (by decide), Nat.mod_lt _ (by decide)⟩

theorem digits_val (n : Nat) : (F5.digits n).val = n % 2 ^ 255 := by
  simp only [F5.digits, F5.val, Nat.reducePow]; omega

theorem digits_eq {N s0 s1 s2 s3 s4 q : Nat} (h : N = s0 + 2 ^ 51 * s1 + 2 ^ 102 * s2 + 2 ^ 153 * s3 + 2 ^ 204 * s4 + 2 ^ 255 * q)
    (l0 : s0 < 2 ^ 51) (l1 : s1 < 2 ^ 51) (l2 : s2 < 2 ^ 51) (l3 : s3 < 2 ^ 51) (l4 : s4 < 2 ^ 51) :
    F5.digits N = ⟨s0, s1, s2, s3, s4⟩ ∧ N / 2 ^ 255 = q := by
  have d0 : N % 2 ^ 51 = s0 := by simp only [Nat.reducePow] at *; omega
  have d1 : N / 2 ^ 51 = s1 + 2 ^ 51 * s2 + 2 ^ 102 * s3 + 2 ^ 153 * s4 + 2 ^ 204 * q := by simp only [Nat.reducePow] at *; omega
  have d2 : N / 2 ^ 102 = s2 + 2 ^ 51 * s3 + 2 ^ 102 * s4 + 2 ^ 153 * q := by
    rw [show 2 ^ 102 = 2 ^ 51 * 2 ^ 51 from rfl, ← Nat.div_div_eq_div_mul, d1]; simp only [Nat.reducePow] at *; omega
  have d3 : N / 2 ^ 153 = s3 + 2 ^ 51 * s4 + 2 ^ 102 * q := by
    rw [show 2 ^ 153 = 2 ^ 102 * 2 ^ 51 from rfl, ← Nat.div_div_eq_div_mul, d2]; simp only [Nat.reducePow] at *; omega
  have d4 : N / 2 ^ 204 = s4 + 2 ^ 51 * q := by
    rw [show 2 ^ 204 = 2 ^ 153 * 2 ^ 51 from rfl, ← Nat.div_div_eq_div_mul, d3]; simp only [Nat.reducePow] at *; omega
  have d5 : N / 2 ^ 255 = q := by
    rw [show 2 ^ 255 = 2 ^ 204 * 2 ^ 51 from rfl, ← Nat.div_div_eq_div_mul, d4]; simp only [Nat.reducePow] at *; omega
  refine ⟨?_, d5⟩
  rw [F5.digits, d0, d1, d2, d3, d4]
  congr 1 <;> simp only [Nat.reducePow] at * <;> omega

/-- the common carries -/
theorem carries {t : F5} (h : t.Lt (2 ^ 64)) :
    ∃ s0 s1 s2 s3 s4 q0 q1 q2 q3 q4, t.a0 / 2 ^ 51 = q0 ∧ t.a0 % 2 ^ 51 = s0 ∧ w128 (t.a1 + q0) / 2 ^ 51 = q1 ∧ w128 (t.a1 + q0) % 2 ^ 51 = s1 ∧
      w128 (t.a2 + q1) / 2 ^ 51 = q2 ∧ w128 (t.a2 + q1) % 2 ^ 51 = s2 ∧ w128 (t.a3 + q2) / 2 ^ 51 = q3 ∧ w128 (t.a3 + q2) % 2 ^ 51 = s3 ∧
      w128 (t.a4 + q3) / 2 ^ 51 = q4 ∧ w128 (t.a4 + q3) % 2 ^ 51 = s4 ∧ F5.digits t.val = ⟨s0, s1, s2, s3, s4⟩ ∧ t.val / 2 ^ 255 = q4 := by
  obtain ⟨t0, t1, t2, t3, t4⟩ := t
  obtain ⟨b0, b1, b2, b3, b4⟩ := h
  dsimp only at *
  obtain ⟨q0, s0, d0, m0, e0, l0⟩ := split51 t0
  have k0 : q0 < 2 ^ 14 := by clear d0 m0; omega
  obtain ⟨q1, s1, d1, m1, e1, l1⟩ := split51 (t1 + q0)
  have k1 : q1 < 2 ^ 14 := by clear d0 m0 d1 m1; omega
  obtain ⟨q2, s2, d2, m2, e2, l2⟩ := split51 (t2 + q1)
  have k2 : q2 < 2 ^ 14 := by clear d0 m0 d1 m1 d2 m2; omega
  obtain ⟨q3, s3, d3, m3, e3, l3⟩ := split51 (t3 + q2)
  have k3 : q3 < 2 ^ 14 := by clear d0 m0 d1 m1 d2 m2 d3 m3; omega
  obtain ⟨q4, s4, d4, m4, e4, l4⟩ := split51 (t4 + q3)
  have hd := digits_eq (N := (F5.mk t0 t1 t2 t3 t4).val) (q := q4) (by
    simp only [F5.val]
    clear d0 m0 d1 m1 d2 m2 d3 m3 d4 m4
    simp only [Nat.reducePow] at *; omega) l0 l1 l2 l3 l4
  exact ⟨s0, s1, s2, s3, s4, q0, q1, q2, q3, q4, d0, m0, by rw [w128_id (by omega), d1], by rw [w128_id (by omega), m1], by rw [w128_id (by omega), d2],
    by rw [w128_id (by omega), m2], by rw [w128_id (by omega), d3], by rw [w128_id (by omega), m3], by rw [w128_id (by omega), d4],
    by rw [w128_id (by omega), m4], hd⟩

theorem wrapPass_ok {t : F5} (h : t.Lt (2 ^ 64)) :
    wrapPass t = { F5.digits t.val with a0 := t.val % 2 ^ 51 + 19 * (t.val / 2 ^ 255) } ∧ t.val / 2 ^ 255 < 2 ^ 14 := by
  obtain ⟨s0, s1, s2, s3, s4, q0, q1, q2, q3, q4, d0, m0, d1, m1, d2, m2, d3, m3, d4, m4, hd, hq⟩ := carries h
  have hb : t.val / 2 ^ 255 < 2 ^ 14 := by
    obtain ⟨b0, b1, b2, b3, b4⟩ := h
    rw [F5.val]
    clear d0 m0 d1 m1 d2 m2 d3 m3 d4 m4 hd hq
    simp only [Nat.reducePow] at *; omega
  refine ⟨?_, hb⟩
  have hs0 : t.val % 2 ^ 51 = s0 := congrArg F5.a0 hd
  have l0 : s0 < 2 ^ 51 := by rw [← hs0]; exact Nat.mod_lt _ (by decide)
  rw [hd, hs0, hq]
  rw [hq] at hb
  rw [wrapPass, d0, m0]
  dsimp only
  rw [d1, m1, d2, m2, d3, m3, d4, m4, w128_id (by omega)]

theorem wrapPass_val {t : F5} (h : t.Lt (2 ^ 64)) : (wrapPass t).val = t.val % 2 ^ 255 + 19 * (t.val / 2 ^ 255) := by
  rw [(wrapPass_ok h).1]
  have := digits_val t.val
  simp only [F5.digits, F5.val] at this ⊢
  omega

theorem wrapPass_lt {t : F5} (h : t.Lt (2 ^ 64)) : (wrapPass t).Lt (2 ^ 63) := by
  obtain ⟨e, hb⟩ := wrapPass_ok h
  obtain ⟨_, l1, l2, l3, l4⟩ := digits_lt t.val
  rw [e]
  have l0 : t.val % 2 ^ 51 < 2 ^ 51 := Nat.mod_lt _ (by decide)
  generalize t.val / 2 ^ 255 = q at *
  generalize t.val % 2 ^ 51 = r at *
  exact ⟨by dsimp only; omega, by dsimp only; omega, by dsimp only; omega, by dsimp only; omega, by dsimp only; omega⟩

theorem F5.reduce_ok {f : F5} (h : f.Lt (2 ^ 53)) : f.reduce = F5.digits (f.val % P) := by
  have P' : P = 2 ^ 255 - 19 := rfl
  have h1 := h.mono (show 2 ^ 53 ≤ 2 ^ 64 by decide)
  obtain ⟨t1, e1⟩ : ∃ t, t = wrapPass f := ⟨_, rfl⟩
  have v1 := wrapPass_val h1
  have b1 := wrapPass_lt h1
  rw [← e1] at v1 b1
  have h2 := b1.mono (show 2 ^ 63 ≤ 2 ^ 64 by decide)
  obtain ⟨t2, e2⟩ : ∃ t, t = wrapPass t1 := ⟨_, rfl⟩
  have v2 := wrapPass_val h2
  have b2 := wrapPass_lt h2
  rw [← e2] at v2 b2
  obtain ⟨t3, e3⟩ : ∃ t : F5, t = { t2 with a0 := t2.a0 + 19 } := ⟨_, rfl⟩
  have b3 : t3.Lt (2 ^ 64) := by
    rw [e3]; exact ⟨by dsimp only; have := b2.b0; omega, b2.b1.trans (by decide), b2.b2.trans (by decide), b2.b3.trans (by decide), b2.b4.trans (by decide)⟩
  have v3 : t3.val = t2.val + 19 := by rw [e3]; simp only [F5.val]; omega
  obtain ⟨t4, e4⟩ : ∃ t, t = wrapPass t3 := ⟨_, rfl⟩
  have v4 := wrapPass_val b3
  have b4 := wrapPass_lt b3
  rw [← e4] at v4 b4
  obtain ⟨t5, e5⟩ : ∃ t : F5, t = ⟨t4.a0 + (0x8000000000000 - 19), t4.a1 + (0x8000000000000 - 1), t4.a2 + (0x8000000000000 - 1), t4.a3 + (0x8000000000000 - 1),
    t4.a4 + (0x8000000000000 - 1)⟩ := ⟨_, rfl⟩
  have c0 := b4.b0
  have c1 := b4.b1
  have c2 := b4.b2
  have c3 := b4.b3
  have c4 := b4.b4
  have b5 : t5.Lt (2 ^ 64) := by
    rw [e5]; exact ⟨by dsimp only; omega, by dsimp only; omega, by dsimp only; omega, by dsimp only; omega, by dsimp only; omega⟩
  have v5 : t5.val = t4.val + (2 ^ 255 - 19) := by rw [e5]; simp only [F5.val]; omega
  obtain ⟨s0, s1, s2, s3, s4, q0, q1, q2, q3, q4, d0, m0, d1, m1, d2, m2, d3, m3, d4, m4, hd, hq⟩ := carries b5
  have hL := digits_lt t5.val
  rw [hd] at hL
  obtain ⟨l0, l1, l2, l3, l4⟩ := hL
  dsimp only at l0 l1 l2 l3 l4
  have hR : f.reduce = ⟨s0, s1, s2, s3, s4⟩ := by
    rw [F5.reduce, ← e1, ← e2]
    rw [w128_id (show t2.a0 + 19 < 2 ^ 128 by have := b2.b0; omega), ← e3, ← e4, w128_id (show t4.a0 + (0x8000000000000 - 19) < 2 ^ 128 by omega),
      w128_id (show t4.a1 + (0x8000000000000 - 1) < 2 ^ 128 by omega), w128_id (show t4.a2 + (0x8000000000000 - 1) < 2 ^ 128 by omega),
      w128_id (show t4.a3 + (0x8000000000000 - 1) < 2 ^ 128 by omega), w128_id (show t4.a4 + (0x8000000000000 - 1) < 2 ^ 128 by omega)]
    rw [e5] at d0 m0 d1 m1 d2 m2 d3 m3 d4 m4
    dsimp only at d0 m0 d1 m1 d2 m2 d3 m3 d4 m4
    rw [d0, m0, d1, m1, d2, m2, d3, m3, m4, w64_id (by omega), w64_id (by omega), w64_id (by omega), w64_id (by omega), w64_id (by omega)]
  rw [hR, ← hd]
  have hN : f.val < 8 * 2 ^ 255 := by
    obtain ⟨g0, g1, g2, g3, g4⟩ := h
    clear d0 m0 d1 m1 d2 m2 d3 m3 d4 m4 hd hq e1 e2 e3 e4 e5 v1 v2 v3 v4 v5 hR
    rw [F5.val]; simp only [Nat.reducePow] at *; omega
  clear d0 m0 d1 m1 d2 m2 d3 m3 d4 m4 hd hq e1 e2 e3 e4 e5 hR c0 c1 c2 c3 c4 b1 b2 b3 b4 b5 h1 h2 h l0 l1 l2 l3 l4
  have key : t5.val = f.val % P + 2 ^ 255 := by
    rw [P']
    rw [v5, v4, v3]
    generalize f.val = N at *
    generalize t1.val = A at *
    generalize t2.val = B at *
    simp only [Nat.reducePow, Nat.reduceSub] at *
    omega
  have hlt : f.val % P < 2 ^ 255 := (Nat.mod_lt _ P_pos).trans (by decide)
  rw [key]
  generalize f.val % P = R at *
  rw [F5.digits, F5.digits, F5.mk.injEq]
  simp only [Nat.reducePow] at *
  refine ⟨?_, ?_, ?_, ?_, ?_⟩ <;> omega

theorem or_add {a b i : Nat} (h : a < 2 ^ i) : a ||| 2 ^ i * b = a + 2 ^ i * b := by
  rw [Nat.or_comm, ← Nat.two_pow_add_eq_or_of_lt h, Nat.add_comm]

theorem leEnc4 {n a b c d : Nat} (h : n = a + 2 ^ 64 * b + 2 ^ 128 * c + 2 ^ 192 * d) (ha : a < 2 ^ 64) (hb : b < 2 ^ 64) (hc : c < 2 ^ 64) (hd : d < 2 ^ 64) :
    leEnc 8 a ++ leEnc 8 b ++ leEnc 8 c ++ leEnc 8 d = leEnc 32 n := by
  refine eq_leEnc (by simp [leEnc_length]) ?_
  have e : ∀ {x : Nat}, x < 2 ^ 64 → leVal (leEnc 8 x) = x := fun h => by rw [leVal_leEnc, Nat.mod_eq_of_lt (by simpa using h)]
  rw [leVal_append, leVal_append, leVal_append, e ha, e hb, e hc, e hd]
  simp only [List.length_append, leEnc_length, Nat.reduceAdd, Nat.reducePow] at *
  omega

theorem F5.toBytes_ok {f : F5} (h : f.Lt (2 ^ 53)) {s : List Byte} (hs : s.length = 32) : f.toBytes s = .ok (leEnc 32 (f.val % P)) := by
  have hR : f.val % P < 2 ^ 255 := (Nat.mod_lt _ P_pos).trans (by decide)
  rw [F5.toBytes, F5.reduce_ok h]
  generalize f.val % P = R at *
  have x0 : R % 2 ^ 51 ||| w64 (R / 2 ^ 51 % 2 ^ 51 * 2 ^ 51) = R % 2 ^ 64 := by
    have : w64 (R / 2 ^ 51 % 2 ^ 51 * 2 ^ 51) = 2 ^ 51 * (R / 2 ^ 51 % 2 ^ 13) := by simp only [w64, Nat.reducePow]; omega
    rw [this, or_add (Nat.mod_lt _ (by decide))]; simp only [Nat.reducePow]; omega
  have x1 : R / 2 ^ 51 % 2 ^ 51 / 2 ^ 13 ||| w64 (R / 2 ^ 102 % 2 ^ 51 * 2 ^ 38) = R / 2 ^ 64 % 2 ^ 64 := by
    have : w64 (R / 2 ^ 102 % 2 ^ 51 * 2 ^ 38) = 2 ^ 38 * (R / 2 ^ 102 % 2 ^ 26) := by simp only [w64, Nat.reducePow]; omega
    rw [this, or_add (by simp only [Nat.reducePow]; omega)]; simp only [Nat.reducePow]; omega
  have x2 : R / 2 ^ 102 % 2 ^ 51 / 2 ^ 26 ||| w64 (R / 2 ^ 153 % 2 ^ 51 * 2 ^ 25) = R / 2 ^ 128 % 2 ^ 64 := by
    have : w64 (R / 2 ^ 153 % 2 ^ 51 * 2 ^ 25) = 2 ^ 25 * (R / 2 ^ 153 % 2 ^ 39) := by simp only [w64, Nat.reducePow]; omega
    rw [this, or_add (by simp only [Nat.reducePow]; omega)]; simp only [Nat.reducePow]; omega
  have x3 : R / 2 ^ 153 % 2 ^ 51 / 2 ^ 39 ||| w64 (R / 2 ^ 204 % 2 ^ 51 * 2 ^ 12) = R / 2 ^ 192 % 2 ^ 64 := by
    have : w64 (R / 2 ^ 204 % 2 ^ 51 * 2 ^ 12) = 2 ^ 12 * (R / 2 ^ 204 % 2 ^ 51) := by simp only [w64, Nat.reducePow]; omega
    rw [this, or_add (by simp only [Nat.reducePow]; omega)]; simp only [Nat.reducePow]; omega
  dsimp only [F5.digits]
  rw [x0, x1, x2, x3]
  have L : ∀ x : Nat, (leEnc 8 x).length = 8 := fun x => leEnc_length _ _
  obtain ⟨a, b, c, d, rfl, ha, hb, hc, hd⟩ : ∃ a b c d : List Byte, s = a ++ b ++ c ++ d ∧ a.length = 8 ∧ b.length = 8 ∧ c.length = 8 ∧ d.length = 8 :=
    ⟨s.take 8, (s.drop 8).take 8, (s.drop 16).take 8, s.drop 24, by
      conv_lhs => rw [← List.take_append_drop 8 s, ← List.take_append_drop 8 (s.drop 8), ← List.take_append_drop 8 ((s.drop 8).drop 8)]
      simp [List.drop_drop], by simp [hs], by simp [hs], by simp [hs], by simp [hs]⟩
  rw [show a ++ b ++ c ++ d = [] ++ a ++ (b ++ c ++ d) from by simp, blit_at (a := []) (ho := (rfl : 0 = ([] : List Byte).length)) (by rw [L, ha]), ok_bind,
    show [] ++ leEnc 8 (R % 2 ^ 64) ++ (b ++ c ++ d) = leEnc 8 (R % 2 ^ 64) ++ b ++ (c ++ d) from by simp,
    blit_at (by rw [L]) (by rw [L, hb]), ok_bind,
    show ∀ x y : List Byte, x ++ y ++ (c ++ d) = (x ++ y) ++ c ++ d from fun x y => by simp,
    blit_at (by rw [List.length_append, L, L]) (by rw [L, hc]), ok_bind,
    show ∀ x : List Byte, x ++ d = x ++ d ++ [] from fun x => by simp, blit_at (by rw [List.length_append, List.length_append, L, L, L]) (by rw [L, hd]),
    List.append_nil]
  congr 1
  exact leEnc4 (by simp only [Nat.reducePow] at *; omega) (Nat.mod_lt _ (by decide)) (Nat.mod_lt _ (by decide)) (Nat.mod_lt _ (by decide)) (Nat.mod_lt _ (by decide))

theorem leVal_window {s : List Byte} {o : Nat} (h : 32 ≤ s.length) (ho : o + 8 ≤ 32) :
    slice s o 8 = .ok ((s.drop o).take 8) ∧ leVal ((s.drop o).take 8) = leVal (s.take 32) / 256 ^ o % 256 ^ 8 := by
  refine ⟨by rw [slice, if_pos (by omega)], ?_⟩
  have e : s.take 32 = s.take o ++ ((s.drop o).take 8 ++ ((s.drop (o + 8)).take (32 - (o + 8)))) := by
    rw [show 32 = o + (8 + (32 - (o + 8))) from by omega, List.take_add, List.take_add, List.drop_drop]
    simp [show o + (8 + (24 - o)) - (o + 8) = 24 - o from by omega]
  rw [e, leVal_append, leVal_append, List.length_take, Nat.min_eq_left (by omega), List.length_take, List.length_drop, Nat.min_eq_left (by omega)]
  have l1 := leVal_lt (s.take o)
  rw [List.length_take, Nat.min_eq_left (by omega)] at l1
  have l2 := leVal_lt ((s.drop o).take 8)
  rw [List.length_take, List.length_drop, Nat.min_eq_left (by omega)] at l2
  rw [Nat.add_mul_div_left _ _ (Nat.pow_pos (by decide)), Nat.div_eq_of_lt l1, Nat.zero_add, Nat.add_mul_mod_self_left, Nat.mod_eq_of_lt l2]

theorem F5.fromBytes_ok {s : List Byte} (h : 32 ≤ s.length) :
    F5.fromBytes s = .ok (F5.digits (leVal (s.take 32))) := by
  obtain ⟨a0, b0⟩ := leVal_window (o := 0) h (by decide)
  obtain ⟨a1, b1⟩ := leVal_window (o := 6) h (by decide)
  obtain ⟨a2, b2⟩ := leVal_window (o := 12) h (by decide)
  obtain ⟨a3, b3⟩ := leVal_window (o := 19) h (by decide)
  obtain ⟨a4, b4⟩ := leVal_window (o := 24) h (by decide)
  rw [F5.fromBytes, a0, ok_bind, a1, ok_bind, a2, ok_bind, a3, ok_bind, a4, ok_bind, b0, b1, b2, b3, b4]
  generalize leVal (s.take 32) = N
  have : F5.digits N = ⟨N / 256 ^ 0 % 256 ^ 8 % 2 ^ 51, N / 256 ^ 6 % 256 ^ 8 / 2 ^ 3 % 2 ^ 51, N / 256 ^ 12 % 256 ^ 8 / 2 ^ 6 % 2 ^ 51,
      N / 256 ^ 19 % 256 ^ 8 / 2 ^ 1 % 2 ^ 51, N / 256 ^ 24 % 256 ^ 8 / 2 ^ 12 % 2 ^ 51⟩ := by
    rw [F5.digits]
    congr 1 <;> simp only [Nat.reducePow] <;> omega
  rw [this]
  rfl

end Cex.Ec25519
