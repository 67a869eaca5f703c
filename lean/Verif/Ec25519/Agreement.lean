import Mathlib.FieldTheory.IsAlgClosed.AlgebraicClosure
import Mathlib.FieldTheory.Finite.Basic
import Verif.Ec25519.Group
import Verif.Ec25519.Prime
import Verif.Ec25519.KexLemmas

/-!
# X25519 computes multiples of a point, hence commutes
-/

namespace Cex.Ec25519

open WeierstrassCurve WeierstrassCurve.Affine

instance : Fact P.Prime := ⟨P_prime⟩

variable {K : Type*} [Field K] [DecidableEq K] [CharP K P]

theorem kmod (n : Nat) : ((n % P : Nat) : K) = n := (CharP.cast_eq_mod K P n).symm
theorem kP : ((P : Nat) : K) = 0 := CharP.cast_eq_zero K P
theorem kadd (a b : Nat) : ((fadd a b : Nat) : K) = a + b := by rw [fadd, kmod, Nat.cast_add]
theorem kmul (a b : Nat) : ((fmul a b : Nat) : K) = a * b := by rw [fmul, kmod, Nat.cast_mul]
theorem ksub (a b : Nat) : ((fsub a b : Nat) : K) = a - b := by
  rw [fsub, kmod, Nat.cast_add, Nat.cast_sub (Nat.mod_lt _ P_pos).le, kP, kmod]; ring

theorem kne {n : Nat} (h0 : 0 < n) (h : n < P) : ((n : Nat) : K) ≠ 0 := fun e =>
  absurd (Nat.le_of_dvd h0 ((CharP.cast_eq_zero_iff K P n).mp e)) (by omega)

theorem kinj {a b : Nat} (ha : a < P) (hb : b < P) (h : (a : K) = b) : a = b := by
  have := (CharP.cast_eq_iff_mod_eq K P).mp h
  rwa [Nat.mod_eq_of_lt ha, Nat.mod_eq_of_lt hb] at this

theorem k2 : (2 : K) ≠ 0 := by exact_mod_cast kne (K := K) (n := 2) (by decide) (by decide)
theorem kA : (486662 : K) ^ 2 - 4 ≠ 0 := by
  have := kne (K := K) (n := 486662 ^ 2 - 4) (by decide) (by decide)
  rw [show (486662 : K) ^ 2 - 4 = ((486662 ^ 2 - 4 : Nat) : K) by rw [Nat.cast_sub (by norm_num)]; push_cast; norm_num]
  exact this

/-- the curve of X25519 -/
abbrev C25519 (K : Type*) [Field K] [DecidableEq K] : WeierstrassCurve.Affine K := mont (486662 : K)

theorem step_rx {R1 R2 : (C25519 K).Point} {s : Lad} {u : Nat} {v : K} {hn : (C25519 K).Nonsingular (u : K) v} (hu : (u : K) ≠ 0)
    (hd : R2 - R1 = Point.some (u : K) v hn) (h1 : Rx R1 (s.x2 : K) s.z2) (h2 : Rx R2 (s.x3 : K) s.z3) :
    Rx (R1 + R1) ((s.step u).x2 : K) (s.step u).z2 ∧ Rx (R1 + R2) ((s.step u).x3 : K) (s.step u).z3 := by
  have a := double_ok k2 kA h1
  have b := diff_ok k2 hu hd h1 h2
  simp only [Lad.step, kmul, kadd, ksub, a24]
  constructor
  · convert a using 1
    · ring
    · push_cast; ring
  · convert b using 1
    · ring
    · ring

theorem run_rx {k u : Nat} {v : K} {hn : (C25519 K).Nonsingular (u : K) v} (hu : (u : K) ≠ 0) : ∀ (n : Nat) (s : Lad) (sw : Bool),
    Rx ((k / 2 ^ n) • Point.some (u : K) v hn) ((s.swap sw).x2 : K) (s.swap sw).z2 → Rx ((k / 2 ^ n + 1) • Point.some (u : K) v hn) ((s.swap sw).x3 : K) (s.swap sw).z3 →
    Rx (k • Point.some (u : K) v hn) (((Lad.run k u n (s, sw)).1.swap (Lad.run k u n (s, sw)).2).x2 : K) ((Lad.run k u n (s, sw)).1.swap (Lad.run k u n (s, sw)).2).z2
  | 0, s, sw, h1, _ => by simpa [Lad.run] using h1
  | n + 1, s, sw, h1, h2 => by
    rw [Lad.run, Lad.turn]
    dsimp only
    obtain ⟨t, ht⟩ : ∃ t, t = s.swap sw := ⟨_, rfl⟩
    have hs : s.swap (sw ^^ k.testBit n) = t.swap (k.testBit n) := by
      rw [ht]; cases sw <;> cases k.testBit n <;> rfl
    rw [← ht] at h1 h2
    rw [hs]
    have hb := Nat.testBit_eq_decide_div_mod_eq (x := k) (i := n)
    have hdd : k / 2 ^ (n + 1) = k / 2 ^ n / 2 := by rw [pow_succ, Nat.div_div_eq_div_mul]
    rw [hdd] at h1 h2
    obtain ⟨Q, hQ⟩ : ∃ Q, Q = Point.some (u : K) v hn := ⟨_, rfl⟩
    obtain ⟨hn', eN⟩ := neg_pt hn
    generalize hm : k / 2 ^ n = m at *
    cases hbit : k.testBit n with
    | false =>
      rw [hbit] at hb
      have he : m = m / 2 + m / 2 := by have := of_decide_eq_false hb.symm; omega
      obtain ⟨r1, r2⟩ := step_rx hu (by rw [← hQ, add_nsmul, one_nsmul, add_sub_cancel_left]) h1 h2
      refine run_rx hu n (t.step u) false ?_ ?_
      · rw [hm, he, add_nsmul]; exact r1
      · rw [hm, he, add_assoc, add_nsmul]; exact r2
    | true =>
      rw [hbit] at hb
      have he : m = m / 2 + (m / 2 + 1) := by have := of_decide_eq_true hb.symm; omega
      obtain ⟨r1, r2⟩ := step_rx (s := t.swap true) (R1 := (m / 2 + 1) • Point.some (u : K) v hn) (R2 := (m / 2) • Point.some (u : K) v hn) hu
        (by rw [← eN, ← hQ, add_nsmul, one_nsmul, sub_add_cancel_left]) h2 h1
      refine run_rx hu n ((t.swap true).step u) true ?_ ?_
      · rw [hm, he, add_comm (m / 2), add_nsmul]; exact r2
      · rw [hm, show m + 1 = (m / 2 + 1) + (m / 2 + 1) by omega, add_nsmul]; exact r1

/-- the x-coordinate, 0 for the neutral element -/
def xc {A : K} (R : (mont A).Point) : K :=
  match R with
  | .zero => 0
  | .some x _ _ => x

theorem rx_xc {A : K} {R : (mont A).Point} {x z : Nat} (h : Rx R (x : K) z) : ((fmul x (z ^ (P - 2) % P) : Nat) : K) = xc R := by
  rw [kmul, kmod, Nat.cast_pow]
  match R, h with
  | .zero, h =>
    obtain ⟨hz, _⟩ := h
    rw [hz, zero_pow (by decide), mul_zero]; rfl
  | .some r _ _, h =>
    obtain ⟨hz, hx⟩ := h
    have hz' : ((z : Nat) : ZMod P) ≠ 0 := fun e => hz ((CharP.cast_eq_zero_iff K P z).mpr ((ZMod.natCast_eq_zero_iff z P).mp e))
    have f := congrArg (ZMod.castHom (dvd_refl P) K) (ZMod.pow_card_sub_one_eq_one hz')
    rw [map_pow, map_natCast, map_one] at f
    rw [hx, mul_assoc, ← pow_succ', show P - 2 + 1 = P - 1 by decide, f, mul_one]; rfl

/-- X25519 is the x-coordinate of the multiple of any point over the given x-coordinate -/
theorem x25519Nat_xc {k u : Nat} (hk : k < 2 ^ 255) {v : K} {hn : (C25519 K).Nonsingular (u : K) v} (hu : (u : K) ≠ 0) :
    ((x25519Nat k u : Nat) : K) = xc (k • Point.some (u : K) v hn) := by
  rw [x25519Nat]
  refine rx_xc ?_
  rw [ladder]
  have h0 : k / 2 ^ 255 = 0 := Nat.div_eq_of_lt hk
  refine run_rx hu 255 ⟨1, 0, u, 1⟩ false ?_ ?_
  · rw [h0, zero_nsmul]
    exact ⟨by simp [Lad.swap], by simp [Lad.swap]⟩
  · rw [h0, zero_add, one_nsmul]
    exact ⟨by simp [Lad.swap], by simp [Lad.swap]⟩

theorem smul_xc_zero {A : K} {R : (mont A).Point} (h : xc R = 0) {a : Nat} (ha : 2 ∣ a) : a • R = 0 := by
  obtain ⟨b, rfl⟩ := ha
  have : (2 : Nat) • R = 0 := by
    match R, h with
    | .zero, _ => exact nsmul_zero 2
    | .some x y hn, h =>
      have hx : x = 0 := h
      subst hx
      have hq := mont_eqn.mp hn.1
      have hy : y = 0 := by
        have : y ^ 2 = 0 := by rw [hq]; ring
        exact pow_eq_zero_iff (two_ne_zero) |>.mp this
      subst hy
      rw [two_nsmul, add_self_zero]
  rw [mul_nsmul, this, nsmul_zero]

/-- over an algebraically closed field every number is the x-coordinate of a point -/
theorem lift [IsAlgClosed K] (u : K) : ∃ v, (C25519 K).Nonsingular u v := by
  obtain ⟨v, hv⟩ := IsAlgClosed.exists_pow_nat_eq (u ^ 3 + 486662 * u ^ 2 + u) (n := 2) (by decide)
  exact ⟨v, mont_nonsingular k2 kA hv⟩

/-- one side of the exchange -/
theorem twice {a b u : Nat} (ha : a < 2 ^ 255) (ha2 : 2 ∣ a) (hb : b < 2 ^ 255) {v : K} {hn : (C25519 K).Nonsingular (u : K) v} (hu : (u : K) ≠ 0) :
    ((x25519Nat a (x25519Nat b u) : Nat) : K) = xc ((a * b) • Point.some (u : K) v hn) := by
  have e := x25519Nat_xc hb (hn := hn) hu
  rw [mul_comm, mul_nsmul]
  by_cases h0 : ((x25519Nat b u : Nat) : K) = 0
  · rw [h0] at e
    rw [smul_xc_zero e.symm ha2]
    have : x25519Nat b u = 0 := kinj (K := K) (x25519Nat_lt _ _) P_pos (by rw [h0]; simp)
    rw [this, x25519Nat_zero]
    simp [xc]
  · match hR : b • Point.some (u : K) v hn with
    | .zero => rw [hR] at e; exact absurd e h0
    | .some x y hxy =>
      rw [hR] at e
      have e' : ((x25519Nat b u : Nat) : K) = x := e
      subst e'
      exact x25519Nat_xc ha h0

theorem x25519Nat_comm {a b u : Nat} (ha : a < 2 ^ 255) (ha2 : 2 ∣ a) (hb : b < 2 ^ 255) (hb2 : 2 ∣ b) (hu : u < P) :
    x25519Nat a (x25519Nat b u) = x25519Nat b (x25519Nat a u) := by
  classical
  by_cases h0 : u = 0
  · subst h0
    simp only [x25519Nat_zero]
  obtain ⟨v, hn⟩ := lift (K := AlgebraicClosure (ZMod P)) (u : AlgebraicClosure (ZMod P))
  have hk : (u : AlgebraicClosure (ZMod P)) ≠ 0 := kne (by omega) hu
  refine kinj (K := AlgebraicClosure (ZMod P)) (x25519Nat_lt _ _) (x25519Nat_lt _ _) ?_
  rw [twice ha ha2 hb (hn := hn) hk, twice hb hb2 ha (hn := hn) hk, mul_comm]

theorem decodeScalar_ok (k : List Byte) : decodeScalar k < 2 ^ 255 ∧ 8 ∣ decodeScalar k := by
  rw [decodeScalar]
  constructor
  · omega
  · omega

/-- X25519 commutes: whoever goes first, the secret is the same. -/
theorem x25519_comm (a b u : List Byte) : x25519 a (x25519 b u) = x25519 b (x25519 a u) := by
  have d : ∀ k w : List Byte, decodeU (x25519 k w) = x25519Nat (decodeScalar k) (decodeU w) := fun k w => by
    rw [decodeU, leVal_x25519, Nat.mod_eq_of_lt ((x25519Nat_lt _ _).trans (by decide)), Nat.mod_eq_of_lt (x25519Nat_lt _ _)]
  rw [x25519, d, x25519, d, x25519Nat_comm (decodeScalar_ok a).1 (dvd_trans (by decide) (decodeScalar_ok a).2) (decodeScalar_ok b).1 (dvd_trans (by decide) (decodeScalar_ok b).2) (show decodeU u < P from Nat.mod_lt _ P_pos)]

/-- three doublings of `(u : 1)`; the second coordinate vanishes for points of order dividing 8 -/
def double8 (u : Nat) : Nat :=
  let d := fun s : Nat × Nat => (fmul (fsub (fmul s.1 s.1) (fmul s.2 s.2)) (fsub (fmul s.1 s.1) (fmul s.2 s.2)),
    fmul (fmul 4 (fmul s.1 s.2)) (fadd (fadd (fmul s.1 s.1) (fmul 486662 (fmul s.1 s.2))) (fmul s.2 s.2)))
  (d (d (d (u, 1)))).2

theorem rx_double {R : (C25519 K).Point} {x z : Nat} (h : Rx R (x : K) z) :
    Rx (R + R) ((fmul (fsub (fmul x x) (fmul z z)) (fsub (fmul x x) (fmul z z)) : Nat) : K)
      ((fmul (fmul 4 (fmul x z)) (fadd (fadd (fmul x x) (fmul 486662 (fmul x z))) (fmul z z)) : Nat) : K) := by
  have a := double_ok k2 kA h
  simp only [kmul, kadd, ksub]
  convert a using 1
  · ring
  · push_cast; ring

/-- a multiple of 8 times a point of order dividing 8 -/
theorem x25519Nat_small {k u : Nat} (hk : k < 2 ^ 255) (h8 : 8 ∣ k) (hu : u < P) (h : double8 u = 0) : x25519Nat k u = 0 := by
  classical
  by_cases h0 : u = 0
  · subst h0; exact x25519Nat_zero _
  obtain ⟨v, hn⟩ := lift (K := AlgebraicClosure (ZMod P)) (u : AlgebraicClosure (ZMod P))
  have hq : (u : AlgebraicClosure (ZMod P)) ≠ 0 := kne (by omega) hu
  refine kinj (K := AlgebraicClosure (ZMod P)) (x25519Nat_lt _ _) P_pos ?_
  rw [x25519Nat_xc hk (hn := hn) hq]
  obtain ⟨Q, hQ⟩ : ∃ Q, Q = Point.some (u : AlgebraicClosure (ZMod P)) v hn := ⟨_, rfl⟩
  have r1 : Rx Q ((u : Nat) : AlgebraicClosure (ZMod P)) ((1 : Nat) : AlgebraicClosure (ZMod P)) := by
    rw [hQ]; exact ⟨by simp, by simp⟩
  have r8 := rx_double (rx_double (rx_double r1))
  have hz : ∀ {R : (C25519 (AlgebraicClosure (ZMod P))).Point} {X : AlgebraicClosure (ZMod P)} {z : Nat}, Rx R X z → z = 0 → R = 0 := fun {R X z} hr hz => by
    subst hz
    match R, hr with
    | .zero, _ => rfl
    | .some _ _ _, hr => exact absurd Nat.cast_zero hr.1
  have e8 := hz r8 h
  obtain ⟨j, rfl⟩ := h8
  rw [← hQ, mul_nsmul, show (8 : Nat) • Q = (Q + Q + (Q + Q)) + (Q + Q + (Q + Q)) by abel, e8, nsmul_zero]
  simp [xc]

end Cex.Ec25519
