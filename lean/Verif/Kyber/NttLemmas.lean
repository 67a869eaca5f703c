import Mathlib.Algebra.Order.Ring.Abs
import Mathlib.Algebra.Order.Ring.Int
import Mathlib.Tactic.Linarith
import Verif.Kyber.ArithModel
import Verif.Kyber.NttAlg

/-!
# The arithmetic of the code against the field
-/

namespace Cex.Kyber
open Cex Cex.Lattice Cex.Spec.Kyber

/-- The integer `v` is at most `B` in absolute value and stands for `x`. -/
def Is (B : Int) (v : Int) (x : F) : Prop := |v| ≤ B ∧ (v : F) = x

theorem Is.mono {B C v : Int} {x : F} (h : Is B v x) (hc : B ≤ C) : Is C v x := ⟨le_trans h.1 hc, h.2⟩

theorem i16_id {x : Int} (h : |x| ≤ 32767) : i16 x = x := by
  have := abs_le.mp h
  unfold i16
  omega

theorem i32_ok {x : Int} (h : |x| ≤ 2147483647) : i32 x = .ok x := by
  have := abs_le.mp h
  unfold i32
  rw [if_pos (by omega)]

theorem q_zero : ((3329 : Int) : F) = 0 := by decide +kernel

theorem r_inv : (65536 : F) * 169 = 1 := by decide +kernel

/-- `MontgomeryReduce` divides by `2 ^ 16` in the field. -/
theorem montgomery_spec {a : Int} {x : F} {C : Int} (h : |a| ≤ 109081343) (hC : |a| + 109084672 < 65536 * (C + 1)) (hx : (a : F) = x) :
    ∃ t, montgomeryReduce a = .ok t ∧ Is C t (x * 169) := by
  obtain ⟨h1, h2⟩ := abs_le.mp h
  have ha : -a ≤ |a| ∧ a ≤ |a| := ⟨neg_le_abs a, le_abs_self a⟩
  generalize hab : |a| = aa at ha hC h
  have hu : -32768 ≤ i16 (a * QINV) ∧ i16 (a * QINV) ≤ 32767 := by unfold i16; omega
  have hk : ∃ k : Int, a - i16 (a * QINV) * Q = 65536 * k := by
    refine ⟨-3160 * a + 3329 * ((a * 62209 + 32768) / 65536), ?_⟩
    unfold i16 QINV Q
    omega
  generalize hue : i16 (a * QINV) = u at hu hk
  obtain ⟨k, hk⟩ := hk
  unfold Q at hk
  refine ⟨k, ?_, ?_, ?_⟩
  · unfold montgomeryReduce
    simp only [hue, Q]
    rw [i32_ok (abs_le.mpr (by omega))]
    simp only [ok_bind]
    rw [i32_ok (abs_le.mpr (by omega))]
    simp only [ok_bind, pure_eq_ok, hk]
    congr 1
    unfold i16
    omega
  · exact abs_le.mpr (by omega)
  · have := congrArg (fun n : Int => (n : F)) hk
    push_cast at this
    rw [show (3329 : F) = 0 from q_zero, mul_zero, sub_zero, hx] at this
    rw [this]
    linear_combination (-(k : F)) * r_inv

/-- `BarrettReduce` gives the centred representative, for any `int16_t`. -/
theorem barrett_spec {a : Int} {x : F} (h : Is 32768 a x) (h' : a ≤ 32767) : ∃ t, barrettReduce a = .ok t ∧ Is 1664 t x := by
  obtain ⟨⟩ := h
  rename_i hb hx
  obtain ⟨h1, _⟩ := abs_le.mp hb
  have hV : V = 20159 := by decide
  refine ⟨a - (20159 * a + 33554432) / 67108864 * 3329, ?_, ?_, ?_⟩
  · unfold barrettReduce
    rw [hV, i32_ok (abs_le.mpr (by omega))]
    simp only [ok_bind]
    rw [i32_ok (abs_le.mpr (by omega))]
    simp only [ok_bind]
    have e : i16 ((20159 * a + 33554432) / 67108864) = (20159 * a + 33554432) / 67108864 := by unfold i16; omega
    rw [e, Q, i32_ok (abs_le.mpr (by omega))]
    simp only [ok_bind, pure_eq_ok]
    congr 1
    unfold i16
    omega
  · exact abs_le.mpr (by omega)
  · push_cast
    rw [show (3329 : F) = 0 from q_zero, hx]
    ring

theorem fqMul_spec {a b A B C : Int} {x y : F} (ha : Is A a x) (hb : Is B b y) (hAB : A * B ≤ 109081343) (hC : A * B + 109084672 < 65536 * (C + 1)) :
    ∃ t, fqMul a b = .ok t ∧ Is C t (x * y * 169) := by
  have hm : |a * b| ≤ A * B := by
    rw [abs_mul]
    exact mul_le_mul ha.1 hb.1 (abs_nonneg _) (le_trans (abs_nonneg _) ha.1)
  obtain ⟨t, h1, h2⟩ := montgomery_spec (a := a * b) (x := x * y) (C := C) (by omega) (by omega) (by push_cast; rw [ha.2, hb.2])
  refine ⟨t, ?_, h2⟩
  unfold fqMul
  rw [i32_ok (by omega)]
  exact h1

/-- The table holds the powers in Montgomery form. -/
theorem zetas_table : ∀ k < 128, ∃ v, zetaAt k = .ok v ∧ -1664 ≤ v ∧ v ≤ 1664 ∧ (v - 65536 * 17 ^ br7 k) % 3329 = 0 := by
  have h : ∀ k < 128, (match zetaAt k with | .ok v => decide (-1664 ≤ v ∧ v ≤ 1664 ∧ (v - 65536 * 17 ^ br7 k) % 3329 = 0) | .error _ => false) = true := by decide +kernel
  intro k hk
  have := h k hk
  split at this
  · next v he => exact ⟨v, he, of_decide_eq_true this⟩
  · exact absurd this (by simp)

theorem cast_mod {v w : Int} (h : (v - w) % 3329 = 0) : (v : F) = (w : F) := by
  rw [ZMod.intCast_eq_intCast_iff]
  show v % 3329 = w % 3329
  omega

theorem zeta_spec {k : Nat} (hk : k < 128) : ∃ v, zetaAt k = .ok v ∧ Is 1664 v (z k * 65536) := by
  obtain ⟨v, h1, h2, h3, h4⟩ := zetas_table k hk
  refine ⟨v, h1, abs_le.mpr ⟨h2, h3⟩, ?_⟩
  rw [cast_mod h4, z]
  push_cast
  ring

theorem add_spec {a b A B C : Int} {x y : F} (ha : Is A a x) (hb : Is B b y) (h : A + B ≤ C) (hC : C ≤ 32767) : Is C (i16 (a + b)) (x + y) := by
  have := abs_add_le a b
  have h1 := ha.1
  have h2 := hb.1
  rw [i16_id (by omega)]
  exact ⟨by omega, by push_cast; rw [ha.2, hb.2]⟩

theorem sub_spec {a b A B C : Int} {x y : F} (ha : Is A a x) (hb : Is B b y) (h : A + B ≤ C) (hC : C ≤ 32767) : Is C (i16 (a - b)) (x - y) := by
  have := abs_sub a b
  have h1 := ha.1
  have h2 := hb.1
  rw [i16_id (by omega)]
  exact ⟨by omega, by push_cast; rw [ha.2, hb.2]⟩

theorem butterfly_spec {v a b B : Int} {c x y : F} (hz : Is 1664 v (c * 65536)) (ha : Is B a x) (hb : Is B b y) (hB : B + 3328 ≤ 32767) :
    ∃ a' b', butterfly v a b = .ok (a', b') ∧ Is (B + 3328) a' (x + c * y) ∧ Is (B + 3328) b' (x - c * y) := by
  obtain ⟨t, h1, h2⟩ := fqMul_spec (C := 3328) hz hb (by omega) (by omega)
  have h2 : Is 3328 t (c * y) := ⟨h2.1, by rw [h2.2]; linear_combination (c * y) * r_inv⟩
  refine ⟨_, _, ?_, add_spec ha h2 (by omega) hB, sub_spec ha h2 (by omega) hB⟩
  unfold butterfly
  rw [h1]
  rfl

theorem invButterfly_spec {v a b : Int} {c x y : F} (hz : Is 1664 v (c * 65536)) (ha : Is 16383 a x) (hb : Is 16383 b y) :
    ∃ a' b', invButterfly v a b = .ok (a', b') ∧ Is 3328 a' (x + y) ∧ Is 3328 b' (c * (y - x)) := by
  have hs := add_spec (C := 32766) ha hb (by omega) (by omega)
  obtain ⟨s, h1, h2⟩ := barrett_spec (hs.mono (by omega)) (by have := le_abs_self (i16 (a + b)); have := hs.1; omega)
  obtain ⟨t, h3, h4⟩ := fqMul_spec (C := 3328) hz (sub_spec (C := 32766) hb ha (by omega) (by omega)) (by omega) (by omega)
  refine ⟨s, t, ?_, h2.mono (by omega), h4.1, by rw [h4.2]; linear_combination (c * (y - x)) * r_inv⟩
  unfold invButterfly
  simp only [h1, ok_bind, h3, pure_eq_ok]

/-- One layer of `Ntt`. -/
theorem sweep_ntt {len : Nat} {B : Int} {r : List Int} {f : Nat → F} (hl : len ∈ [2, 4, 8, 16, 32, 64, 128]) (hB : B + 3328 ≤ 32767) (h : Rep (Is B) r f) :
    ∃ r', sweep zetaAt (· + 1) butterfly len (128 / len) r = .ok (128 / len + 128 / len, r') ∧ Rep (Is (B + 3328)) r' (layer z len f) := by
  have hlen : Len len := by simp at hl; unfold Len; omega
  have h128 : 128 / len + 128 / len ≤ 128 := by rcases hlen with rfl | rfl | rfl | rfl | rfl | rfl | rfl | rfl <;> simp at hl ⊢
  refine sweep_spec (g := layer z len f) (fun b => 128 / len + b) rfl (fun b => rfl) hlen ?_ h
  intro b hb
  obtain ⟨v, h1, h2⟩ := zeta_spec (k := 128 / len + b) (by omega)
  refine ⟨v, h1, fun o x y ho hx hy => ?_⟩
  obtain ⟨a', b', h3, h4, h5⟩ := butterfly_spec h2 hx hy hB
  obtain ⟨d1, d2⟩ := div_block (b := b) (i := b * (2 * len) + o) (o := o) hlen.pos (by omega) rfl
  obtain ⟨e1, e2⟩ := div_block (b := b) (i := b * (2 * len) + o + len) (o := o + len) hlen.pos (by omega) (by omega)
  refine ⟨a', b', h3, ?_, ?_⟩
  · rw [layer, if_pos (by omega), d1]; exact h4
  · rw [layer, if_neg (by omega), e1, Nat.add_sub_cancel]; exact h5

theorem sweep_inv {len : Nat} {r : List Int} {f : Nat → F} (hl : len ∈ [2, 4, 8, 16, 32, 64, 128]) (h : Rep (Is 16383) r f) :
    ∃ r', sweep zetaAt (· - 1) invButterfly len (256 / len - 1) r = .ok (256 / len - 1 - 128 / len, r') ∧ Rep (Is 3328) r' (invLayer z len f) := by
  have hlen : Len len := by simp at hl; unfold Len; omega
  have h128 : 256 / len ≤ 128 := by rcases hlen with rfl | rfl | rfl | rfl | rfl | rfl | rfl | rfl <;> simp at hl ⊢
  refine sweep_spec (g := invLayer z len f) (fun b => 256 / len - 1 - b) rfl (fun b => by show 256 / len - 1 - b - 1 = _; omega) hlen ?_ h
  intro b hb
  obtain ⟨v, h1, h2⟩ := zeta_spec (k := 256 / len - 1 - b) (by omega)
  refine ⟨v, h1, fun o x y ho hx hy => ?_⟩
  obtain ⟨a', b', h3, h4, h5⟩ := invButterfly_spec h2 hx hy
  obtain ⟨d1, d2⟩ := div_block (b := b) (i := b * (2 * len) + o) (o := o) hlen.pos (by omega) rfl
  obtain ⟨e1, e2⟩ := div_block (b := b) (i := b * (2 * len) + o + len) (o := o + len) hlen.pos (by omega) (by omega)
  refine ⟨a', b', h3, ?_, ?_⟩
  · rw [invLayer, if_pos (by omega)]; exact h4
  · rw [invLayer, if_neg (by omega), e1, Nat.add_sub_cancel]; exact h5

theorem ntt_layers {r : List Int} {f : Nat → F} (h : Rep (Is 9471) r f) : ∃ r', ntt r = .ok r' ∧ Rep (Is 32767) r' (layers f) := by
  obtain ⟨r1, e1, h⟩ := sweep_ntt (len := 128) (by simp) (by omega) h
  obtain ⟨r2, e2, h⟩ := sweep_ntt (len := 64) (by simp) (by omega) h
  obtain ⟨r3, e3, h⟩ := sweep_ntt (len := 32) (by simp) (by omega) h
  obtain ⟨r4, e4, h⟩ := sweep_ntt (len := 16) (by simp) (by omega) h
  obtain ⟨r5, e5, h⟩ := sweep_ntt (len := 8) (by simp) (by omega) h
  obtain ⟨r6, e6, h⟩ := sweep_ntt (len := 4) (by simp) (by omega) h
  obtain ⟨r7, e7, h⟩ := sweep_ntt (len := 2) (by simp) (by omega) h
  simp only [Nat.reduceDiv, Nat.reduceAdd] at e1 e2 e3 e4 e5 e6 e7
  refine ⟨r7, ?_, h.mono fun v i _ hv => hv.mono (by omega)⟩
  unfold ntt
  simp only [List.foldlM_cons, List.foldlM_nil, e1, e2, e3, e4, e5, e6, e7, ok_bind, pure_eq_ok]

theorem invNtt_layers {r : List Int} {f : Nat → F} (h : Rep (Is 16383) r f) : ∃ r', invNtt r = .ok r' ∧ Rep (Is 3328) r' (fun i => 512 * invLayers f i) := by
  have up : ∀ {r : List Int} {f : Nat → F}, Rep (Is 3328) r f → Rep (Is 16383) r f := fun h => h.mono fun v i _ hv => hv.mono (by omega)
  obtain ⟨r1, e1, h⟩ := sweep_inv (len := 2) (by simp) h
  obtain ⟨r2, e2, h⟩ := sweep_inv (len := 4) (by simp) (up h)
  obtain ⟨r3, e3, h⟩ := sweep_inv (len := 8) (by simp) (up h)
  obtain ⟨r4, e4, h⟩ := sweep_inv (len := 16) (by simp) (up h)
  obtain ⟨r5, e5, h⟩ := sweep_inv (len := 32) (by simp) (up h)
  obtain ⟨r6, e6, h⟩ := sweep_inv (len := 64) (by simp) (up h)
  obtain ⟨r7, e7, h⟩ := sweep_inv (len := 128) (by simp) (up h)
  simp only [Nat.reduceDiv, Nat.reduceSub] at e1 e2 e3 e4 e5 e6 e7
  obtain ⟨r8, e8, h⟩ := mapLoop_spec (op := fun x => fqMul x 1441) (Q := Is 3328) (g := fun i => 512 * invLayers f i)
    (by
      intro i x _ hx
      obtain ⟨t, h1, h2⟩ := fqMul_spec (C := 3328) hx (show Is 1441 1441 (1441 : F) from ⟨by decide, by norm_cast⟩) (by omega) (by omega)
      refine ⟨t, h1, h2.1, ?_⟩
      rw [h2.2]
      have : (1441 : F) * 169 = 512 := by decide +kernel
      show invLayers f i * 1441 * 169 = 512 * invLayers f i
      linear_combination (invLayers f i) * this) h
  refine ⟨r8, ?_, h⟩
  unfold invNtt
  simp only [List.foldlM_cons, List.foldlM_nil, e1, e2, e3, e4, e5, e6, e7, ok_bind, pure_eq_ok]
  exact e8

end Cex.Kyber
