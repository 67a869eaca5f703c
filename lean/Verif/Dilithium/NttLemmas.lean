import Mathlib.Algebra.Order.Ring.Abs
import Mathlib.Algebra.Order.Ring.Int
import Mathlib.Tactic.Linarith
import Verif.Dilithium.ArithModel
import Verif.Dilithium.NttAlg

/-!
# The arithmetic of the code against the field
-/

namespace Cex.Dilithium
open Cex Cex.Lattice Cex.Spec.Dilithium

/-- The integer `v` is at most `B` in absolute value and stands for `x`. -/
def Is (B : Int) (v : Int) (x : F) : Prop := |v| ≤ B ∧ (v : F) = x

theorem Is.mono {B C v : Int} {x : F} (h : Is B v x) (hc : B ≤ C) : Is C v x := ⟨le_trans h.1 hc, h.2⟩

theorem i32_ok {x : Int} (h : |x| ≤ 2147483647) : i32 x = .ok x := by
  have := abs_le.mp h
  unfold i32
  rw [if_pos (by omega)]

theorem i64_ok {x : Int} (h : |x| ≤ 9223372036854775807) : i64 x = .ok x := by
  have := abs_le.mp h
  unfold i64
  rw [if_pos (by omega)]

theorem q_zero : ((8380417 : Int) : F) = 0 := by decide +kernel

theorem q_zero' : (8380417 : F) = 0 := by decide +kernel

/-- `2 ^ -32`. -/
theorem r_inv : (4294967296 : F) * 8265825 = 1 := by decide +kernel

theorem cast_mod {v w : Int} (h : (v - w) % 8380417 = 0) : (v : F) = (w : F) := by
  rw [ZMod.intCast_eq_intCast_iff]
  show v % 8380417 = w % 8380417
  omega

/-- `MontReduce` divides by `2 ^ 32` in the field. -/
theorem mont_spec {a : Int} {x : F} {C : Int} (h : |a| ≤ 4611686018427387904) (hC : |a| + 17996808470921216 < 4294967296 * (C + 1)) (hx : (a : F) = x) (hC2 : C ≤ 2147483647) :
    ∃ t, montReduce a = .ok t ∧ Is C t (x * 8265825) := by
  obtain ⟨h1, h2⟩ := abs_le.mp h
  have ha : -a ≤ |a| ∧ a ≤ |a| := ⟨neg_le_abs a, le_abs_self a⟩
  generalize hab : |a| = aa at ha hC h
  have hu : -2147483648 ≤ c32 (c32 a * QINV) ∧ c32 (c32 a * QINV) ≤ 2147483647 := by unfold c32; omega
  have hk : ∃ k : Int, a - c32 (c32 a * QINV) * Q = 4294967296 * k := by
    refine ⟨(a + 2147483648) / 4294967296 - 114592 * c32 a + 8380417 * ((c32 a * 58728449 + 2147483648) / 4294967296), ?_⟩
    unfold c32 QINV Q
    omega
  generalize hue : c32 (c32 a * QINV) = u at hu hk
  obtain ⟨k, hk⟩ := hk
  unfold Q at hk
  refine ⟨k, ?_, ?_, ?_⟩
  · unfold montReduce
    simp only [hue, Q]
    rw [i64_ok (abs_le.mpr (by omega))]
    simp only [ok_bind]
    rw [i64_ok (abs_le.mpr (by omega))]
    simp only [ok_bind, pure_eq_ok, hk]
    congr 1
    unfold c32
    omega
  · exact abs_le.mpr (by omega)
  · have := congrArg (fun n : Int => (n : F)) hk
    push_cast at this
    rw [q_zero', mul_zero, sub_zero, hx] at this
    rw [this]
    linear_combination (-(k : F)) * r_inv

theorem mulMont_spec {a b A B C : Int} {x y : F} (ha : Is A a x) (hb : Is B b y) (hAB : A * B ≤ 4611686018427387904) (hC : A * B + 17996808470921216 < 4294967296 * (C + 1))
    (hC2 : C ≤ 2147483647) : ∃ t, mulMont a b = .ok t ∧ Is C t (x * y * 8265825) := by
  have hm : |a * b| ≤ A * B := by
    rw [abs_mul]
    exact mul_le_mul ha.1 hb.1 (abs_nonneg _) (le_trans (abs_nonneg _) ha.1)
  obtain ⟨t, h1, h2⟩ := mont_spec (a := a * b) (x := x * y) (C := C) (by omega) (by omega) (by push_cast; rw [ha.2, hb.2]) hC2
  refine ⟨t, ?_, h2⟩
  unfold mulMont
  rw [i64_ok (by omega)]
  exact h1

theorem zetas_table : ∀ k < 256, 0 < k → ∃ v, zetaAt k = .ok v ∧ negZetaAt k = .ok (-v) ∧ -4190208 ≤ v ∧ v ≤ 4190208 ∧ (v - 4294967296 * 1753 ^ br8 k) % 8380417 = 0 := by
  have h : ∀ k < 256, 0 < k → (match zetaAt k, negZetaAt k with
    | .ok v, .ok u => decide (u = -v ∧ -4190208 ≤ v ∧ v ≤ 4190208 ∧ (v - 4294967296 * 1753 ^ br8 k) % 8380417 = 0) | _, _ => false) = true := by decide +kernel
  intro k hk h0
  have := h k hk h0
  split at this
  · next v u he hn =>
    have := of_decide_eq_true this
    exact ⟨v, he, this.1 ▸ hn, this.2⟩
  · exact absurd this (by simp)

theorem zeta_spec {k : Nat} (hk : k < 256) (h0 : 0 < k) : ∃ v, zetaAt k = .ok v ∧ negZetaAt k = .ok (-v) ∧ Is 4190208 v (z k * 4294967296) := by
  obtain ⟨v, h1, hn, h2, h3, h4⟩ := zetas_table k hk h0
  refine ⟨v, h1, hn, abs_le.mpr ⟨h2, h3⟩, ?_⟩
  rw [cast_mod h4, z]
  push_cast
  ring

theorem add_spec {a b A B C : Int} {x y : F} (ha : Is A a x) (hb : Is B b y) (h : A + B ≤ C) (hC : C ≤ 2147483647) : i32 (a + b) = .ok (a + b) ∧ Is C (a + b) (x + y) := by
  have := abs_add_le a b
  have h1 := ha.1
  have h2 := hb.1
  exact ⟨i32_ok (by omega), by omega, by push_cast; rw [ha.2, hb.2]⟩

theorem sub_spec {a b A B C : Int} {x y : F} (ha : Is A a x) (hb : Is B b y) (h : A + B ≤ C) (hC : C ≤ 2147483647) : i32 (a - b) = .ok (a - b) ∧ Is C (a - b) (x - y) := by
  have := abs_sub a b
  have h1 := ha.1
  have h2 := hb.1
  exact ⟨i32_ok (by omega), by omega, by push_cast; rw [ha.2, hb.2]⟩

theorem butterfly_spec {v a b B : Int} {c x y : F} (hz : Is 4190208 v (c * 4294967296)) (ha : Is B a x) (hb : Is B b y) (hB : B + 8380416 ≤ 2147483647) :
    ∃ a' b', butterfly v a b = .ok (a', b') ∧ Is (B + 8380416) a' (x + c * y) ∧ Is (B + 8380416) b' (x - c * y) := by
  obtain ⟨t, h1, h2⟩ := mulMont_spec (C := 8380416) hz hb (by omega) (by omega) (by omega)
  have h2 : Is 8380416 t (c * y) := ⟨h2.1, by rw [h2.2]; linear_combination (c * y) * r_inv⟩
  obtain ⟨e1, s1⟩ := add_spec (C := B + 8380416) ha h2 (by omega) hB
  obtain ⟨e2, s2⟩ := sub_spec (C := B + 8380416) ha h2 (by omega) hB
  refine ⟨_, _, ?_, s1, s2⟩
  unfold butterfly
  simp only [h1, ok_bind, e1, e2, pure_eq_ok]

theorem invButterfly_spec {v a b B : Int} {c x y : F} (hz : Is 4190208 v (c * 4294967296)) (ha : Is B a x) (hb : Is B b y) (hB : 2 * B ≤ 2147483647) (hB2 : 8380416 ≤ 2 * B) :
    ∃ a' b', invButterfly (-v) a b = .ok (a', b') ∧ Is (2 * B) a' (x + y) ∧ Is (2 * B) b' (c * (y - x)) := by
  obtain ⟨e1, s1⟩ := add_spec (C := 2 * B) ha hb (by omega) hB
  obtain ⟨e2, s2⟩ := sub_spec (C := 2 * B) ha hb (by omega) hB
  have hz' : Is 4190208 (-v) (-(c * 4294967296)) := ⟨by rw [abs_neg]; exact hz.1, by push_cast; rw [hz.2]⟩
  obtain ⟨t, h3, h4⟩ := mulMont_spec (C := 8380416) hz' s2 (by omega) (by omega) (by omega)
  refine ⟨_, t, ?_, s1, (h4.mono hB2).1, by rw [h4.2]; linear_combination (c * (y - x)) * r_inv⟩
  unfold invButterfly
  simp only [e1, e2, ok_bind, h3, pure_eq_ok]

/-- One layer of `Ntt`. -/
theorem sweep_ntt {len k : Nat} {B : Int} {r : List Int} {f : Nat → F} (hl : len ∈ [1, 2, 4, 8, 16, 32, 64, 128]) (hk : k + 1 = 128 / len) (hB : B + 8380416 ≤ 2147483647) (h : Rep (Is B) r f) :
    ∃ r', sweep (fun k => zetaAt (k + 1)) (· + 1) butterfly len k r = .ok (k + 128 / len, r') ∧ Rep (Is (B + 8380416)) r' (layer z len f) := by
  have hlen : Len len := by simp at hl; unfold Len; omega
  have h128 : 128 / len + 128 / len ≤ 256 := by rcases hlen with rfl | rfl | rfl | rfl | rfl | rfl | rfl | rfl <;> simp at hl ⊢
  refine sweep_spec (g := layer z len f) (fun b => k + b) rfl (fun b => rfl) hlen ?_ h
  intro b hb
  obtain ⟨v, h1, _, h2⟩ := zeta_spec (k := 128 / len + b) (by omega) (by omega)
  refine ⟨v, by show zetaAt (k + b + 1) = _; rw [show k + b + 1 = 128 / len + b from by omega]; exact h1, fun o x y ho hx hy => ?_⟩
  obtain ⟨a', b', h3, h4, h5⟩ := butterfly_spec h2 hx hy hB
  obtain ⟨d1, d2⟩ := div_block (b := b) (i := b * (2 * len) + o) (o := o) hlen.pos (by omega) rfl
  obtain ⟨e1, e2⟩ := div_block (b := b) (i := b * (2 * len) + o + len) (o := o + len) hlen.pos (by omega) (by omega)
  refine ⟨a', b', h3, ?_, ?_⟩
  · rw [layer, if_pos (by omega), d1]; exact h4
  · rw [layer, if_neg (by omega), e1, Nat.add_sub_cancel]; exact h5

theorem sweep_inv {len k : Nat} {B : Int} {r : List Int} {f : Nat → F} (hl : len ∈ [1, 2, 4, 8, 16, 32, 64, 128]) (hk : k = 256 / len) (hB : 2 * B ≤ 2147483647) (hB2 : 8380416 ≤ 2 * B)
    (h : Rep (Is B) r f) :
    ∃ r', sweep (fun k => negZetaAt (k - 1)) (· - 1) invButterfly len k r = .ok (k - 128 / len, r') ∧ Rep (Is (2 * B)) r' (invLayer z len f) := by
  have hlen : Len len := by simp at hl; unfold Len; omega
  have h128 : 256 / len ≤ 256 ∧ 128 / len < 256 / len := by rcases hlen with rfl | rfl | rfl | rfl | rfl | rfl | rfl | rfl <;> simp at hl ⊢
  refine sweep_spec (g := invLayer z len f) (fun b => k - b) rfl (fun b => by show k - b - 1 = _; omega) hlen ?_ h
  intro b hb
  obtain ⟨v, _, h1, h2⟩ := zeta_spec (k := 256 / len - 1 - b) (by omega) (by omega)
  refine ⟨-v, by show negZetaAt (k - b - 1) = _; rw [show k - b - 1 = 256 / len - 1 - b from by omega]; exact h1, fun o x y ho hx hy => ?_⟩
  obtain ⟨a', b', h3, h4, h5⟩ := invButterfly_spec h2 hx hy hB hB2
  obtain ⟨d1, d2⟩ := div_block (b := b) (i := b * (2 * len) + o) (o := o) hlen.pos (by omega) rfl
  obtain ⟨e1, e2⟩ := div_block (b := b) (i := b * (2 * len) + o + len) (o := o + len) hlen.pos (by omega) (by omega)
  refine ⟨a', b', h3, ?_, ?_⟩
  · rw [invLayer, if_pos (by omega)]; exact h4
  · rw [invLayer, if_neg (by omega), e1, Nat.add_sub_cancel]; exact h5

/-- `Ntt` computes the transform; every coefficient grows by less than `8 q`. -/
theorem ntt_rep {B : Int} {r : List Int} {f : Nat → F} (hB : B + 67043328 ≤ 2147483647) (h : Rep (Is B) r f) :
    ∃ r', ntt r = .ok r' ∧ Rep (Is (B + 67043328)) r' (Spec.Dilithium.ntt f) := by
  obtain ⟨r1, e1, h⟩ := sweep_ntt (len := 128) (k := 0) (by simp) (by decide) (by omega) h
  obtain ⟨r2, e2, h⟩ := sweep_ntt (len := 64) (k := 1) (by simp) (by decide) (by omega) h
  obtain ⟨r3, e3, h⟩ := sweep_ntt (len := 32) (k := 3) (by simp) (by decide) (by omega) h
  obtain ⟨r4, e4, h⟩ := sweep_ntt (len := 16) (k := 7) (by simp) (by decide) (by omega) h
  obtain ⟨r5, e5, h⟩ := sweep_ntt (len := 8) (k := 15) (by simp) (by decide) (by omega) h
  obtain ⟨r6, e6, h⟩ := sweep_ntt (len := 4) (k := 31) (by simp) (by decide) (by omega) h
  obtain ⟨r7, e7, h⟩ := sweep_ntt (len := 2) (k := 63) (by simp) (by decide) (by omega) h
  obtain ⟨r8, e8, h⟩ := sweep_ntt (len := 1) (k := 127) (by simp) (by decide) (by omega) h
  simp only [Nat.reduceDiv, Nat.reduceAdd] at e1 e2 e3 e4 e5 e6 e7 e8
  refine ⟨r8, ?_, h.mono fun v i hi hv => ?_⟩
  · unfold ntt
    simp only [List.foldlM_cons, List.foldlM_nil, e1, e2, e3, e4, e5, e6, e7, e8, ok_bind, pure_eq_ok]
  · have := layers_ntt f hi
    rw [layers] at this
    rw [this] at hv
    exact hv.mono (by omega)

/-- `InvNttToMont` computes the inverse transform, times `2 ^ 32`. -/
theorem invNtt_rep {r : List Int} {f : Nat → F} (h : Rep (Is 8380416) r f) :
    ∃ r', invNttToMont r = .ok r' ∧ Rep (Is 4211200) r' (fun i => 4294967296 * intt f i) := by
  obtain ⟨r1, e1, h⟩ := sweep_inv (len := 1) (by simp) rfl (by omega) (by omega) h
  obtain ⟨r2, e2, h⟩ := sweep_inv (len := 2) (by simp) rfl (by omega) (by omega) h
  obtain ⟨r3, e3, h⟩ := sweep_inv (len := 4) (by simp) rfl (by omega) (by omega) h
  obtain ⟨r4, e4, h⟩ := sweep_inv (len := 8) (by simp) rfl (by omega) (by omega) h
  obtain ⟨r5, e5, h⟩ := sweep_inv (len := 16) (by simp) rfl (by omega) (by omega) h
  obtain ⟨r6, e6, h⟩ := sweep_inv (len := 32) (by simp) rfl (by omega) (by omega) h
  obtain ⟨r7, e7, h⟩ := sweep_inv (len := 64) (by simp) rfl (by omega) (by omega) h
  obtain ⟨r8, e8, h⟩ := sweep_inv (len := 128) (by simp) rfl (by omega) (by omega) h
  simp only [Nat.reduceDiv, Nat.reduceSub] at e1 e2 e3 e4 e5 e6 e7 e8
  obtain ⟨r9, e9, h⟩ := mapLoop_spec (op := fun x => mulMont 41978 x) (Q := Is 4211200) (g := fun i => 4294967296 * intt f i)
    (by
      intro i x _ hx
      obtain ⟨t, h1, h2⟩ := mulMont_spec (C := 4211200) (show Is 41978 41978 (41978 : F) from ⟨by decide, by norm_cast⟩) hx (by omega) (by omega) (by omega)
      refine ⟨t, h1, h2.1, ?_⟩
      rw [h2.2]
      have : (41978 : F) * 8265825 = 4294967296 * 8347681 := by decide +kernel
      show 41978 * invLayers f i * 8265825 = 4294967296 * (8347681 * invLayers f i)
      linear_combination (invLayers f i) * this) h
  refine ⟨r9, ?_, h⟩
  unfold invNttToMont
  simp only [List.foldlM_cons, List.foldlM_nil, e1, e2, e3, e4, e5, e6, e7, e8, ok_bind]
  exact e9

/-! ## Reductions and polynomials -/

theorem reduce_spec {a : Int} {x : F} (h : Is 2143289343 a x) : ∃ t, reduce32 a = .ok t ∧ -6283009 ≤ t ∧ t ≤ 6283008 ∧ (t : F) = x := by
  obtain ⟨h1, h2⟩ := abs_le.mp h.1
  refine ⟨a - (a + 4194304) / 8388608 * 8380417, ?_, by omega, by omega, by push_cast; rw [q_zero', mul_zero, sub_zero, h.2]⟩
  rw [reduce32, i32_ok (abs_le.mpr (by omega)), ok_bind, Q, i32_ok (abs_le.mpr (by omega)), ok_bind, i32_ok (abs_le.mpr (by omega))]

/-- The canonical representative. -/
def Can (v : Int) (x : F) : Prop := v = x.val

theorem Can.is {v : Int} {x : F} (h : Can v x) : Is 8380416 v x := by
  have := ZMod.val_lt x
  refine ⟨abs_le.mpr (by rw [h]; omega), ?_⟩
  rw [h, Int.cast_natCast, ZMod.natCast_zmod_val]

theorem can_of {v : Int} {x : F} (h0 : 0 ≤ v) (h1 : v < 8380417) (h : (v : F) = x) : Can v x := by
  obtain ⟨n, rfl⟩ := Int.eq_ofNat_of_zero_le h0
  rw [Can, ← h, Int.cast_natCast, ZMod.val_natCast_of_lt (by omega)]

theorem cadd_spec {a : Int} {x : F} (h1 : -8380417 ≤ a) (h2 : a < 8380417) (h : (a : F) = x) : ∃ t, caddQ a = .ok t ∧ Can t x := by
  rw [caddQ, Q]
  split
  · exact ⟨_, i32_ok (abs_le.mpr (by omega)), can_of (by omega) (by omega) (by push_cast; rw [q_zero', add_zero, h])⟩
  · exact ⟨_, i32_ok (abs_le.mpr (by omega)), can_of (by omega) (by omega) (by push_cast; rw [add_zero, h])⟩

theorem fill_spec {e : Nat → M Int} {Q : Int → F → Prop} {g : Nat → F} (he : ∀ i, i < 256 → ∃ v, e i = .ok v ∧ Q v (g i)) {r : List Int} (hr : r.length = 256) :
    ∃ r', fill e r = .ok r' ∧ Rep Q r' g := by
  obtain ⟨r', h1, h2⟩ := loopN_inv (f := fun i r => do wr r i (← e i))
    (fun j r => Mixed (fun _ _ => True) Q (fun _ => (0 : F)) g (· < j) r) 256 0 r
    (by
      intro j r _ hlt ⟨hl, hr⟩
      have l1 : j < r.length := by omega
      obtain ⟨x', he, hx⟩ := he j (by omega)
      refine ⟨r.set j x', ?_, by simp [hl], ?_⟩
      · simp only [ok_bind, he, wr_ok _ l1]
      · intro i v hv
        by_cases e1 : i = j
        · subst e1
          rw [List.getElem?_set_self l1] at hv
          cases hv
          exact ⟨fun _ => hx, fun hn => absurd (by omega) hn⟩
        · rw [List.getElem?_set_ne (by omega)] at hv
          obtain ⟨h1, h2⟩ := hr i v hv
          exact ⟨fun ht => h1 (by omega), fun ht => trivial⟩)
    ⟨hr, fun i v hv => ⟨fun ht => by omega, fun _ => trivial⟩⟩
  refine ⟨r', h1, h2.1, fun i v hv => ?_⟩
  have : i < 256 := by rw [← h2.1]; exact (List.getElem?_eq_some_iff.mp hv).1
  exact (h2.2 i v hv).1 (by omega)

theorem polyAdd_spec {r a b : List Int} {fa fb : Nat → F} {A B C : Int} (hr : r.length = 256) (ha : Rep (Is A) a fa) (hb : Rep (Is B) b fb) (h : A + B ≤ C) (hC : C ≤ 2147483647) :
    ∃ r', polyAdd r a b = .ok r' ∧ Rep (Is C) r' (fun k => fa k + fb k) := by
  refine fill_spec (fun i hi => ?_) hr
  obtain ⟨v, e1, _, s1⟩ := ha.get hi
  obtain ⟨w, e2, _, s2⟩ := hb.get hi
  obtain ⟨e3, s3⟩ := add_spec s1 s2 h hC
  exact ⟨v + w, by rw [e1, ok_bind, e2, ok_bind, e3], s3⟩

theorem polySub_spec {r a b : List Int} {fa fb : Nat → F} {A B C : Int} (hr : r.length = 256) (ha : Rep (Is A) a fa) (hb : Rep (Is B) b fb) (h : A + B ≤ C) (hC : C ≤ 2147483647) :
    ∃ r', polySub r a b = .ok r' ∧ Rep (Is C) r' (fun k => fa k - fb k) := by
  refine fill_spec (fun i hi => ?_) hr
  obtain ⟨v, e1, _, s1⟩ := ha.get hi
  obtain ⟨w, e2, _, s2⟩ := hb.get hi
  obtain ⟨e3, s3⟩ := sub_spec s1 s2 h hC
  exact ⟨v - w, by rw [e1, ok_bind, e2, ok_bind, e3], s3⟩

theorem polyPointwise_spec {r a b : List Int} {fa fb : Nat → F} {A B : Int} (hr : r.length = 256) (ha : Rep (Is A) a fa) (hb : Rep (Is B) b fb)
    (hAB : A * B ≤ 17996804175953919) : ∃ r', polyPointwise r a b = .ok r' ∧ Rep (Is 8380416) r' (fun k => fa k * fb k * 8265825) := by
  refine fill_spec (fun i hi => ?_) hr
  obtain ⟨v, e1, _, s1⟩ := ha.get hi
  obtain ⟨w, e2, _, s2⟩ := hb.get hi
  obtain ⟨t, e3, s3⟩ := mulMont_spec (C := 8380416) s1 s2 (by omega) (by omega) (by omega)
  exact ⟨t, by rw [e1, ok_bind, e2, ok_bind, e3], s3⟩

/-- Bound after `Reduce32`. -/
theorem polyReduce_spec {r : List Int} {f : Nat → F} (h : Rep (Is 2143289343) r f) : ∃ r', polyReduce r = .ok r' ∧ Rep (Is 6283009) r' f :=
  mapLoop_spec (fun i x _ hx => by
    obtain ⟨t, h1, h2, h3, h4⟩ := reduce_spec hx
    exact ⟨t, h1, abs_le.mpr (by omega), h4⟩) h

theorem polyCaddQ_spec {r : List Int} {f : Nat → F} (h : Rep (Is 8380416) r f) : ∃ r', polyCaddQ r = .ok r' ∧ Rep Can r' f :=
  mapLoop_spec (fun i x _ hx => by
    have := abs_le.mp hx.1
    exact cadd_spec (by omega) (by omega) hx.2) h

/-- `InvNttToMont(Ntt(a) ∘ Ntt(b))` is the product of the polynomials. -/
theorem product_spec {r a b : List Int} {f g : Nat → F} {A B : Int} (hr : r.length = 256) (ha : Rep (Is A) a (Spec.Dilithium.ntt f)) (hb : Rep (Is B) b (Spec.Dilithium.ntt g))
    (hAB : A * B ≤ 17996804175953919) : ∃ r' r'', polyPointwise r a b = .ok r' ∧ invNttToMont r' = .ok r'' ∧ Rep (Is 4211200) r'' (mul f g) := by
  obtain ⟨r', e1, s1⟩ := polyPointwise_spec hr ha hb hAB
  obtain ⟨r'', e2, s2⟩ := invNtt_rep s1
  refine ⟨r', r'', e1, e2, s2.mono fun v i hi hv => ⟨hv.1, hv.2.trans ?_⟩⟩
  have : intt (fun k => Spec.Dilithium.ntt f k * Spec.Dilithium.ntt g k * 8265825) i = 8265825 * mul f g i := by
    refine intt_ntt (f := fun i => 8265825 * mul f g i) (fun k hk => ?_) hi
    rw [ntt_smul, ntt_mul]
    ring
  rw [this, ← mul_assoc, r_inv, one_mul]

end Cex.Dilithium
