import Verif.Kyber.NttLemmas

/-!
# Products of transforms, sums and reductions of polynomials
-/

namespace Cex.Kyber
open Cex Cex.Lattice Cex.Spec.Kyber

theorem root0 {B : Nat} (hB : B < 128) : γ B = (-1) ^ (B % 2) * z (64 + B / 2) := by
  have := root (t := 0) (by omega) hB
  simpa using this

theorem neg_spec {a A : Int} {x : F} (ha : Is A a x) (hA : A ≤ 32767) : Is A (i16 (-a)) (-x) := by
  rw [i16_id (by rw [abs_neg]; exact le_trans ha.1 hA)]
  exact ⟨by rw [abs_neg]; exact ha.1, by push_cast; rw [ha.2]⟩

theorem baseMul_spec {a0 a1 b0 b1 v : Int} {x0 x1 y0 y1 c : F} (h0 : Is 4095 a0 x0) (h1 : Is 4095 a1 x1) (k0 : Is 4095 b0 y0) (k1 : Is 4095 b1 y1)
    (hz : Is 1664 v (c * 65536)) :
    ∃ r0 r1, baseMul a0 a1 b0 b1 v = .ok (r0, r1) ∧ Is 3840 r0 ((x0 * y0 + c * (x1 * y1)) * 169) ∧ Is 3840 r1 ((x0 * y1 + x1 * y0) * 169) := by
  obtain ⟨t1, e1, s1⟩ := fqMul_spec (C := 1920) h1 k1 (by decide) (by decide)
  obtain ⟨t2, e2, s2⟩ := fqMul_spec (C := 1920) s1 hz (by decide) (by decide)
  obtain ⟨t3, e3, s3⟩ := fqMul_spec (C := 1920) h0 k0 (by decide) (by decide)
  obtain ⟨t4, e4, s4⟩ := fqMul_spec (C := 1920) h0 k1 (by decide) (by decide)
  obtain ⟨t5, e5, s5⟩ := fqMul_spec (C := 1920) h1 k0 (by decide) (by decide)
  have a1 := add_spec (C := 3840) s2 s3 (by omega) (by omega)
  have a2 := add_spec (C := 3840) s4 s5 (by omega) (by omega)
  refine ⟨_, _, ?_, ⟨a1.1, a1.2.trans ?_⟩, ⟨a2.1, a2.2.trans ?_⟩⟩
  · unfold baseMul
    simp only [e1, e2, e3, e4, e5, ok_bind, pure_eq_ok]
  · linear_combination (x1 * y1 * c * 169) * r_inv
  · ring

/-- No constraint on a value. -/
def Any (_ : Int) (_ : F) : Prop := True

theorem baseMulAt_spec {r a b : List Int} {fa fb : Nat → F} {v : Int} {p : Nat} (hp : p + 2 ≤ 256) (he : p % 2 = 0) (ha : Rep (Is 4095) a fa) (hb : Rep (Is 4095) b fb)
    (hz : Is 1664 v (γ (p / 2) * 65536))
    (h : Mixed Any (Is 3840) (fun _ => 0) (fun k => Spec.Kyber.baseMul fa fb k * 169) (· < p) r) :
    ∃ r', baseMulAt a b v p r = .ok r' ∧ Mixed Any (Is 3840) (fun _ => 0) (fun k => Spec.Kyber.baseMul fa fb k * 169) (· < p + 2) r' := by
  obtain ⟨a0, e0, _, s0⟩ := ha.get (i := p) (by omega)
  obtain ⟨a1, e1, _, s1⟩ := ha.get (i := p + 1) (by omega)
  obtain ⟨b0, e2, _, s2⟩ := hb.get (i := p) (by omega)
  obtain ⟨b1, e3, _, s3⟩ := hb.get (i := p + 1) (by omega)
  obtain ⟨r0, r1, e4, s4, s5⟩ := baseMul_spec s0 s1 s2 s3 hz
  have l0 : p < r.length := by rw [h.1]; omega
  have l1 : p + 1 < r.length := by rw [h.1]; omega
  refine ⟨(r.set p r0).set (p + 1) r1, ?_, by simp [h.1], fun i v hv => ?_⟩
  · unfold baseMulAt
    simp only [e0, e1, e2, e3, e4, ok_bind, wr_ok _ l0]
    rw [wr_ok _ (by simpa using l1)]
  · by_cases i1 : i = p + 1
    · subst i1
      rw [List.getElem?_set_self (by simpa using l1)] at hv
      cases hv
      refine ⟨fun _ => ?_, fun _ => trivial⟩
      show Is 3840 _ (Spec.Kyber.baseMul fa fb (p + 1) * 169)
      rw [show Spec.Kyber.baseMul fa fb (p + 1) = fa p * fb (p + 1) + fa (p + 1) * fb p from by rw [Spec.Kyber.baseMul, if_neg (by omega), Nat.add_sub_cancel]]
      exact s5
    · rw [List.getElem?_set_ne (by omega)] at hv
      by_cases i2 : i = p
      · subst i2
        rw [List.getElem?_set_self l0] at hv
        cases hv
        refine ⟨fun _ => ?_, fun _ => trivial⟩
        show Is 3840 _ (Spec.Kyber.baseMul fa fb i * 169)
        rw [show Spec.Kyber.baseMul fa fb i = fa i * fb i + γ (i / 2) * (fa (i + 1) * fb (i + 1)) from by rw [Spec.Kyber.baseMul, if_pos he]]
        exact s4
      · rw [List.getElem?_set_ne (by omega)] at hv
        exact ⟨fun ht => (h.2 i v hv).1 (by omega), fun _ => trivial⟩

theorem polyBaseMul_spec {r a b : List Int} {fa fb : Nat → F} (hr : r.length = 256) (ha : Rep (Is 4095) a fa) (hb : Rep (Is 4095) b fb) :
    ∃ r', polyBaseMul r a b = .ok r' ∧ Rep (Is 3840) r' (fun k => Spec.Kyber.baseMul fa fb k * 169) := by
  obtain ⟨r', h1, h2⟩ := loopN_inv
    (f := fun i r => do
      let r ← baseMulAt a b (← zetaAt (64 + i)) (4 * i) r
      baseMulAt a b (i16 (- (← zetaAt (64 + i)))) (4 * i + 2) r)
    (fun i r => Mixed Any (Is 3840) (fun _ => 0) (fun k => Spec.Kyber.baseMul fa fb k * 169) (· < 4 * i) r) 64 0 r
    (by
      intro i r _ hi hm
      obtain ⟨v, e1, s1⟩ := zeta_spec (k := 64 + i) (by omega)
      have g0 : γ (4 * i / 2) = z (64 + i) := by
        rw [root0 (by omega), show 4 * i / 2 % 2 = 0 from by omega, show 4 * i / 2 / 2 = i from by omega]; ring
      have g1 : γ ((4 * i + 2) / 2) = - z (64 + i) := by
        rw [root0 (by omega), show (4 * i + 2) / 2 % 2 = 1 from by omega, show (4 * i + 2) / 2 / 2 = i from by omega]; ring
      obtain ⟨r1, e2, m1⟩ := baseMulAt_spec (p := 4 * i) (by omega) (by omega) ha hb (by rw [g0]; exact s1) hm
      obtain ⟨r2, e3, m2⟩ := baseMulAt_spec (p := 4 * i + 2) (v := i16 (-v)) (by omega) (by omega) ha hb
        (by rw [g1, neg_mul]; exact neg_spec s1 (by omega)) m1
      refine ⟨r2, ?_, ?_⟩
      · simp only [e1, e2, ok_bind]; exact e3
      · rw [show 4 * (i + 1) = 4 * i + 2 + 2 from by omega]; exact m2)
    ⟨hr, fun i v _ => ⟨fun ht => by omega, fun _ => trivial⟩⟩
  refine ⟨r', h1, h2.1, fun i v hv => ?_⟩
  have : i < 256 := by rw [← h2.1]; exact (List.getElem?_eq_some_iff.mp hv).1
  exact (h2.2 i v hv).1 (by omega)

theorem polyReduce_spec {r : List Int} {f : Nat → F} (h : Rep (Is 32767) r f) : ∃ r', polyReduce r = .ok r' ∧ Rep (Is 1664) r' f :=
  mapLoop_spec (fun _ x _ hx => barrett_spec (hx.mono (by omega)) (le_trans (le_abs_self x) hx.1)) h

/-- Loops that write each of 256 entries from an expression. -/
theorem fill_spec {e : Nat → M Int} {Q : Int → F → Prop} {g : Nat → F} (he : ∀ i, i < 256 → ∃ v, e i = .ok v ∧ Q v (g i)) {r : List Int} (hr : r.length = 256) :
    ∃ r', loopN 256 0 (fun i r => do wr r i (← e i)) r = .ok r' ∧ Rep Q r' g := by
  obtain ⟨r', h1, h2⟩ := loopN_inv (f := fun i r => do wr r i (← e i))
    (fun j r => Mixed (fun _ _ => True) Q (fun _ => (0 : F)) g (· < j) r) 256 0 r
    (by
      intro j r _ hlt ⟨hl, hr⟩
      have l1 : j < r.length := by omega
      obtain ⟨x', he, hx⟩ := he j (by omega)
      refine ⟨r.set j x', ?_, by simp [hl], ?_⟩
      · simp only [ok_bind, he, wr_ok _ l1]
      · intro i v hv
        by_cases e1 : i = j
        · subst e1
          rw [List.getElem?_set_self l1] at hv
          cases hv
          exact ⟨fun _ => hx, fun hn => absurd (by omega) hn⟩
        · rw [List.getElem?_set_ne (by omega)] at hv
          obtain ⟨h1, h2⟩ := hr i v hv
          exact ⟨fun ht => h1 (by omega), fun ht => trivial⟩)
    ⟨hr, fun i v hv => ⟨fun ht => by omega, fun _ => trivial⟩⟩
  refine ⟨r', h1, h2.1, fun i v hv => ?_⟩
  have : i < 256 := by rw [← h2.1]; exact (List.getElem?_eq_some_iff.mp hv).1
  exact (h2.2 i v hv).1 (by omega)

theorem polyAdd_spec {r a b : List Int} {fa fb : Nat → F} {A B C : Int} (hr : r.length = 256) (ha : Rep (Is A) a fa) (hb : Rep (Is B) b fb) (h : A + B ≤ C) (hC : C ≤ 32767) :
    ∃ r', polyAdd r a b = .ok r' ∧ Rep (Is C) r' (fun k => fa k + fb k) := by
  have := fill_spec (Q := Is C) (g := fun k => fa k + fb k) (e := fun i => do return i16 ((← rd a i) + (← rd b i)))
    (by
      intro i hi
      obtain ⟨v, e1, _, s1⟩ := ha.get hi
      obtain ⟨w, e2, _, s2⟩ := hb.get hi
      exact ⟨i16 (v + w), by simp only [e1, e2, ok_bind, pure_eq_ok], add_spec s1 s2 h hC⟩) hr
  simp only [bind_assoc, pure_bind] at this
  exact this

theorem polySub_spec {r a b : List Int} {fa fb : Nat → F} {A B C : Int} (hr : r.length = 256) (ha : Rep (Is A) a fa) (hb : Rep (Is B) b fb) (h : A + B ≤ C) (hC : C ≤ 32767) :
    ∃ r', polySub r a b = .ok r' ∧ Rep (Is C) r' (fun k => fa k - fb k) := by
  have := fill_spec (Q := Is C) (g := fun k => fa k - fb k) (e := fun i => do return i16 ((← rd a i) - (← rd b i)))
    (by
      intro i hi
      obtain ⟨v, e1, _, s1⟩ := ha.get hi
      obtain ⟨w, e2, _, s2⟩ := hb.get hi
      exact ⟨i16 (v - w), by simp only [e1, e2, ok_bind, pure_eq_ok], sub_spec s1 s2 h hC⟩) hr
  simp only [bind_assoc, pure_bind] at this
  exact this

theorem polyToMont_spec {r : List Int} {f : Nat → F} (h : Rep (Is 32767) r f) : ∃ r', polyToMont r = .ok r' ∧ Rep (Is 3328) r' (fun k => f k * 65536) := by
  refine mapLoop_spec (fun i x _ hx => ?_) h
  have e : ((4294967296 : Int) % Q) = 1353 := by decide
  rw [e]
  have hb : |x * 1353| ≤ 32767 * 1353 := by
    rw [abs_mul]
    exact mul_le_mul hx.1 (by decide) (abs_nonneg _) (by decide)
  obtain ⟨t, h1, h2⟩ := montgomery_spec (a := x * 1353) (C := 3328) (x := f i * 1353) (by omega) (by omega) (by push_cast; rw [hx.2])
  refine ⟨t, by rw [i32_ok (by omega)]; exact h1, h2.1, h2.2.trans ?_⟩
  have : (1353 : F) * 169 = 65536 := by decide +kernel
  linear_combination (f i) * this

/-- Scalar product of vectors of transforms. -/
def dot (K : Nat) (fa fb : Nat → Nat → F) (k : Nat) : F := ∑ i ∈ Finset.range K, Spec.Kyber.baseMul (fa i) (fb i) k

/-- A vector of `K` polynomials. -/
def Reps (P : Int → F → Prop) (K : Nat) (a : List (List Int)) (f : Nat → Nat → F) : Prop := a.length = K ∧ ∀ i r, a[i]? = some r → Rep P r (f i)

theorem Reps.get {P : Int → F → Prop} {K : Nat} {a : List (List Int)} {f : Nat → Nat → F} (h : Reps P K a f) {i : Nat} (hi : i < K) : ∃ r, rd a i = .ok r ∧ Rep P r (f i) := by
  have hl : i < a.length := by rw [h.1]; exact hi
  exact ⟨a[i], rd_ok hl, h.2 _ _ (List.getElem?_eq_getElem hl)⟩

theorem polyVecBaseMulAcc_spec {r : List Int} {a b : List (List Int)} {K : Nat} {fa fb : Nat → Nat → F} (hr : r.length = 256) (hK : 0 < K) (hK5 : K ≤ 5)
    (ha : Reps (Is 4095) K a fa) (hb : Reps (Is 4095) K b fb) :
    ∃ r', polyVecBaseMulAcc r a b = .ok r' ∧ Rep (Is 1664) r' (fun k => dot K fa fb k * 169) := by
  obtain ⟨a0, e1, s1⟩ := ha.get hK
  obtain ⟨b0, e2, s2⟩ := hb.get hK
  obtain ⟨r0, e3, s3⟩ := polyBaseMul_spec hr s1 s2
  obtain ⟨r1, e4, s4⟩ := loopN_inv
    (f := accStep a b)
    (fun i r => Rep (Is (3840 * i)) r (fun k => dot i fa fb k * 169)) (a.length - 1) 1 r0
    (by
      intro i r h1 hi h
      rw [ha.1] at hi
      obtain ⟨ai, e1, s1⟩ := ha.get (i := i) (by omega)
      obtain ⟨bi, e2, s2⟩ := hb.get (i := i) (by omega)
      obtain ⟨t, e3, s3⟩ := polyBaseMul_spec (r := poly0) List.length_replicate s1 s2
      obtain ⟨r', e4, s4⟩ := polyAdd_spec (C := 3840 * ((i + 1 : Nat) : Int)) h.1 h s3 (by push_cast; omega) (by push_cast; omega)
      refine ⟨r', by rw [accStep, e1, ok_bind, e2, ok_bind, e3, ok_bind]; exact e4, s4.mono ?_⟩
      intro v k _ hv
      have e : dot i fa fb k * 169 + Spec.Kyber.baseMul (fa i) (fb i) k * 169 = dot (i + 1) fa fb k * 169 := by
        rw [dot, dot, Finset.sum_range_succ, add_mul]
      rw [e] at hv
      exact hv)
    (by
      refine s3.mono ?_
      intro v k _ hv
      have e : Spec.Kyber.baseMul (fa 0) (fb 0) k = dot 1 fa fb k := by rw [dot, Finset.sum_range_one]
      rw [e] at hv
      exact hv.mono (by omega))
  rw [ha.1, show 1 + (K - 1) = K from by omega] at s4
  obtain ⟨r2, e5, s5⟩ := polyReduce_spec (s4.mono fun v k _ hv => hv.mono (by omega))
  refine ⟨r2, ?_, s5⟩
  rw [polyVecBaseMulAcc, e1, ok_bind, e2, ok_bind, e3, ok_bind, e4, ok_bind]
  exact e5

end Cex.Kyber
