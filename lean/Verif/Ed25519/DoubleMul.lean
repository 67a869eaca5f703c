import Verif.Ed25519.Slide
import Verif.Ed25519.Decode

/-!
# The linear combination of a point and the base point
-/

namespace Cex.Ed25519

open Cex.Ec25519 Cex.IntTools Finset

/-- a point prepared for additions -/
def Cached.Is (q : Cached) (S : Pt) : Prop :=
  ∃ x y Z : Fp, EdP S x y ∧ Z ≠ 0 ∧ Ed25519.Is 2 q.yplusx (y * Z + x * Z) ∧ Ed25519.Is 2 q.yminusx (y * Z - x * Z) ∧ Ed25519.Is 1 q.z Z ∧
    Ed25519.Is 1 q.t2d (x * y * Z * (2 * dN))

theorem Ge3.Is.toCached {h : Ge3} {S : Pt} (H : h.Is S) : ∃ q, h.toCached = .ok q ∧ q.Is S := by
  obtain ⟨x, y, Z, e, hZ, hx, hy, hz, ht⟩ := H
  obtain ⟨a, ea, ha⟩ := hy.add hx (by decide)
  obtain ⟨b, eb, hb⟩ := hy.sub hx (by decide)
  obtain ⟨c, ec, hc⟩ := ht.mul feD2_is (by decide) (by decide)
  refine ⟨⟨a, b, h.z, c⟩, ?_, x, y, Z, e, hZ, ha, hb, hz, hc⟩
  rw [Ge3.toCached, ea, ok_bind, eb, ok_bind, ec]
  rfl

theorem addCached_ok {h : Ge3} {q : Cached} {S R : Pt} (H : h.Is S) (Q : q.Is R) : ∃ r, addCached h q = .ok r ∧ r.Is (S + R) := by
  obtain ⟨x1, y1, Z1, e1, hZ1, hx, hy, hz, ht⟩ := H
  obtain ⟨x2, y2, Z2, e2, hZ2, qp, qm, qz, qt⟩ := Q
  obtain ⟨a, ea, ha⟩ := hy.add hx (by decide)
  obtain ⟨b, eb, hb⟩ := hy.sub hx (by decide)
  obtain ⟨f, ef, hf⟩ := ha.mul qp (by decide) (by decide)
  obtain ⟨g, eg, hg⟩ := hb.mul qm (by decide) (by decide)
  obtain ⟨t, et, hT⟩ := qt.mul ht (by decide) (by decide)
  obtain ⟨zz, ez, hzz⟩ := hz.mul qz (by decide) (by decide)
  obtain ⟨t0, e0, h0⟩ := hzz.add hzz (by decide)
  obtain ⟨X, eX, hX⟩ := hf.sub hg (by decide)
  obtain ⟨Y, eY, hY⟩ := hf.add hg (by decide)
  obtain ⟨Zr, eZ, hZr⟩ := h0.add hT (by decide)
  obtain ⟨Tr, eT, hTr⟩ := h0.sub hT (by decide)
  obtain ⟨n1, n2, hadd⟩ := e1.add e2
  have z2 : 2 * (Z1 * Z2) ≠ 0 := mul_ne_zero k2 (mul_ne_zero hZ1 hZ2)
  refine ⟨⟨X, Y, Zr, Tr⟩, ?_, _, _, 2 * (Z1 * Z2) * (1 + dN * (x1 * x2 * y1 * y2)), 2 * (Z1 * Z2) * (1 - dN * (x1 * x2 * y1 * y2)), hadd, mul_ne_zero z2 n1,
    mul_ne_zero z2 n2, (hX.mono (by decide)).congr ?_, (hY.mono (by decide)).congr ?_, hZr.congr ?_, hTr.congr ?_⟩
  · rw [addCached, ea, ok_bind, eb, ok_bind, ef, ok_bind, eg, ok_bind, et, ok_bind, ez, ok_bind, e0, ok_bind, eX, ok_bind, eY, ok_bind, eZ, ok_bind, eT]
    rfl
  · rw [div_mul_eq_mul_div, eq_div_iff n1]; ring
  · rw [div_mul_eq_mul_div, eq_div_iff n2]; ring
  · ring
  · ring

theorem subCached_ok {h : Ge3} {q : Cached} {S R : Pt} (H : h.Is S) (Q : q.Is R) : ∃ r, subCached h q = .ok r ∧ r.Is (S - R) := by
  obtain ⟨x1, y1, Z1, e1, hZ1, hx, hy, hz, ht⟩ := H
  obtain ⟨x2, y2, Z2, e2, hZ2, qp, qm, qz, qt⟩ := Q
  obtain ⟨a, ea, ha⟩ := hy.add hx (by decide)
  obtain ⟨b, eb, hb⟩ := hy.sub hx (by decide)
  obtain ⟨f, ef, hf⟩ := ha.mul qm (by decide) (by decide)
  obtain ⟨g, eg, hg⟩ := hb.mul qp (by decide) (by decide)
  obtain ⟨t, et, hT⟩ := qt.mul ht (by decide) (by decide)
  obtain ⟨zz, ez, hzz⟩ := hz.mul qz (by decide) (by decide)
  obtain ⟨t0, e0, h0⟩ := hzz.add hzz (by decide)
  obtain ⟨X, eX, hX⟩ := hf.sub hg (by decide)
  obtain ⟨Y, eY, hY⟩ := hf.add hg (by decide)
  obtain ⟨Zr, eZ, hZr⟩ := h0.sub hT (by decide)
  obtain ⟨Tr, eT, hTr⟩ := h0.add hT (by decide)
  obtain ⟨n1, n2, hadd⟩ := e1.add e2.neg
  have z2 : 2 * (Z1 * Z2) ≠ 0 := mul_ne_zero k2 (mul_ne_zero hZ1 hZ2)
  rw [sub_eq_add_neg]
  refine ⟨⟨X, Y, Zr, Tr⟩, ?_, _, _, 2 * (Z1 * Z2) * (1 + dN * (x1 * -x2 * y1 * y2)), 2 * (Z1 * Z2) * (1 - dN * (x1 * -x2 * y1 * y2)), hadd, mul_ne_zero z2 n1,
    mul_ne_zero z2 n2, (hX.mono (by decide)).congr ?_, (hY.mono (by decide)).congr ?_, hZr.congr ?_, hTr.congr ?_⟩
  · rw [subCached, ea, ok_bind, eb, ok_bind, ef, ok_bind, eg, ok_bind, et, ok_bind, ez, ok_bind, e0, ok_bind, eX, ok_bind, eY, ok_bind, eZ, ok_bind, eT]
    rfl
  · rw [div_mul_eq_mul_div, eq_div_iff n1]; ring
  · rw [div_mul_eq_mul_div, eq_div_iff n2]; ring
  · ring
  · ring

theorem subPre_ok {h : Ge3} {q : Pre} {S R : Pt} (H : h.Is S) (Q : q.Is R) : ∃ r, subPre h q = .ok r ∧ r.Is (S - R) := by
  obtain ⟨x1, y1, Z, e1, hZ, hx, hy, hz, ht⟩ := H
  obtain ⟨x2, y2, e2, qp, qm, qt⟩ := Q
  obtain ⟨a, ea, ha⟩ := hy.add hx (by decide)
  obtain ⟨b, eb, hb⟩ := hy.sub hx (by decide)
  obtain ⟨f, ef, hf⟩ := ha.mul qm (by decide) (by decide)
  obtain ⟨g, eg, hg⟩ := hb.mul qp (by decide) (by decide)
  obtain ⟨t, et, hT⟩ := qt.mul ht (by decide) (by decide)
  obtain ⟨t0, e0, h0⟩ := hz.add hz (by decide)
  obtain ⟨X, eX, hX⟩ := hf.sub hg (by decide)
  obtain ⟨Y, eY, hY⟩ := hf.add hg (by decide)
  obtain ⟨Zr, eZ, hZr⟩ := h0.sub hT (by decide)
  obtain ⟨Tr, eT, hTr⟩ := h0.add hT (by decide)
  obtain ⟨n1, n2, hadd⟩ := e1.add e2.neg
  have z2 : 2 * Z ≠ 0 := mul_ne_zero k2 hZ
  rw [sub_eq_add_neg]
  refine ⟨⟨X, Y, Zr, Tr⟩, ?_, _, _, 2 * Z * (1 + dN * (x1 * -x2 * y1 * y2)), 2 * Z * (1 - dN * (x1 * -x2 * y1 * y2)), hadd, mul_ne_zero z2 n1,
    mul_ne_zero z2 n2, (hX.mono (by decide)).congr ?_, (hY.mono (by decide)).congr ?_, hZr.congr ?_, hTr.congr ?_⟩
  · rw [subPre, ea, ok_bind, eb, ok_bind, ef, ok_bind, eg, ok_bind, et, ok_bind, e0, ok_bind, eX, ok_bind, eY, ok_bind, eZ, ok_bind, eT]
    rfl
  · rw [div_mul_eq_mul_div, eq_div_iff n1]; ring
  · rw [div_mul_eq_mul_div, eq_div_iff n2]; ring
  · ring
  · ring

/-- the odd multiples of the point -/
theorem oddTable_ok {p : Ge3} {S : Pt} (H : p.Is S) : ∃ ai, oddTable p = .ok ai ∧ ∀ k < 8, ∃ q, rd ai k = .ok q ∧ q.Is ((2 * (k : Int) + 1) • S) := by
  obtain ⟨a, ea, ha⟩ := H.toCached
  obtain ⟨d, ed, hd⟩ := p3Dbl_ok H
  obtain ⟨p2, ep, hp⟩ := hd.toP3
  obtain ⟨⟨r, c⟩, e, hl, hr, hc⟩ := loopN_inv (f := fun _ (s : List Cached × Cached) => do
      let u ← (← addCached p2 s.2).toP3
      let c ← u.toCached
      return (s.1 ++ [c], c))
    (fun i (s : List Cached × Cached) => s.1.length = i + 1 ∧ (∀ k < i + 1, ∃ q, rd s.1 k = .ok q ∧ q.Is ((2 * (k : Int) + 1) • S)) ∧ s.2.Is ((2 * (i : Int) + 1) • S))
    7 0 ([a], a)
    (fun i s _ hi hs => by
      obtain ⟨l, h1, h2⟩ := hs
      obtain ⟨u, eu, hu⟩ := addCached_ok hp h2
      obtain ⟨v, ev, hv⟩ := hu.toP3
      obtain ⟨w, ew, hw⟩ := hv.toCached
      have e : S + S + (2 * (i : Int) + 1) • S = (2 * ((i + 1 : Nat) : Int) + 1) • S := by
        push_cast
        module
      rw [e] at hw
      refine ⟨(s.1 ++ [w], w), by rw [eu, ok_bind, ev, ok_bind, ew]; rfl, by rw [List.length_append, l]; rfl, fun k hk => ?_, hw⟩
      rcases Nat.lt_or_ge k (i + 1) with c | c
      · obtain ⟨q, eq, hq⟩ := h1 k c
        refine ⟨q, ?_, hq⟩
        rw [rd, List.getElem?_append_left (by omega)]
        exact eq
      · have : k = i + 1 := by omega
        subst this
        refine ⟨w, ?_, hw⟩
        rw [rd, List.getElem?_append_right (by omega), l, Nat.sub_self]
        rfl)
    ⟨rfl, fun k hk => by
      have : k = 0 := by omega
      subst this
      exact ⟨a, rfl, by simpa using ha⟩, by simpa using ha⟩
  refine ⟨r, ?_, hr⟩
  rw [oddTable, ea, ok_bind, ed, ok_bind, ep, ok_bind, e]
  rfl

theorem odd_chk : (chkRow (dbl (BxN, ByN)) oddBase (P - BxN, ByN)).isSome = true ∧ chkAdd (BxN, ByN) (BxN, ByN) (dbl (BxN, ByN)) = true := by decide +kernel

/-- the odd multiples of the base point -/
theorem oddBase_ok {k : Nat} (hk : k < 8) : ∃ q, rd oddBase k = .ok q ∧ q.Is ((2 * (k : Int) + 1) • Bpt) := by
  obtain ⟨h1, h2⟩ := odd_chk
  obtain ⟨r, hr⟩ := Option.isSome_iff_exists.mp h1
  have d := chkAdd_ok h2 Bpt_ed Bpt_ed
  have n : EdP (-Bpt) (((P - BxN, ByN) : Nat × Nat).1 : Fp) (((P - BxN, ByN) : Nat × Nat).2 : Fp) := by
    have := Bpt_ed.neg
    rw [show ((((P - BxN, ByN) : Nat × Nat).1 : Nat) : Fp) = -(BxN : Fp) by
      show ((P - BxN : Nat) : Fp) = _
      rw [Nat.cast_sub (by decide), kP, zero_sub]]
    exact this
  have := (chkRow_ok d hr n).2
  have hl : k < oddBase.length := hk
  refine ⟨oddBase[k], rd_ok hl, ?_⟩
  convert this k oddBase[k] (List.getElem?_eq_getElem hl) using 1
  rw [← natCast_zsmul (Bpt + Bpt)]
  push_cast
  module

theorem odd_idx {d : Int} (h : d % 2 = 1) (hd : 0 < d ∧ d ≤ 15) : d.toNat / 2 < 8 ∧ 2 * ((d.toNat / 2 : Nat) : Int) + 1 = d := by omega

theorem addA_ok {ai : List Cached} {S T : Pt} (ha : ∀ k < 8, ∃ q, rd ai k = .ok q ∧ q.Is ((2 * (k : Int) + 1) • S)) {d : Int}
    (hd : d = 0 ∨ (d % 2 = 1 ∧ -15 ≤ d ∧ d ≤ 15)) {t : Ge11} (H : t.Is T) : ∃ r, addA ai d t = .ok r ∧ r.Is (T + d • S) := by
  obtain ⟨p, ep, hp⟩ := H.toP3
  rw [addA]
  by_cases c : 0 < d
  · obtain ⟨i1, i2⟩ := odd_idx (d := d) (by omega) (by omega)
    obtain ⟨q, eq, hq⟩ := ha _ i1
    rw [i2] at hq
    rw [if_pos c, ep, ok_bind, eq, ok_bind]
    exact addCached_ok hp hq
  · rw [if_neg c]
    by_cases c' : d < 0
    · obtain ⟨i1, i2⟩ := odd_idx (d := -d) (by omega) (by omega)
      obtain ⟨q, eq, hq⟩ := ha _ i1
      rw [i2] at hq
      rw [if_pos c', ep, ok_bind, eq, ok_bind]
      obtain ⟨r, e, h⟩ := subCached_ok hp hq
      exact ⟨r, e, by rwa [neg_smul, sub_neg_eq_add] at h⟩
    · rw [if_neg c']
      have : d = 0 := by omega
      exact ⟨t, rfl, by rw [this, zero_zsmul, add_zero]; exact H⟩

theorem addB_ok {T : Pt} {d : Int} (hd : d = 0 ∨ (d % 2 = 1 ∧ -15 ≤ d ∧ d ≤ 15)) {t : Ge11} (H : t.Is T) : ∃ r, addB d t = .ok r ∧ r.Is (T + d • Bpt) := by
  obtain ⟨p, ep, hp⟩ := H.toP3
  rw [addB]
  by_cases c : 0 < d
  · obtain ⟨i1, i2⟩ := odd_idx (d := d) (by omega) (by omega)
    obtain ⟨q, eq, hq⟩ := oddBase_ok i1
    rw [i2] at hq
    rw [if_pos c, ep, ok_bind, eq, ok_bind]
    exact addPre_ok hp hq
  · rw [if_neg c]
    by_cases c' : d < 0
    · obtain ⟨i1, i2⟩ := odd_idx (d := -d) (by omega) (by omega)
      obtain ⟨q, eq, hq⟩ := oddBase_ok i1
      rw [i2] at hq
      rw [if_pos c', ep, ok_bind, eq, ok_bind]
      obtain ⟨r, e, h⟩ := subPre_ok hp hq
      exact ⟨r, e, by rwa [neg_smul, sub_neg_eq_add] at h⟩
    · rw [if_neg c']
      have : d = 0 := by omega
      exact ⟨t, rfl, by rw [this, zero_zsmul, add_zero]; exact H⟩

theorem topDigit_ok {a b : List Int} : ∀ {n : Nat}, n ≤ a.length → n ≤ b.length →
    ∃ m, topDigit a b n = .ok m ∧ m ≤ n ∧ ∀ j, m ≤ j → j < n → dg a j = 0 ∧ dg b j = 0
  | 0, _, _ => ⟨0, rfl, Nat.le_refl _, fun j _ h => by omega⟩
  | n + 1, ha, hb => by
    rw [topDigit, dg_rd (by omega), ok_bind, dg_rd (by omega), ok_bind]
    by_cases c : dg a n ≠ 0 ∨ dg b n ≠ 0
    · rw [if_pos c]
      exact ⟨n + 1, rfl, Nat.le_refl _, fun j _ h => by omega⟩
    · rw [if_neg c]
      obtain ⟨m, e, h, z⟩ := topDigit_ok (a := a) (b := b) (n := n) (by omega) (by omega)
      refine ⟨m, e, by omega, fun j h1 h2 => ?_⟩
      rcases Nat.lt_or_ge j n with c' | c'
      · exact z j h1 c'
      · have : j = n := by omega
        subst this
        exact ⟨by by_contra h; exact c (.inl h), by by_contra h; exact c (.inr h)⟩

theorem sum_top {f : Nat → Int} {n m : Nat} (h : m ≤ n) (z : ∀ j, m ≤ j → j < n → f j = 0) : ∑ j ∈ range n, f j = ∑ j ∈ range m, f j :=
  (sum_subset (range_mono h) (fun j hj hm => z j (by simpa using hm) (mem_range.mp hj))).symm

/-- `a A + b B` -/
theorem doubleScalar_ok {a b : List Byte} {off : Nat} {A : Ge3} {S : Pt} (H : A.Is S) (ha : 32 ≤ a.length) (hb : off + 32 ≤ b.length)
    (va : leVal (a.take 32) ≤ 2 ^ 253) (vb : leVal ((b.drop off).take 32) ≤ 2 ^ 253) :
    ∃ r, doubleScalar a A b off = .ok r ∧ r.Is (leVal (a.take 32) • S + leVal ((b.drop off).take 32) • Bpt) := by
  obtain ⟨as, ea, la, da, sa⟩ := slide_ok (a := a) (off := 0) (by omega) (by rw [List.drop_zero]; exact va)
  obtain ⟨bs, eb, lb, db, sb⟩ := slide_ok hb vb
  rw [List.drop_zero] at sa
  obtain ⟨ai, et, hai⟩ := oddTable_ok H
  obtain ⟨n, en, hn, hz⟩ := topDigit_ok (a := as) (b := bs) (n := 256) (by omega) (by omega)
  rw [sum_top hn (fun j h1 h2 => by rw [(hz j h1 h2).1, zero_mul])] at sa
  rw [sum_top hn (fun j h1 h2 => by rw [(hz j h1 h2).2, zero_mul])] at sb
  generalize leVal (a.take 32) = Na at *
  generalize leVal ((b.drop off).take 32) = Nb at *
  obtain ⟨r, e, s, t, hr, h1, h2⟩ := loopN_inv (f := fun k r => do
      let i := n - 1 - k
      let t ← p2Dbl r
      let t ← addA ai (← rd as i) t
      let t ← addB (← rd bs i) t
      t.toP2)
    (fun k (r : Ge2) => ∃ s t : Int, r.Is (s • S + t • Bpt) ∧ s * 2 ^ (n - k) + ∑ j ∈ range (n - k), dg as j * 2 ^ j = Na ∧
      t * 2 ^ (n - k) + ∑ j ∈ range (n - k), dg bs j * 2 ^ j = Nb) n 0 ⟨F10.zero, F10.one, F10.one⟩
    (fun k r _ hk hr => by
      obtain ⟨s, t, hr, h1, h2⟩ := hr
      have hi : n - 1 - k < 256 := by omega
      obtain ⟨x, ex, hx⟩ := p2Dbl_ok hr
      obtain ⟨y, ey, hy⟩ := addA_ok hai (da _ hi) hx
      obtain ⟨z, ez, hz⟩ := addB_ok (db _ hi) hy
      obtain ⟨w, ew, hw⟩ := hz.toP2
      refine ⟨w, by dsimp only; rw [ex, ok_bind, dg_rd (by omega), ok_bind, ey, ok_bind, dg_rd (by omega), ok_bind, ez, ok_bind, ew], 2 * s + dg as (n - 1 - k), 2 * t + dg bs (n - 1 - k), ?_, ?_, ?_⟩
      · convert hw using 1
        module
      · rw [show n - k = (n - 1 - k) + 1 by omega, sum_range_succ, pow_succ] at h1
        rw [show n - (k + 1) = n - 1 - k by omega, ← h1]
        ring
      · rw [show n - k = (n - 1 - k) + 1 by omega, sum_range_succ, pow_succ] at h2
        rw [show n - (k + 1) = n - 1 - k by omega, ← h2]
        ring)
    ⟨0, 0, ⟨0, 1, 1, by rw [zero_zsmul, zero_zsmul, add_zero]; exact ⟨rfl, rfl⟩, one_ne_zero, Ed25519.zero_is.congr (by ring), one_is.congr (by ring), one_is⟩,
      by rw [Nat.sub_zero, zero_mul, zero_add]; exact sa, by rw [Nat.sub_zero, zero_mul, zero_add]; exact sb⟩
  rw [Nat.zero_add, Nat.sub_self] at h1 h2
  refine ⟨r, ?_, ?_⟩
  · rw [doubleScalar, ea, ok_bind, eb, ok_bind, et, ok_bind, en, ok_bind, e]
  · have e1 : s = Na := by simpa using h1
    have e2 : t = Nb := by simpa using h2
    rw [e1, e2, natCast_zsmul, natCast_zsmul] at hr
    exact hr

end Cex.Ed25519
