import Verif.Ed25519.TableCheck
import Mathlib.Algebra.BigOperators.Group.Finset.Basic
import Mathlib.Algebra.BigOperators.Intervals

/-!
# Multiples of the base point
-/

namespace Cex.Ed25519

open Cex.Ec25519 Finset

/-! ### The choice of an entry -/

theorem abs_cases {b : Int} (h : -8 ≤ b ∧ b ≤ 8) : b = -8 ∨ b = -7 ∨ b = -6 ∨ b = -5 ∨ b = -4 ∨ b = -3 ∨ b = -2 ∨ b = -1 ∨ b = 0 ∨ b = 1 ∨ b = 2 ∨ b = 3 ∨ b = 4 ∨
    b = 5 ∨ b = 6 ∨ b = 7 ∨ b = 8 := by omega

theorem geEqual_ok {b : Int} (h : -8 ≤ b ∧ b ≤ 8) {j : Nat} (hj : j < 8) :
    geEqual (absByte b) (BitVec.ofNat 8 (j + 1)) = if b.natAbs = j + 1 then 1 else 0 := by
  have k : ∀ j < 8, ∀ c : Fin 17, geEqual (absByte ((c.val : Int) - 8)) (BitVec.ofNat 8 (j + 1)) = if ((c.val : Int) - 8).natAbs = j + 1 then 1 else 0 := by
    decide +kernel
  have := k j hj ⟨(b + 8).toNat, by omega⟩
  rwa [show (((b + 8).toNat : Nat) : Int) - 8 = b by omega] at this

theorem negBit_ok {b : Int} (h : -8 ≤ b ∧ b ≤ 8) : negBit b = if b < 0 then 1 else 0 := by
  have k : ∀ c : Fin 17, negBit ((c.val : Int) - 8) = if ((c.val : Int) - 8) < 0 then 1 else 0 := by decide +kernel
  have := k ⟨(b + 8).toNat, by omega⟩
  rwa [show (((b + 8).toNat : Nat) : Int) - 8 = b by omega] at this

theorem Pre.Is.bd {q : Pre} {S : Pt} (h : q.Is S) : q.yplusx.Bd 3 ∧ q.yminusx.Bd 3 ∧ q.xy2d.Bd 3 := by
  obtain ⟨x, y, _, a, b, c⟩ := h
  exact ⟨a.1.mono (by decide), b.1.mono (by decide), c.1.mono (by decide)⟩

theorem Pre.mov_zero {q r : Pre} {S T : Pt} (h : q.Is S) (h' : r.Is T) : q.mov r 0 = q := by
  obtain ⟨a, b, c⟩ := h.bd
  obtain ⟨a', b', c'⟩ := h'.bd
  show Pre.mk (fmov _ _ 0) (fmov _ _ 0) (fmov _ _ 0) = q
  rw [fmov_zero a a', fmov_zero b b', fmov_zero c c']

theorem Pre.mov_one {q r : Pre} {S T : Pt} (h : q.Is S) (h' : r.Is T) : q.mov r 1 = r := by
  obtain ⟨a, b, c⟩ := h.bd
  obtain ⟨a', b', c'⟩ := h'.bd
  show Pre.mk (fmov _ _ 1) (fmov _ _ 1) (fmov _ _ 1) = r
  rw [fmov_one a a', fmov_one b b', fmov_one c c']

theorem Pre.Is.neg {q : Pre} {S : Pt} (h : q.Is S) : ∃ m, fneg q.xy2d = .ok m ∧ (⟨q.yminusx, q.yplusx, m⟩ : Pre).Is (-S) := by
  obtain ⟨x, y, e, a, b, c⟩ := h
  obtain ⟨m, em, hm⟩ := c.neg (by decide)
  exact ⟨m, em, -x, y, e.neg, b.congr (by ring), a.congr (by ring), hm.congr (by ring)⟩

theorem mov8_ok {row : List Pre} {Q : Pt} (hl : row.length = 8) (hr : ∀ (j : Nat) (e : Pre), row[j]? = some e → e.Is ((j + 1) • Q)) {b : Int} (hb : -8 ≤ b ∧ b ≤ 8) :
    ∃ r, mov8 row b = .ok r ∧ r.Is (b • Q) := by
  obtain ⟨t, et, ht⟩ := loopN_inv (f := fun j t => do return Pre.mov t (← rd row j) (geEqual (absByte b) (BitVec.ofNat 8 (j + 1))))
    (fun j t => t.Is (if b.natAbs ≤ j then b.natAbs • Q else 0)) 8 0 Pre.zero (by
      intro j s _ hj hs
      have hj' : j < row.length := by omega
      have hE := hr j row[j] (List.getElem?_eq_getElem hj')
      refine ⟨_, by rw [rd_ok hj', ok_bind]; rfl, ?_⟩
      rw [geEqual_ok hb (by omega)]
      by_cases c : b.natAbs = j + 1
      · rw [if_pos c, Pre.mov_one hs hE, if_pos (by omega), c]; exact hE
      · rw [if_neg c, Pre.mov_zero hs hE]
        by_cases d : b.natAbs ≤ j
        · rw [if_pos d] at hs; rw [if_pos (by omega)]; exact hs
        · rw [if_neg d] at hs; rw [if_neg (by omega)]; exact hs) (by
      by_cases c : b.natAbs = 0
      · rw [c, if_pos (le_refl _), zero_nsmul]; exact Pre.zero_is
      · rw [if_neg (by omega)]; exact Pre.zero_is)
  rw [if_pos (by omega)] at ht
  obtain ⟨m, em, hm⟩ := ht.neg
  refine ⟨_, by rw [mov8, et, ok_bind, em, ok_bind]; rfl, ?_⟩
  rw [negBit_ok hb]
  by_cases c : b < 0
  · rw [if_pos c, Pre.mov_one ht hm]
    convert hm using 1
    rw [← natCast_zsmul, ← neg_zsmul]
    congr 1; omega
  · rw [if_neg c, Pre.mov_zero ht hm]
    convert ht using 1
    rw [← natCast_zsmul]
    congr 1; omega

/-! ### The digits -/

theorem nib_lo : ∀ b : Byte, (b &&& 15).toNat = b.toNat % 16 := by decide +kernel
theorem nib_hi : ∀ b : Byte, ((b >>> 4) &&& 15).toNat = b.toNat / 16 := by decide +kernel

theorem i8_id {x : Int} (h : -128 ≤ x ∧ x < 128) : i8 x = x := by rw [i8]; omega

/-- a digit of a list -/
def dg (e : List Int) (i : Nat) : Int := (e[i]?).getD 0

theorem dg_rd {e : List Int} {i : Nat} (h : i < e.length) : rd e i = .ok (dg e i) := by
  rw [rd_ok h, dg, List.getElem?_eq_getElem h]; rfl

theorem dg_set {e : List Int} {i : Nat} (h : i < e.length) (v : Int) (j : Nat) : dg (e.set i v) j = if j = i then v else dg e j := by
  rw [dg, List.getElem?_set]
  by_cases c : i = j
  · subst c; rw [if_pos rfl, if_pos rfl, if_pos h]; rfl
  · rw [if_neg c, if_neg (Ne.symm c)]; rfl

/-- digit `i` in base 16 -/
def nib (n i : Nat) : Nat := n / 16 ^ i % 16

theorem nibs_loop {a : List Byte} (ha : a.length = 32) : ∃ e, loopN 32 0 (fun i e => do
      let e ← wr e (2 * i) (((← rd a i) &&& 15).toNat : Int)
      wr e (2 * i + 1) ((((← rd a i) >>> 4) &&& 15).toNat : Int)) (List.replicate 64 (0 : Int)) = .ok e ∧ e.length = 64 ∧ ∀ j < 64, dg e j = (nib (leVal a) j : Nat) := by
  obtain ⟨e, h1, h2, h3⟩ := loopN_inv (f := fun i (e : List Int) => do
      let e ← wr e (2 * i) (((← rd a i) &&& 15).toNat : Int)
      wr e (2 * i + 1) ((((← rd a i) >>> 4) &&& 15).toNat : Int))
    (fun i e => e.length = 64 ∧ ∀ j < 2 * i, dg e j = (nib (leVal a) j : Nat)) 32 0 (List.replicate 64 (0 : Int)) (by
      intro i s _ hi ⟨hl, hs⟩
      have hi' : i < a.length := by omega
      refine ⟨_, by rw [rd_ok hi', ok_bind, wr_ok _ (by omega), ok_bind, ok_bind, wr_ok _ (by rw [List.length_set]; omega)], by simp [hl], ?_⟩
      intro j hj
      rw [dg_set (by rw [List.length_set]; omega), dg_set (by omega)]
      obtain ⟨l, r, hlr, lt⟩ := leVal_split hi'
      have hv : leVal a / 256 ^ i = (a[i]).toNat + 256 * r := by
        rw [hlr, Nat.add_mul_div_left _ _ (Nat.pow_pos (by decide)), Nat.div_eq_of_lt lt, Nat.zero_add]
      have hb := (a[i]).isLt
      by_cases c : j = 2 * i + 1
      · rw [if_pos c, nib_hi, nib, c, pow_succ, pow_mul, ← Nat.div_div_eq_div_mul, show 16 ^ 2 = 256 from rfl, hv]
        omega
      rw [if_neg c]
      by_cases d : j = 2 * i
      · rw [if_pos d, nib_lo, nib, d, pow_mul, show 16 ^ 2 = 256 from rfl, hv]
        omega
      rw [if_neg d]
      exact hs j (by omega)) ⟨List.length_replicate, by omega⟩
  exact ⟨e, h1, h2, h3⟩

theorem recode_ok {a : List Byte} (ha : a.length = 32) (hlt : leVal a < 2 ^ 255) : ∃ e, recode a = .ok e ∧ e.length = 64 ∧ (∀ i < 64, -8 ≤ dg e i ∧ dg e i ≤ 8) ∧
    ∑ i ∈ range 64, dg e i * 16 ^ i = (leVal a : Nat) := by
  obtain ⟨e0, h0, l0, d0⟩ := nibs_loop ha
  obtain ⟨⟨e, c⟩, h1, l1, dd, c0, c1, r, hs⟩ := loopN_inv (f := fun i (s : List Int × Int) => do
      let x := i8 ((← rd s.1 i) + s.2)
      let carry := i8 (x + 8) / 16
      let e ← wr s.1 i (i8 (x - carry * 16))
      return (e, carry))
    (fun i s => s.1.length = 64 ∧ (∀ j, i ≤ j → j < 64 → dg s.1 j = (nib (leVal a) j : Nat)) ∧ 0 ≤ s.2 ∧ s.2 ≤ 1 ∧ (∀ j < i, -8 ≤ dg s.1 j ∧ dg s.1 j ≤ 8) ∧
      ∑ j ∈ range i, dg s.1 j * 16 ^ j + s.2 * 16 ^ i = (leVal a % 16 ^ i : Nat)) 63 0 (e0, 0) (by
      rintro i ⟨s, c⟩ _ hi ⟨hl, hd, c0, c1, r, hs⟩
      dsimp only at hl hd c0 c1 r hs ⊢
      have hn := hd i (le_refl _) (by omega)
      have n16 : nib (leVal a) i < 16 := Nat.mod_lt _ (by decide)
      have e1 : i8 (dg s i + c) = dg s i + c := i8_id (by omega)
      have e2 : i8 (dg s i + c + 8) = dg s i + c + 8 := i8_id (by omega)
      obtain ⟨k, hk⟩ : ∃ k, k = (dg s i + c + 8) / 16 := ⟨_, rfl⟩
      have e3 : i8 (dg s i + c - k * 16) = dg s i + c - k * 16 := i8_id (by omega)
      refine ⟨(s.set i (dg s i + c - k * 16), k), ?_, by simp [hl], ?_, by omega, by omega, ?_, ?_⟩
      · rw [dg_rd (by omega), ok_bind]
        rw [e1, e2, ← hk, e3, wr_ok _ (by omega)]
        rfl
      · intro j h1 h2
        rw [dg_set (by omega), if_neg (by omega)]
        exact hd j (by omega) h2
      · intro j hj
        rw [dg_set (by omega)]
        split
        · omega
        · exact r j (by omega)
      · rw [sum_range_succ, dg_set (by omega), if_pos rfl]
        rw [sum_congr rfl (g := fun j => dg s j * 16 ^ j) (fun j hj => by
          rw [dg_set (by omega), if_neg (by have := mem_range.mp hj; omega)])]
        rw [pow_succ (16 : Int) i, pow_succ (16 : Nat) i, Nat.mod_mul]
        push_cast
        push_cast at hs
        rw [nib] at hn
        push_cast at hn
        have ht : ((leVal a : Int) / 16 ^ i % 16) = dg s i := hn.symm
        rw [ht, ← hs]
        ring) ⟨l0, fun j _ hj => d0 j hj, le_refl _, Int.zero_le_ofNat 1, by omega, by simp [Nat.mod_one]⟩
  dsimp only at l1 dd c0 c1 r hs
  have h63 := dd 63 (by omega) (by omega)
  have top : nib (leVal a) 63 ≤ 7 := by
    rw [nib]
    have : leVal a / 16 ^ 63 < 8 := Nat.div_lt_of_lt_mul (by exact hlt)
    omega
  have e3 : i8 (dg e 63 + c) = dg e 63 + c := i8_id (by omega)
  refine ⟨e.set 63 (dg e 63 + c), ?_, by simp [l1], ?_, ?_⟩
  · rw [recode, h0, ok_bind, h1, ok_bind]
    dsimp only
    rw [dg_rd (by omega), ok_bind, e3, wr_ok _ (by omega)]
  · intro i hi
    rw [dg_set (by omega)]
    split
    · omega
    · exact r i (by omega)
  · rw [sum_range_succ, dg_set (by omega), if_pos rfl]
    rw [sum_congr rfl (g := fun j => dg e j * 16 ^ j) (fun j hj => by
      rw [dg_set (by omega), if_neg (by have := mem_range.mp hj; omega)])]
    have hm : leVal a = leVal a % 16 ^ 63 + 16 ^ 63 * nib (leVal a) 63 := by
      rw [nib, Nat.mod_eq_of_lt (a := leVal a / 16 ^ 63)]
      · exact (Nat.mod_add_div _ _).symm
      · exact Nat.div_lt_of_lt_mul (by exact hlt.trans (by decide))
    have hm' : (leVal a : Int) = (leVal a % 16 ^ 63 : Nat) + 16 ^ 63 * (nib (leVal a) 63 : Nat) := by exact_mod_cast hm
    rw [hm', ← h63]
    have hs' : ∑ j ∈ range 63, dg e j * 16 ^ j + c * 16 ^ 63 = (leVal a % 16 ^ 63 : Nat) := hs
    rw [← hs']
    ring

/-! ### The sum -/

theorem base_row {i : Nat} (h : i < 32) : ∃ row, rd base i = .ok row ∧ row.length = 8 ∧ ∀ (j : Nat) (e : Pre), row[j]? = some e → e.Is ((j + 1) • (256 ^ i) • Bpt) := by
  have hl : i < base.length := by rw [show base.length = 32 from rfl]; exact h
  exact ⟨base[i], rd_ok hl, base_ok (List.getElem?_eq_getElem hl)⟩

theorem addDigit_ok {e : List Int} (hl : e.length = 64) {i : Nat} (hi : i < 64) (hd : -8 ≤ dg e i ∧ dg e i ≤ 8) {h : Ge3} {S : Pt} (H : h.Is S) :
    ∃ r, addDigit base e i h = .ok r ∧ r.Is (S + (dg e i * 256 ^ (i / 2)) • Bpt) := by
  obtain ⟨row, er, rl, rr⟩ := base_row (i := i / 2) (by omega)
  obtain ⟨t, et, ht⟩ := mov8_ok rl rr hd
  obtain ⟨g, eg, hg⟩ := addPre_ok H ht
  obtain ⟨r, er', hr⟩ := hg.toP3
  refine ⟨r, ?_, ?_⟩
  · rw [addDigit, er, ok_bind, dg_rd (by omega), ok_bind, et, ok_bind, eg, ok_bind, er']
  · convert hr using 2
    rw [mul_smul, ← natCast_zsmul]
    push_cast
    rfl

theorem sum_pairs (f : Nat → Int) : ∀ n, ∑ i ∈ range (2 * n), f i = ∑ k ∈ range n, f (2 * k) + ∑ k ∈ range n, f (2 * k + 1)
  | 0 => rfl
  | n + 1 => by
    rw [show 2 * (n + 1) = 2 * n + 1 + 1 by ring, sum_range_succ, sum_range_succ, sum_pairs f n, sum_range_succ, sum_range_succ]
    ring

/-- the multiple of the base point -/
theorem scalarBase_ok {a : List Byte} (ha : a.length = 32) (hlt : leVal a < 2 ^ 255) : ∃ h, scalarBase base a = .ok h ∧ h.Is (leVal a • Bpt) := by
  obtain ⟨e, ee, el, ed, es⟩ := recode_ok ha hlt
  obtain ⟨h1, e1, H1⟩ := loopN_inv (f := fun k h => addDigit base e (2 * k + 1) h)
    (fun k h => h.Is ((∑ j ∈ range k, dg e (2 * j + 1) * 256 ^ j) • Bpt)) 32 0 Ge3.zero (by
      intro k h _ hk H
      obtain ⟨r, er, hr⟩ := addDigit_ok el (i := 2 * k + 1) (by omega) (ed _ (by omega)) H
      refine ⟨r, er, ?_⟩
      rw [sum_range_succ, add_zsmul]
      rwa [show (2 * k + 1) / 2 = k by omega] at hr) (by simpa using Ge3.zero_is)
  obtain ⟨h2, e2, H2⟩ := mul16_ok H1
  obtain ⟨h3, e3, H3⟩ := loopN_inv (f := fun k h => addDigit base e (2 * k) h)
    (fun k h => h.Is ((16 : Int) • (∑ j ∈ range (0 + 32), dg e (2 * j + 1) * 256 ^ j) • Bpt + (∑ j ∈ range k, dg e (2 * j) * 256 ^ j) • Bpt)) 32 0 h2 (by
      intro k h _ hk H
      obtain ⟨r, er, hr⟩ := addDigit_ok el (i := 2 * k) (by omega) (ed _ (by omega)) H
      refine ⟨r, er, ?_⟩
      rw [sum_range_succ _ k, add_zsmul, ← add_assoc]
      rwa [show (2 * k) / 2 = k by omega] at hr) (by simpa using H2)
  refine ⟨h3, by rw [scalarBase, ee, ok_bind, e1, ok_bind, e2, ok_bind, e3], ?_⟩
  convert H3 using 1
  rw [← natCast_zsmul, ← es, show 64 = 2 * 32 from rfl, sum_pairs, ← mul_smul, ← add_zsmul, mul_sum, Nat.zero_add, add_comm]
  congr 2
  · exact sum_congr rfl fun k _ => by rw [show (256 : Int) = 16 ^ 2 from rfl, ← pow_mul, pow_succ]; ring

/-- the public key of a scalar -/
theorem ref10Base_ok {W : Nat} (hW : W = 32 ∨ W = 64) {q n : List Byte} (hq : q.length = 32) (hn : 32 ≤ n.length) :
    ref10Base base W q n = .ok (x25519 (n.take 32) (9 :: List.replicate 31 0)) := by
  obtain ⟨k, ek, hk, hkv⟩ := clamp_ok (n := n.take 32) (by rw [List.length_take]; omega)
  have hd := decodeScalar_ok (n.take 32)
  obtain ⟨h, eh, H⟩ := scalarBase_ok hk (by rw [hkv]; exact hd.1)
  obtain ⟨m, em, hm⟩ := toMont_ok H
  have hu : decodeU (9 :: List.replicate 31 0) = 9 := by decide +kernel
  have hx : ((x25519Nat (decodeScalar (n.take 32)) 9 : Nat) : Fp) = xc (decodeScalar (n.take 32) • Bpt) :=
    x25519Nat_xc hd.1 (kne (by decide) (by decide))
  rw [ref10Base, copyLoop hn hq, ok_bind, ek, ok_bind, eh, ok_bind, em, ok_bind, hm.toBytes hW hk, hkv, ← hx, ZMod.val_cast_of_lt (x25519Nat_lt _ _), x25519, hu]

end Cex.Ed25519
