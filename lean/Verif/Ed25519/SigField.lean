import Verif.Ed25519.ZeroTest
import Verif.Ed25519.Scalar
import Verif.Ed25519.ScBytes
import Verif.Lattice.Codec

/-!
# Encoding of points and the tests of `Verify`
-/

namespace Cex.Ed25519

open Cex.Ec25519 Cex.IntTools

theorem Is.toBytes' {W : Nat} (hW : W = 32 ∨ W = 64) {f : F10} {a : Fp} (hf : Is 1 f a) {s : List Byte} (hs : 32 ≤ s.length) :
    f.toBytes W s = .ok (leEnc 32 a.val ++ s.drop 32) := by
  have h := hf.toBytes hW (s := s.take 32) (by rw [List.length_take]; omega)
  rw [F10.toBytes] at h ⊢
  cases e : f.reduce W with
  | error x => rw [e] at h; cases h
  | ok t =>
    have hl : t.bytes.length = 32 := rfl
    rw [e, ok_bind, blit_ok (by rw [hl, List.length_take]; omega)] at h
    rw [ok_bind, blit_ok (by omega)]
    have h := Except.ok.inj h
    simp only [List.take_zero, List.nil_append, Nat.zero_add, hl] at h ⊢
    rw [← h]
    simp

theorem P_lt : P < 2 ^ 255 := by decide

theorem feIsZero_ok {W : Nat} (hW : W = 32 ∨ W = 64) {k : Nat} (hk : k ≤ 3) {f : F10} {a : Fp} (hf : Is k f a) : feIsZero W f = .ok (decide (a = 0)) := by
  obtain ⟨t, e, hc, hz⟩ := F10.reduce3_ok hW (hf.1.mono hk)
  have hl : t.bytes.length = 32 := rfl
  have hb := F10.bytes_ok hc
  rw [feIsZero, F10.toBytes, e, ok_bind, blit_ok (by rw [hl]; decide), ok_bind]
  simp only [List.take_zero, List.nil_append, Nat.zero_add, hl]
  rw [show (List.replicate 32 (0 : Byte)).drop 32 = [] from rfl, List.append_nil, isZero_ok hl, hb, leVal_leEnc]
  have hlt : 0 ≤ t.val ∧ t.val < 2 ^ 255 := by
    obtain ⟨⟨x0, y0⟩, ⟨x1, y1⟩, ⟨x2, y2⟩, ⟨x3, y3⟩, ⟨x4, y4⟩, ⟨x5, y5⟩, ⟨x6, y6⟩, ⟨x7, y7⟩, ⟨x8, y8⟩, ⟨x9, y9⟩⟩ := hc
    clear hz hb hl e
    simp only [F10.val, Int.reducePow] at *
    omega
  have h0 : t.val.toNat % 256 ^ 32 = 0 ↔ t.val = 0 := by
    rw [show (256 : Nat) ^ 32 = 2 ^ 256 from by decide]
    simp only [Int.reducePow, Nat.reducePow] at *
    omega
  have h1 : a = 0 ↔ f.val % P = 0 := by
    rw [← hf.2, ZMod.intCast_zmod_eq_zero_iff_dvd, Int.dvd_iff_emod_eq_zero]
  congr 1
  rw [decide_eq_decide, h0, hz, h1]

theorem and1 : ∀ b : Byte, b &&& 1 = BitVec.ofNat 8 (b.toNat % 2) := by decide +kernel

theorem feIsNegative_ok {W : Nat} (hW : W = 32 ∨ W = 64) {f : F10} {a : Fp} (hf : Is 1 f a) : feIsNegative W f = .ok (BitVec.ofNat 8 (a.val % 2)) := by
  rw [feIsNegative, hf.toBytes hW (by decide), ok_bind, leEnc]
  show Except.ok _ = _
  rw [and1, BitVec.toNat_ofNat, Nat.mod_mod_of_dvd _ (by decide)]

theorem fePow22523_ok {z : F10} {a : Fp} {k : Nat} (hz : Is k z a) (hk : k ≤ 3) : ∃ r, fePow22523 z = .ok r ∧ Is 1 r (a ^ (2 ^ 252 - 3)) := by
  have hz : z.Rep 3 (a.val : Int) := ⟨hz.rep.1.mono hk, hz.rep.2⟩
  generalize hx : (a.val : Int) = x at hz
  obtain ⟨t0, e0, h0⟩ : ∃ r, z.sq = .ok r ∧ r.Pw x (1 * 2) := by
    obtain ⟨r, e, h⟩ := hz.sq (by decide)
    exact ⟨r, e, by rw [F10.Pw, one_mul, pow_two]; exact h⟩
  obtain ⟨t1, e1, h1⟩ := h0.sq
  obtain ⟨t2, e2, h2⟩ := h1.sq
  obtain ⟨t3, e3, h3⟩ : ∃ r, z.mul t2 = .ok r ∧ r.Pw x (1 + 1 * 2 * 2 * 2) := by
    obtain ⟨r, e, h⟩ := hz.mul h2 (by decide) (by decide)
    exact ⟨r, e, by rw [F10.Pw, pow_add, pow_one]; exact h⟩
  obtain ⟨t4, e4, h4⟩ := h0.mul h3
  obtain ⟨t5, e5, h5⟩ := h4.sq
  obtain ⟨t6, e6, h6⟩ := h3.mul h5
  obtain ⟨t7, e7, h7⟩ := h6.sq
  obtain ⟨t8, e8, h8⟩ := h7.sqn 4
  obtain ⟨t9, e9, h9⟩ := h8.mul h6
  obtain ⟨t10, e10, h10⟩ := h9.sq
  obtain ⟨t11, e11, h11⟩ := h10.sqn 9
  obtain ⟨t12, e12, h12⟩ := h11.mul h9
  obtain ⟨t13, e13, h13⟩ := h12.sq
  obtain ⟨t14, e14, h14⟩ := h13.sqn 19
  obtain ⟨t15, e15, h15⟩ := h14.mul h12
  obtain ⟨t16, e16, h16⟩ := h15.sqn 10
  obtain ⟨t17, e17, h17⟩ := h16.mul h9
  obtain ⟨t18, e18, h18⟩ := h17.sq
  obtain ⟨t19, e19, h19⟩ := h18.sqn 49
  obtain ⟨t20, e20, h20⟩ := h19.mul h17
  obtain ⟨t21, e21, h21⟩ := h20.sq
  obtain ⟨t22, e22, h22⟩ := h21.sqn 99
  obtain ⟨t23, e23, h23⟩ := h22.mul h20
  obtain ⟨t24, e24, h24⟩ := h23.sqn 50
  obtain ⟨t25, e25, h25⟩ := h24.mul h17
  obtain ⟨t26, e26, h26⟩ := h25.sq
  obtain ⟨t27, e27, h27⟩ := h26.sq
  obtain ⟨t28, e28, h28⟩ := F10.Rep.mul h27 hz (by decide) (by decide)
  refine ⟨t28, ?_, ?_⟩
  · rw [fePow22523, e0, ok_bind, e1, ok_bind, e2, ok_bind, e3, ok_bind, e4, ok_bind, e5, ok_bind, e6, ok_bind, e7, ok_bind, e8, ok_bind,
      e9, ok_bind, e10, ok_bind, e11, ok_bind, e12, ok_bind, e13, ok_bind, e14, ok_bind, e15, ok_bind, e16, ok_bind, e17, ok_bind, e18, ok_bind,
      e19, ok_bind, e20, ok_bind, e21, ok_bind, e22, ok_bind, e23, ok_bind, e24, ok_bind, e25, ok_bind, e26, ok_bind, e27, ok_bind, e28]
  · rw [← pow_succ] at h28
    have : ∀ {e : Nat}, t28.Rep 1 (x ^ e) → e = 2 ^ 252 - 3 → Is 1 t28 (a ^ (2 ^ 252 - 3)) := fun h he => by
      have h := Is.ofRep h
      rw [he, Int.cast_pow, ← hx, Int.cast_natCast, ZMod.natCast_zmod_val] at h
      exact h
    exact this h28 (by norm_num)

/-! ### Encodings -/

/-- the 32 bytes of a point -/
def encPt (x y : Fp) : List Byte := leEnc 32 (y.val + 2 ^ 255 * (x.val % 2))

theorem encPt_len (x y : Fp) : (encPt x y).length = 32 := leEnc_length _ _

theorem xor7 : ∀ h b : Nat, h < 128 → b < 2 → (BitVec.ofNat 8 h ^^^ (BitVec.ofNat 8 b <<< 7) : Byte) = BitVec.ofNat 8 (h + 128 * b) := by
  have : ∀ h < 128, ∀ b < 2, (BitVec.ofNat 8 h ^^^ (BitVec.ofNat 8 b <<< 7) : Byte) = BitVec.ofNat 8 (h + 128 * b) := by decide +kernel
  exact fun h b hh hb => this h hh b hb

theorem enc_split {v : Nat} : leEnc 32 v = leEnc 31 (v % 256 ^ 31) ++ [BitVec.ofNat 8 (v / 256 ^ 31)] := by
  have := Lattice.leEnc_append (a := 31) (b := 1) (x := v % 256 ^ 31) (y := v / 256 ^ 31) (Nat.mod_lt _ (by decide))
  rw [Nat.mod_add_div] at this
  exact this

theorem toBytes_ok {W : Nat} (hW : W = 32 ∨ W = 64) {h : Ge2} {x y Z : Fp} (hZ : Z ≠ 0) (hx : Is 1 h.x (x * Z)) (hy : Is 1 h.y (y * Z)) (hz : Is 1 h.z Z)
    {s : List Byte} (hs : 32 ≤ s.length) : geToBytes W s h.x h.y h.z = .ok (encPt x y ++ s.drop 32) := by
  obtain ⟨r, er, hr⟩ := hz.invert (by decide)
  obtain ⟨X, eX, hX⟩ := hx.mul hr (by decide) (by decide)
  obtain ⟨Y, eY, hY⟩ := hy.mul hr (by decide) (by decide)
  have hX := hX.congr (show x * Z * Z⁻¹ = x by field_simp)
  have hY := hY.congr (show y * Z * Z⁻¹ = y by field_simp)
  have hv : y.val < 2 ^ 255 := (ZMod.val_lt y).trans P_lt
  rw [geToBytes, er, ok_bind, eX, ok_bind, eY, ok_bind, hY.toBytes' hW hs, ok_bind, feIsNegative_ok hW hX, enc_split (v := y.val)]
  have l31 : (leEnc 31 (y.val % 256 ^ 31)).length = 31 := leEnc_length _ _
  have hr : rd (leEnc 31 (y.val % 256 ^ 31) ++ [BitVec.ofNat 8 (y.val / 256 ^ 31)] ++ s.drop 32) 31 = .ok (BitVec.ofNat 8 (y.val / 256 ^ 31)) := by
    rw [rd_ok (by simp)]
    simp [l31]
  rw [hr, ok_bind, ok_bind, xor7 _ _ (by
    have := hv
    rw [Nat.div_lt_iff_lt_mul (by decide), show 128 * 256 ^ 31 = 2 ^ 255 by decide]; exact this) (Nat.mod_lt _ (by decide)), wr_ok _ (by simp)]
  congr 1
  rw [encPt, enc_split (v := y.val + _), List.append_assoc, List.set_append_right _ _ (by rw [l31]), l31, Nat.sub_self]
  have a1 : (y.val + 2 ^ 255 * (x.val % 2)) % 256 ^ 31 = y.val % 256 ^ 31 := by
    rw [show (2 : Nat) ^ 255 = 256 ^ 31 * 128 by decide, Nat.mul_assoc, Nat.add_mul_mod_self_left]
  have a2 : (y.val + 2 ^ 255 * (x.val % 2)) / 256 ^ 31 = y.val / 256 ^ 31 + 128 * (x.val % 2) := by
    rw [show (2 : Nat) ^ 255 = 256 ^ 31 * 128 by decide, Nat.mul_assoc, Nat.add_mul_div_left _ _ (by decide)]
  rw [a1, a2, List.append_assoc]
  rfl

/-- the encoding of a point of the group -/
theorem Ge2.Is.toBytes {W : Nat} (hW : W = 32 ∨ W = 64) {h : Ge2} {S : Pt} (H : h.Is S) {x y : Fp} (e : EdP S x y) {s : List Byte} (hs : 32 ≤ s.length) :
    geToBytes W s h.x h.y h.z = .ok (encPt x y ++ s.drop 32) := by
  obtain ⟨x', y', Z, e', hZ, hx, hy, hz⟩ := H
  obtain ⟨rfl, rfl⟩ := Ed.inj consts e e'
  exact toBytes_ok hW hZ hx hy hz hs

theorem encPt_val (x y : Fp) : leVal (encPt x y) = y.val + 2 ^ 255 * (x.val % 2) := by
  have h2 := (ZMod.val_lt y).trans P_lt
  rw [encPt, leVal_leEnc, Nat.mod_eq_of_lt]
  rw [show (256 : Nat) ^ 32 = 2 ^ 256 by decide]; simp only [Nat.reducePow] at *; omega

theorem encPt_inj {x y x' y' : Fp} (h : encPt x y = encPt x' y') : y = y' ∧ x.val % 2 = x'.val % 2 := by
  have h := congrArg leVal h
  rw [encPt_val, encPt_val] at h
  have h1 := (ZMod.val_lt y).trans P_lt
  have h2 := (ZMod.val_lt y').trans P_lt
  have : y.val = y'.val ∧ x.val % 2 = x'.val % 2 := by simp only [Nat.reducePow] at *; omega
  exact ⟨ZMod.val_injective _ this.1, this.2⟩

/-! ### The tests -/

theorem geSmallOrder_ok {p : List Byte} (h : 32 ≤ p.length) : geSmallOrder p = .ok (decide (leVal (p.take 32) % 2 ^ 255 = 0)) := by
  rw [← smallOrder_ok h]
  rfl

theorem leVal_max_iff {q : List Byte} : leVal q + 1 = 256 ^ q.length ↔ ∀ i < q.length, (q[i]?).getD 0 = 255 := by
  induction q with
  | nil => simp [leVal]
  | cons a q ih =>
    have hl := leVal_lt q
    have ha := a.isLt
    rw [leVal, List.length_cons, Nat.pow_succ]
    constructor
    · intro h i hi
      cases i with
      | zero =>
        have : a.toNat = 255 := by omega
        simpa using BitVec.eq_of_toNat_eq (y := 255#8) this
      | succ i =>
        have := ih.mp (by omega) i (by simpa using hi)
        simpa using this
    · intro h
      have h0 := h 0 (by simp)
      have h1 := ih.mpr (fun i hi => by simpa using h (i + 1) (by simpa using hi))
      have : a = 255 := by simpa using h0
      have : a.toNat = 255 := by rw [this]; rfl
      omega

theorem or_loop' {m : Nat} (g : Nat → M Byte) (v : Nat → Byte) (hg : ∀ i < m, g i = .ok (v i)) (d0 : Byte) :
    ∃ d, loopN m 0 (fun i d => do return d ||| (← g i)) d0 = .ok d ∧ (d = 0 ↔ d0 = 0 ∧ ∀ i < m, v i = 0) := by
  obtain ⟨d, e, h⟩ := loopN_inv (f := fun i d => (do return d ||| (← g i) : M Byte))
    (fun i (d : Byte) => d = 0 ↔ d0 = 0 ∧ ∀ j < i, v j = 0) m 0 d0
    (fun i d _ hi hd => by
      refine ⟨d ||| v i, by rw [hg i (by omega)]; rfl, ?_⟩
      rw [show d ||| v i = 0 ↔ d = 0 ∧ v i = 0 from BitVec.or_eq_zero_iff, hd]
      constructor
      · rintro ⟨⟨a, b⟩, c⟩
        refine ⟨a, fun j hj => ?_⟩
        rcases Nat.lt_succ_iff_lt_or_eq.mp hj with h | rfl
        · exact b j h
        · exact c
      · rintro ⟨a, b⟩
        exact ⟨⟨a, fun j hj => b j (by omega)⟩, b i (by omega)⟩)
    (by simp)
  rw [Nat.zero_add] at h
  exact ⟨d, e, h⟩

theorem canonC : ∀ c : Byte, ((((c.setWidth 32 : BitVec 32) - 1) >>> 8).setWidth 8 : Byte) = if c = 0 then 255 else 0 := by decide +kernel
theorem canonD : ∀ c : Byte, ((((0xed : BitVec 32) - 1 - (c.setWidth 32 : BitVec 32)) >>> 8).setWidth 8 : Byte) = if c.toNat < 0xed then 0 else 255 := by decide +kernel
theorem xorff : ∀ b : Byte, b ^^^ 0xff = 0 ↔ b = 255 := by decide +kernel
theorem and7fx : ∀ b : Byte, (b &&& 0x7f) ^^^ 0x7f = 0 ↔ b.toNat % 128 = 127 := by decide +kernel

theorem geIsCanonical_ok {s : List Byte} (h : 32 ≤ s.length) : geIsCanonical s = .ok (decide (leVal (s.take 32) % 2 ^ 255 < P)) := by
  obtain ⟨c, e, hc⟩ := or_loop' (m := 30) (fun j => do return (← rd s (30 - j)) ^^^ 0xff) (fun j => (s[30 - j]?).getD 0 ^^^ 0xff) (fun i hi => by
    rw [rd_ok (by omega), List.getElem?_eq_getElem (by omega)]; rfl) (((s[31]'(by omega)) &&& 0x7f) ^^^ 0x7f)
  have e' : loopN 30 0 (fun j c => do return c ||| ((← rd s (30 - j)) ^^^ 0xff)) (((s[31]'(by omega)) &&& 0x7f) ^^^ 0x7f) = .ok c := by
    rw [← e]
    congr 1
    funext i c
    cases rd s (30 - i) <;> rfl
  rw [geIsCanonical, rd_ok (by omega), ok_bind]
  dsimp only
  rw [e', ok_bind, rd_ok (by omega), ok_bind, canonC, canonD, pure_eq_ok]
  congr 1
  have hm : (∀ i < 30, (s[30 - i]?).getD 0 ^^^ 0xff = 0) ↔ leVal ((s.drop 1).take 30) + 1 = 256 ^ 30 := by
    have hl : ((s.drop 1).take 30).length = 30 := by rw [List.length_take, List.length_drop]; omega
    have := leVal_max_iff (q := (s.drop 1).take 30)
    rw [hl] at this
    rw [this]
    constructor
    · intro a i hi
      have := a (29 - i) (by omega)
      rw [xorff] at this
      rw [List.getElem?_take_of_lt hi, List.getElem?_drop, show 1 + i = 30 - (29 - i) by omega]
      exact this
    · intro a i hi
      have := a (29 - i) (by omega)
      rw [List.getElem?_take_of_lt (by omega), List.getElem?_drop, show 1 + (29 - i) = 30 - i by omega] at this
      rw [xorff]; exact this
  rw [and7fx, hm] at hc
  have hv : leVal (s.take 32) = (s[0]'(by omega)).toNat + 256 * (leVal ((s.drop 1).take 30) + 256 ^ 30 * (s[31]'(by omega)).toNat) := by
    have h1 : s.take 32 = [s[0]'(by omega)] ++ (s.drop 1).take 30 ++ [s[31]'(by omega)] := by
      apply List.ext_getElem
      · simp; omega
      · intro i h1 h2
        have hi : i < 32 := by rw [List.length_take] at h1; omega
        rcases Nat.lt_or_ge i 1 with hc | hc
        · have : i = 0 := by omega
          subst this
          simp
        · rcases Nat.lt_or_ge i 31 with hd | hd
          · rw [List.getElem_append_left (by simp; omega), List.getElem_append_right (by simpa using hc)]
            simp only [List.getElem_take, List.getElem_drop, List.length_singleton]
            congr 1; omega
          · have : i = 31 := by omega
            subst this
            rw [List.getElem_append_right (by simp)]
            simp
    rw [h1, leVal_append, leVal_append]
    simp only [List.length_append, List.length_singleton, List.length_take, List.length_drop, leVal]
    rw [show min 30 (s.length - 1) = 30 by omega]
    ring
  have hM := leVal_lt ((s.drop 1).take 30)
  rw [List.length_take, List.length_drop, show min 30 (s.length - 1) = 30 by omega] at hM
  rw [hv]
  have b0 := (s[0]'(by omega)).isLt
  have b31 := (s[31]'(by omega)).isLt
  generalize leVal ((s.drop 1).take 30) = M at *
  generalize (s[0]'(by omega)).toNat = x at *
  generalize (s[31]'(by omega)).toNat = z at *
  have key : (256 * (M + 256 ^ 30 * z) + x) % 2 ^ 255 < P ↔ ¬ (c = 0 ∧ ¬ x < 0xed) := by
    rw [hc, show P = 2 ^ 255 - 19 by decide]
    simp only [Nat.reducePow, Nat.reduceSub] at *
    omega
  rw [Nat.add_comm x]
  by_cases h1 : c = 0 <;> by_cases h2 : x < 0xed
  all_goals
    simp only [h1, h2, if_true, if_false, not_true, not_false_iff, and_self, and_true, true_and, false_and, and_false, iff_true, iff_false] at key ⊢
    simp only [key, decide_true, decide_false]
    decide

theorem cmpC : ∀ x l : Byte, BitVec.ofInt 8 (((x.toNat : Int) - (l.toNat : Int)) / 256) = if x.toNat < l.toNat then 255 else (0 : Byte) := by
  intro x l
  have hx := x.isLt
  have hl := l.isLt
  by_cases h : x.toNat < l.toNat
  · rw [if_pos h, show ((x.toNat : Int) - (l.toNat : Int)) / 256 = -1 by omega]; rfl
  · rw [if_neg h, show ((x.toNat : Int) - (l.toNat : Int)) / 256 = 0 by omega]; rfl

theorem cmpN (x l : Byte) : BitVec.ofInt 8 ((((x ^^^ l).toNat : Int) - 1) / 256) = if x.toNat = l.toNat then 255 else (0 : Byte) := by
  have hx := (x ^^^ l).isLt
  have hz : (x ^^^ l).toNat = 0 ↔ x.toNat = l.toNat := by
    constructor
    · intro h
      have h : x = l := BitVec.xor_eq_zero_iff.mp (BitVec.eq_of_toNat_eq h)
      rw [h]
    · intro h
      rw [BitVec.eq_of_toNat_eq h, BitVec.xor_self]; rfl
  by_cases h : x.toNat = l.toNat
  · rw [if_pos h, hz.mpr h]; rfl
  · rw [if_neg h, show (((x ^^^ l).toNat : Int) - 1) / 256 = 0 by rw [← hz] at h; omega]; rfl

theorem cmp_dead (a b : Byte) {c : Byte} (_ : c = 0 ∨ c = 1) : c ||| (a &&& 0) = c ∧ (0 : Byte) &&& b = 0 := by
  constructor
  · have : a &&& 0 = 0 := BitVec.and_zero
    rw [this]; exact BitVec.or_zero
  · exact BitVec.zero_and

theorem orderBytes_val : leVal orderBytes = L := by decide +kernel

theorem scIsCanonical_ok {s : List Byte} {off : Nat} (h : off + 32 ≤ s.length) : scIsCanonical s off = .ok (decide (leVal ((s.drop off).take 32) < L)) := by
  obtain ⟨t, ht⟩ : ∃ t, t = (s.drop off).take 32 := ⟨_, rfl⟩
  have tl : t.length = 32 := by rw [ht, List.length_take, List.length_drop]; omega
  have tr : ∀ i < 32, rd s (off + i) = rd t i := fun i hi => by
    rw [rd, rd, ht, List.getElem?_take_of_lt hi, List.getElem?_drop]
  obtain ⟨r, e, hr1, hr2⟩ := loopN_inv (f := fun j (st : Byte × Byte) => (do
      let i := 31 - j
      let x ← rd s (off + i)
      let l ← rd orderBytes i
      let c := st.1 ||| (BitVec.ofInt 8 (((x.toNat : Int) - (l.toNat : Int)) / 256) &&& st.2)
      let n := st.2 &&& BitVec.ofInt 8 ((((x ^^^ l).toNat : Int) - 1) / 256)
      return (c, n) : M (Byte × Byte)))
    (fun j st => st.1 = (if leVal t / 256 ^ (32 - j) < leVal orderBytes / 256 ^ (32 - j) then 1 else 0) ∧
      st.2 = (if leVal t / 256 ^ (32 - j) = leVal orderBytes / 256 ^ (32 - j) then 1 else 0)) 32 0 ((0 : Byte), (1 : Byte))
    (fun j st _ hj hs => by
      dsimp only
      have h1 : 31 - j < t.length := by omega
      have h2 : 31 - j < orderBytes.length := by show _ < 32; omega
      have d1 := byteAt_val h1
      have d2 := byteAt_val h2
      rw [byteAt_eq h1] at d1
      rw [byteAt_eq h2] at d2
      rw [tr _ (by omega), rd_ok h1, ok_bind, rd_ok h2, ok_bind, cmpC, cmpN]
      refine ⟨_, rfl, ?_⟩
      dsimp only
      rw [hs.1, hs.2, d1, d2]
      have s1 : ∀ v : Nat, v / 256 ^ (32 - (j + 1)) = 256 * (v / 256 ^ (32 - j)) + v / 256 ^ (31 - j) % 256 := fun v => by
        rw [show 32 - j = 31 - j + 1 by omega, Nat.pow_succ, ← Nat.div_div_eq_div_mul, show 32 - (j + 1) = 31 - j by omega]
        omega
      rw [s1 (leVal t), s1 (leVal orderBytes)]
      have m1 := Nat.mod_lt (leVal t / 256 ^ (31 - j)) (show 256 > 0 by decide)
      have m2 := Nat.mod_lt (leVal orderBytes / 256 ^ (31 - j)) (show 256 > 0 by decide)
      generalize leVal t / 256 ^ (31 - j) % 256 = x at *
      generalize leVal orderBytes / 256 ^ (31 - j) % 256 = l at *
      generalize leVal t / 256 ^ (32 - j) = T at *
      generalize leVal orderBytes / 256 ^ (32 - j) = O at *
      by_cases hlt : T < O
      · rw [if_pos hlt, if_neg (by omega : ¬ T = O), if_pos (by omega : 256 * T + x < 256 * O + l), if_neg (by omega : ¬ 256 * T + x = 256 * O + l)]
        exact cmp_dead _ _ (.inr rfl)
      · by_cases heq : T = O
        · subst heq
          rw [if_neg (Nat.lt_irrefl T), if_pos rfl]
          by_cases a : x < l
          · rw [if_pos a, if_neg (by omega : ¬ x = l), if_pos (by omega), if_neg (by omega)]; decide
          · by_cases b : x = l
            · subst b
              rw [if_neg (Nat.lt_irrefl x), if_pos rfl, if_neg (Nat.lt_irrefl _), if_pos rfl]; decide
            · rw [if_neg a, if_neg b, if_neg (by omega), if_neg (by omega)]; decide
        · rw [if_neg hlt, if_neg heq, if_neg (by omega : ¬ 256 * T + x < 256 * O + l), if_neg (by omega : ¬ 256 * T + x = 256 * O + l)]
          exact cmp_dead _ _ (.inl rfl))
    (by
      have h1 := leVal_lt t
      rw [tl] at h1
      rw [Nat.sub_zero, Nat.div_eq_of_lt h1, Nat.div_eq_of_lt (by rw [orderBytes_val]; decide)]
      exact ⟨rfl, rfl⟩)
  rw [scIsCanonical, e, ok_bind, hr1, ← ht]
  simp only [Nat.zero_add, Nat.sub_self, Nat.pow_zero, Nat.div_one, orderBytes_val]
  by_cases h : leVal t < L
  · rw [if_pos h, decide_eq_true h]; rfl
  · rw [if_neg h, decide_eq_false h]; rfl

theorem and240 : ∀ b : Byte, b &&& 240 = 0 ↔ b.toNat < 16 := by decide +kernel

theorem badScalar_ok {sig : List Byte} (h : 64 ≤ sig.length) : badScalar sig = .ok (decide (L ≤ leVal ((sig.drop 32).take 32))) := by
  have hl : ((sig.drop 32).take 32).length = 32 := by rw [List.length_take, List.length_drop]; omega
  rw [badScalar, rd_ok (by omega), ok_bind]
  by_cases c : (sig[63]'(by omega)) &&& 240 = 0
  · rw [if_pos c]
    have hv := byteAt_val (s := (sig.drop 32).take 32) (i := 31) (by omega)
    rw [byteAt_eq (by omega)] at hv
    have : (((sig.drop 32).take 32)[31]'(by omega)) = sig[63]'(by omega) := by simp
    rw [this] at hv
    rw [and240, hv] at c
    have hlt := leVal_lt ((sig.drop 32).take 32)
    rw [hl] at hlt
    have : leVal ((sig.drop 32).take 32) < L := by
      generalize leVal ((sig.drop 32).take 32) = v at *
      have : (2 : Nat) ^ 252 ≤ L := by decide
      simp only [Nat.reducePow] at *
      omega
    rw [decide_eq_false (by omega)]; rfl
  · rw [if_neg c, scIsCanonical_ok (by omega), ok_bind, pure_eq_ok]
    congr 1
    by_cases h : leVal ((sig.drop 32).take 32) < L
    · rw [decide_eq_true h, decide_eq_false (by omega)]; rfl
    · rw [decide_eq_false h, decide_eq_true (by omega)]; rfl

theorem verC (d : Byte) : ((((d.toNat : Int) - 1) / 256) % 2 == 1) = decide (d = 0) := by
  have hd := d.isLt
  by_cases h : d = 0
  · subst h; decide
  · have : d.toNat ≠ 0 := fun z => h (BitVec.eq_of_toNat_eq z)
    rw [decide_eq_false h, show (((d.toNat : Int) - 1) / 256) = 0 by omega]; rfl

theorem scVerify_ok {x y : List Byte} {n : Nat} (hx : n ≤ x.length) (hy : n ≤ y.length) : scVerify x y n = .ok (decide (x.take n = y.take n)) := by
  obtain ⟨d, e, hd⟩ := or_loop' (m := n) (fun i => do return (← rd x i) ^^^ (← rd y i)) (fun i => (x[i]?).getD 0 ^^^ (y[i]?).getD 0) (fun i hi => by
    rw [rd_ok (by omega), ok_bind, rd_ok (by omega), List.getElem?_eq_getElem (by omega), List.getElem?_eq_getElem (by omega)]; rfl) 0
  have e' : loopN n 0 (fun i d => do return d ||| ((← rd x i) ^^^ (← rd y i))) (0 : Byte) = .ok d := by
    rw [← e]
    congr 1
    funext i c
    cases rd x i <;> [rfl; (cases rd y i <;> rfl)]
  rw [scVerify, e', ok_bind, verC, pure_eq_ok]
  congr 1
  rw [decide_eq_decide, hd]
  constructor
  · rintro ⟨-, a⟩
    apply List.ext_getElem (by rw [List.length_take, List.length_take]; omega)
    intro i h1 h2
    have hi : i < n := by rw [List.length_take] at h1; omega
    have := a i hi
    rw [show (x[i]?).getD 0 ^^^ (y[i]?).getD 0 = 0 ↔ (x[i]?).getD 0 = (y[i]?).getD 0 from BitVec.xor_eq_zero_iff, List.getElem?_eq_getElem (by omega), List.getElem?_eq_getElem (by omega)] at this
    rw [List.getElem_take, List.getElem_take]
    exact this
  · intro a
    refine ⟨rfl, fun i hi => ?_⟩
    have : (x.take n)[i]? = (y.take n)[i]? := by rw [a]
    rw [List.getElem?_take_of_lt hi, List.getElem?_take_of_lt hi] at this
    rw [this, BitVec.xor_self]
    rfl

theorem clamp_append {n q : List Byte} (h : n.length = 32) (hq : clamp n = .ok q) (r : List Byte) : clamp (n ++ r) = .ok (q ++ r) := by
  have h0 : 0 < n.length := by omega
  have h31 : 31 < n.length := by omega
  have hr : ∀ {a : List Byte} {i : Nat}, i < a.length → rd (a ++ r) i = rd a i := fun {a i} hi => by
    rw [rd_ok hi, rd_ok (by rw [List.length_append]; omega), List.getElem_append_left]
  have hw : ∀ {a : List Byte} {i : Nat} (v : Byte), i < a.length → wr (a ++ r) i v = .ok (a.set i v ++ r) := fun {a i} v hi => by
    rw [wr_ok _ (by rw [List.length_append]; omega), List.set_append_left _ _ hi]
  rw [clamp, rd_ok h0, ok_bind, wr_ok _ h0, ok_bind, rd_ok (by simp; omega), ok_bind, wr_ok _ (by simp; omega), ok_bind, rd_ok (by simp; omega), ok_bind, wr_ok _ (by simp; omega)] at hq
  rw [clamp, hr h0, rd_ok h0, ok_bind, hw _ h0, ok_bind, hr (by simp; omega), rd_ok (by simp; omega), ok_bind, hw _ (by simp; omega), ok_bind, hr (by simp; omega),
    rd_ok (by simp; omega), ok_bind, hw _ (by simp; omega), ← Except.ok.inj hq]

end Cex.Ed25519
