import Verif.Ed25519.SigField
import Verif.Ed25519.TableCheck

/-!
# Decoding of points
-/

namespace Cex.Ed25519

open WeierstrassCurve WeierstrassCurve.Affine Cex.Ec25519 Cex.IntTools

/-- the Edwards curve of RFC 8032 -/
def OnEd (x y : Fp) : Prop := -x ^ 2 + y ^ 2 = 1 + (dN : Fp) * x ^ 2 * y ^ 2

theorem d_ne (z : Fp) : (dN : Fp) * z ^ 2 + 1 ≠ 0 := by
  intro h
  have i0 : (iN : Fp) ^ 2 = -1 := consts.hi
  have z0 : z ≠ 0 := by rintro rfl; simp at h
  apply consts.ns (iN / z)
  field_simp
  linear_combination i0 - h

/-- every pair of coordinates belongs to a point -/
theorem ed_surj {x y : Fp} (h : OnEd x y) : ∃ S, EdP S x y := by
  rw [OnEd] at h
  by_cases hx : x = 0
  · subst hx
    have : (y - 1) * (y + 1) = 0 := by linear_combination h
    rcases mul_eq_zero.mp this with h1 | h1
    · exact ⟨0, rfl, by linear_combination h1⟩
    · refine ⟨Point.some 0 0 (mont_nonsingular k2 kA (by ring)), .inl ⟨rfl, rfl, by linear_combination h1⟩⟩
  · have hd := d_ne 1
    have hy : y ^ 2 ≠ 1 := by
      intro e
      have : x ^ 2 * ((dN : Fp) * 1 ^ 2 + 1) = 0 := by linear_combination (1 - dN * x ^ 2) * e - h
      exact mul_ne_zero (pow_ne_zero 2 hx) hd this
    have h1 : 1 - y ≠ 0 := fun e => hy (by linear_combination (-1 - y) * e)
    have h2 : 1 + y ≠ 0 := fun e => hy (by linear_combination (y - 1) * e)
    have hc := consts.hc
    have hdc := consts.hd
    have key : (cN * ((1 + y) / (1 - y)) / x : Fp) ^ 2 = ((1 + y) / (1 - y)) ^ 3 + 486662 * ((1 + y) / (1 - y)) ^ 2 + (1 + y) / (1 - y) := by
      field_simp
      have e : (cN : Fp) ^ 2 * (y ^ 2 - 1) = x ^ 2 * (-(486662 + 2) + (486662 - 2) * y ^ 2) := by
        linear_combination (cN : Fp) ^ 2 * h + x ^ 2 * hc + x ^ 2 * y ^ 2 * hdc
      linear_combination (-1) * e
    have u0 : (1 + y) / (1 - y) ≠ 0 := div_ne_zero h2 h1
    refine ⟨Point.some _ _ (mont_nonsingular k2 kA key), .inr ⟨u0, ?_, ?_⟩⟩
    · field_simp
    · field_simp
      ring

/-- the coordinates determine the point -/
theorem ed_unique {S T : Pt} {x y : Fp} (h : EdP S x y) (h' : EdP T x y) : S = T := by
  obtain ⟨n1, n2, e⟩ := h.add h'.neg
  have cv : -x ^ 2 + y ^ 2 = 1 + (dN : Fp) * x ^ 2 * y ^ 2 := Ed.curve consts h
  have e : EdP (S + -T) 0 1 := by
    convert e using 1
    · rw [show x * y + y * -x = 0 by ring, zero_div]
    · symm
      rw [div_eq_iff n2]
      linear_combination cv
  have : S + -T = 0 := by
    generalize S + -T = R at e
    match R, e with
    | .zero, _ => rfl
    | .some u v hn, .inl ⟨_, _, e⟩ => exact absurd (by linear_combination e : (2 : Fp) = 0) k2
    | .some u v hn, .inr ⟨hu, e, _⟩ =>
      have : (cN : Fp) * u = 0 := by linear_combination -e
      exact absurd this (mul_ne_zero consts.c0 hu)
  exact add_neg_eq_zero.mp this

theorem feD_is : Is 1 feD (dN : Fp) := (bdB_is (by decide +kernel)).congr (nat_eq (by decide +kernel))
theorem feSqrtM1_is : Is 1 feSqrtM1 (iN : Fp) := (bdB_is (by decide +kernel)).congr (nat_eq (by decide +kernel))
theorem feD2_is : Is 1 feD2 (2 * dN : Fp) := (bdB_is (by decide +kernel)).congr (by
  have := nat_eq (a := res feD2) (b := 2 * dN) (by decide +kernel)
  rw [this]; push_cast; rfl)

theorem fromBytes_is {s : List Byte} (h : 32 ≤ s.length) : ∃ r, F10.fromBytes s = .ok r ∧ Is 1 r ((leVal (s.take 32) % 2 ^ 255 : Nat) : Fp) := by
  obtain ⟨r, e, hb, c, hv⟩ := F10.fromBytes_ok h
  refine ⟨r, e, hb, ?_⟩
  rw [hv, Int.cast_sub, Int.cast_mul, zP, mul_zero, sub_zero, Int.cast_natCast]

theorem geRoot_ok {W : Nat} (hW : W = 32 ∨ W = 64) {fu fv fx : F10} {u v x : Fp} (hu : Is 2 fu u) (hv : Is 2 fv v) (hx : Is 1 fx x) :
    (v * x ^ 2 = u ∧ geRoot W fu fv fx = .ok (some fx)) ∨ (v * x ^ 2 = -u ∧ ∃ r, geRoot W fu fv fx = .ok (some r) ∧ Is 1 r (x * iN)) ∨
    (v * x ^ 2 ≠ u ∧ v * x ^ 2 ≠ -u ∧ geRoot W fu fv fx = .ok none) := by
  obtain ⟨a, ea, ha⟩ := hx.sq (by decide)
  obtain ⟨b, eb, hb⟩ := ha.mul hv (by decide) (by decide)
  obtain ⟨m, em, hm⟩ := hb.sub hu (by decide)
  obtain ⟨p, ep, hp⟩ := hb.add hu (by decide)
  obtain ⟨r, er, hr⟩ := hx.mul feSqrtM1_is (by decide) (by decide)
  have e1 : geRoot W fu fv fx = (do
      if (decide (x * x * v - u = 0)) then return some fx
      let p ← b.add fu
      if ← feIsZero W p then return some (← fx.mul feSqrtM1) else return none) := by
    rw [geRoot, ea, ok_bind, eb, ok_bind, em, ok_bind, feIsZero_ok hW (by decide) hm, ok_bind]
  rw [e1]
  by_cases h1 : v * x ^ 2 = u
  · refine .inl ⟨h1, ?_⟩
    rw [decide_eq_true (by linear_combination h1), if_pos rfl]
    rfl
  · right
    rw [decide_eq_false (fun e => h1 (by linear_combination e)), if_neg (by decide), ep, ok_bind, feIsZero_ok hW (by decide) hp, ok_bind]
    by_cases h2 : v * x ^ 2 = -u
    · refine .inl ⟨h2, r, ?_, hr⟩
      rw [decide_eq_true (by linear_combination h2), if_pos rfl, er, ok_bind]
      rfl
    · refine .inr ⟨h1, h2, ?_⟩
      rw [decide_eq_false (fun e => h2 (by linear_combination e)), if_neg (by decide)]
      rfl

theorem shr7 : ∀ b : Byte, b >>> 7 = BitVec.ofNat 8 (b.toNat / 128) := by decide +kernel

theorem neg_val {x : Fp} (h : x ≠ 0) : (-x).val = P - x.val := by
  rw [ZMod.neg_val, if_neg h]

theorem neg_parity {x : Fp} (h : x ≠ 0) : (-x).val % 2 = 1 - x.val % 2 := by
  rw [neg_val h]
  have h1 := ZMod.val_lt x
  have : P % 2 = 1 := by decide
  omega

theorem sign_bit {s : List Byte} (h : 32 ≤ s.length) : leVal (s.take 32) / 2 ^ 255 = (s[31]'(by omega)).toNat / 128 ∧ leVal (s.take 32) / 2 ^ 255 < 2 := by
  have hl := leVal_lt (s.take 31)
  rw [List.length_take, Nat.min_eq_left (by omega)] at hl
  rw [take32_split h]
  have hb := (s[31]'(by omega)).isLt
  generalize leVal (s.take 31) = v at *
  generalize (s[31]'(by omega)).toNat = b at *
  simp only [Nat.reducePow] at *
  omega

theorem geSign_ok {W : Nat} (hW : W = 32 ∨ W = 64) {s : List Byte} (h : 32 ≤ s.length) {fx : F10} {x : Fp} (hx : Is 1 fx x) :
    ∃ r z, geSign W s fx = .ok r ∧ Is 1 r (-z) ∧ (z = 0 ∨ z.val % 2 = leVal (s.take 32) / 2 ^ 255) ∧ (z = x ∨ z = -x) := by
  obtain ⟨e1, e2⟩ := sign_bit h
  have hm := Nat.mod_lt x.val (show 2 > 0 by decide)
  obtain ⟨g, eg, hg⟩ := hx.neg (by decide)
  have hi : (BitVec.ofNat 8 (x.val % 2) : Byte) = BitVec.ofNat 8 (leVal (s.take 32) / 2 ^ 255) ↔ x.val % 2 = leVal (s.take 32) / 2 ^ 255 := by
    constructor
    · intro a
      have := congrArg BitVec.toNat a
      rw [BitVec.toNat_ofNat, BitVec.toNat_ofNat] at this
      generalize x.val % 2 = m at *
      generalize leVal (s.take 32) / 2 ^ 255 = n at *
      rw [Nat.mod_eq_of_lt (by omega), Nat.mod_eq_of_lt (by omega)] at this
      exact this
    · intro a; rw [a]
  rw [geSign, feIsNegative_ok hW hx, ok_bind, rd_ok (by omega), ok_bind, shr7, ← e1]
  by_cases c : x.val % 2 = leVal (s.take 32) / 2 ^ 255
  · refine ⟨g, x, ?_, hg, .inr c, .inl rfl⟩
    rw [if_pos (hi.mpr c), eg]
  · refine ⟨fx, -x, ?_, hx.congr (neg_neg x).symm, ?_, .inr rfl⟩
    · rw [if_neg (fun e => c (hi.mp e))]; rfl
    · by_cases h0 : x = 0
      · exact .inl (by rw [h0, neg_zero])
      · right
        rw [neg_parity h0]
        omega

/-- decoding: a point with the given coordinate and sign, or no point has this coordinate -/
theorem geFromBytesNeg_ok {W : Nat} (hW : W = 32 ∨ W = 64) {s : List Byte} (h : 32 ≤ s.length) :
    (∃ x S A, geFromBytesNeg W s = .ok (some A) ∧ EdP S x ((leVal (s.take 32) % 2 ^ 255 : Nat) : Fp) ∧ A.Is (-S) ∧
      (x = 0 ∨ x.val % 2 = leVal (s.take 32) / 2 ^ 255)) ∨
    (geFromBytesNeg W s = .ok none ∧ ∀ x, ¬ OnEd x ((leVal (s.take 32) % 2 ^ 255 : Nat) : Fp)) := by
  obtain ⟨fy, ey, hy⟩ := fromBytes_is h
  generalize ((leVal (s.take 32) % 2 ^ 255 : Nat) : Fp) = y at *
  obtain ⟨a, ea, ha⟩ := hy.sq (by decide)
  obtain ⟨b, eb, hb⟩ := ha.mul feD_is (by decide) (by decide)
  obtain ⟨fu, eu, hu⟩ := ha.sub one_is (by decide)
  obtain ⟨fv, ev, hv⟩ := hb.add one_is (by decide)
  have hv0 : y * y * dN + 1 ≠ 0 := fun e => d_ne y (by linear_combination e)
  have hOn : ∀ x, OnEd x y ↔ (y * y * dN + 1) * x ^ 2 = y * y - 1 := fun x => by
    rw [OnEd]
    constructor <;> intro e <;> linear_combination -e
  generalize hu' : y * y - 1 = u at *
  generalize hv' : y * y * (dN : Fp) + 1 = v at *
  obtain ⟨c, ec, hc⟩ := hv.sq (by decide)
  obtain ⟨v3, e3, h3⟩ := hc.mul hv (by decide) (by decide)
  obtain ⟨f, ef, hf⟩ := h3.sq (by decide)
  obtain ⟨g, eg, hg⟩ := hf.mul hv (by decide) (by decide)
  obtain ⟨k, ek, hk⟩ := hg.mul hu (by decide) (by decide)
  obtain ⟨p, ep, hp⟩ := fePow22523_ok hk (by decide)
  obtain ⟨q, eq, hq⟩ := hp.mul h3 (by decide) (by decide)
  obtain ⟨fx, ex, hx⟩ := hq.mul hu (by decide) (by decide)
  generalize hw : v * v * v * (v * v * v) * v * u = w at *
  generalize hX : w ^ (2 ^ 252 - 3) * (v * v * v) * u = x at *
  have hr : v * x ^ 2 = u * w ^ ((P - 1) / 4) := by
    have e : w ^ ((P - 1) / 4) = w ^ (2 ^ 252 - 3) * w ^ (2 ^ 252 - 3) * w := by
      rw [← pow_add, ← pow_succ]; congr 1
    rw [e]
    generalize w ^ (2 ^ 252 - 3) = z at hX
    rw [← hX, ← hw]; ring
  have start : geFromBytesNeg W s = (do
      match ← geRoot W fu fv fx with
      | none => return none
      | some x => do
        let x ← geSign W s x
        let t ← x.mul fy
        return some ⟨x, fy, F10.one, t⟩) := by
    rw [geFromBytesNeg, ey, ok_bind]
    dsimp only
    rw [ea, ok_bind, eb, ok_bind, eu, ok_bind, ev, ok_bind, ec, ok_bind, e3, ok_bind, ef, ok_bind, eg, ok_bind, ek, ok_bind, ep, ok_bind, eq, ok_bind, ex, ok_bind]
    rfl
  have fin : ∀ {r : F10} {z : Fp}, geRoot W fu fv fx = .ok (some r) → Is 1 r z → v * z ^ 2 = u → ∃ x S A, geFromBytesNeg W s = .ok (some A) ∧ EdP S x y ∧ A.Is (-S) ∧
      (x = 0 ∨ x.val % 2 = leVal (s.take 32) / 2 ^ 255) := by
    intro r z er hr hz
    obtain ⟨X, z', eX, hX, hp, hz'⟩ := geSign_ok hW h hr
    have on : OnEd z' y := by
      rw [hOn, ← hz]
      rcases hz' with rfl | rfl <;> ring
    obtain ⟨S, hS⟩ := ed_surj on
    obtain ⟨t, et, ht⟩ := hX.mul hy (by decide) (by decide)
    refine ⟨z', S, ⟨X, fy, F10.one, t⟩, ?_, hS, ?_, hp⟩
    · rw [start, er, ok_bind]
      dsimp only
      rw [eX, ok_bind, et, ok_bind]
      rfl
    · exact ⟨-z', y, 1, hS.neg, one_ne_zero, hX.congr (by ring), hy.congr (by ring), one_is, ht.congr (by ring)⟩
  rcases geRoot_ok hW hu hv hx with ⟨c1, c2⟩ | ⟨c1, r, c2, c3⟩ | ⟨c1, c2, c3⟩
  · exact .inl (fin c2 hx c1)
  · refine .inl (fin c2 c3 ?_)
    have hi := consts.hi
    linear_combination v * x ^ 2 * hi - c1
  · refine .inr ⟨by rw [start, c3, ok_bind]; rfl, fun x0 on => ?_⟩
    rw [hOn] at on
    have u0 : u ≠ 0 := by
      intro e
      rw [e, zero_mul] at hr
      exact c1 (by rw [hr, e])
    have x0' : x0 ≠ 0 := by rintro rfl; exact u0 (by rw [← on]; ring)
    have hw2 : w = (v ^ 4 * x0) ^ 2 := by rw [← hw, ← on]; ring
    have hr2 : (w ^ ((P - 1) / 4)) ^ 2 = 1 := by
      rw [hw2, ← pow_mul, ← pow_mul, show 2 * ((P - 1) / 4 * 2) = P - 1 by decide]
      exact ZMod.pow_card_sub_one_eq_one (mul_ne_zero (pow_ne_zero 4 hv0) x0')
    generalize w ^ ((P - 1) / 4) = r at *
    have : (r - 1) * (r + 1) = 0 := by linear_combination hr2
    rcases mul_eq_zero.mp this with e | e
    · exact c1 (by rw [hr]; linear_combination u * e)
    · exact c2 (by rw [hr]; linear_combination u * e)

/-- decoding of an encoded point -/
theorem decode_ok {W : Nat} (hW : W = 32 ∨ W = 64) {S : Pt} {x y : Fp} (hS : EdP S x y) (r : List Byte) : ∃ A, geFromBytesNeg W (encPt x y ++ r) = .ok (some A) ∧ A.Is (-S) := by
  have hl := encPt_len x y
  have ht : (encPt x y ++ r).take 32 = encPt x y := by rw [← hl, List.take_left]
  have hv := (ZMod.val_lt y).trans P_lt
  have h1 : leVal (encPt x y) % 2 ^ 255 = y.val := by rw [encPt_val, Nat.add_mul_mod_self_left, Nat.mod_eq_of_lt hv]
  have h2 : leVal (encPt x y) / 2 ^ 255 = x.val % 2 := by rw [encPt_val, Nat.add_mul_div_left _ _ (by decide), Nat.div_eq_of_lt hv, Nat.zero_add]
  have hh := geFromBytesNeg_ok hW (s := encPt x y ++ r) (by rw [List.length_append]; omega)
  rw [ht, h1, h2, ZMod.natCast_zmod_val] at hh
  have cv : -x ^ 2 + y ^ 2 = 1 + (dN : Fp) * x ^ 2 * y ^ 2 := Ed.curve consts hS
  rcases hh with ⟨x', S', A, e, hS', hA, hp⟩ | ⟨_, no⟩
  · refine ⟨A, e, ?_⟩
    have cv' : -x' ^ 2 + y ^ 2 = 1 + (dN : Fp) * x' ^ 2 * y ^ 2 := Ed.curve consts hS'
    have hx : x' = x := by
      have : (dN * y ^ 2 + 1) * ((x' - x) * (x' + x)) = 0 := by linear_combination cv - cv'
      rcases mul_eq_zero.mp ((mul_eq_zero.mp this).resolve_left (d_ne y)) with e | e
      · linear_combination e
      · have e : x' = -x := by linear_combination e
        by_cases h0 : x = 0
        · rw [e, h0, neg_zero]
        · rcases hp with hp | hp
          · exact absurd (by rw [← neg_neg x, ← e, hp, neg_zero]) h0
          · rw [e, neg_parity h0] at hp
            omega
    subst hx
    rwa [ed_unique hS hS']
  · exact absurd cv (no x)

end Cex.Ed25519
