import Verif.Ed25519.DoubleMul
import Verif.Ed25519.OrderEval
import Verif.Ed25519.Rfc8032
import Verif.Ed25519.ScProps

/-!
# The order of the base point, and the points of RFC 8032 as elements of the group
-/

namespace Cex.Ed25519

open Cex.Ec25519 Cex.IntTools

theorem Is.val_res {k : Nat} {f : F10} {a : Fp} (h : Is k f a) : ((res f : Nat) : Fp) = a := (res_ok f).trans h.2

theorem order_aux {n : Nat} (hn : n < 2 ^ 255) (ev : isNeutral (scalarBase base (leEnc 32 n)) = true) : n • Bpt = 0 := by
  have hm : n % 256 ^ 32 = n := Nat.mod_eq_of_lt (Nat.lt_trans hn (by decide))
  obtain ⟨h, e, H⟩ := scalarBase_ok (a := leEnc 32 n) (leEnc_length _ _) (by rw [leVal_leEnc, hm]; exact hn)
  rw [leVal_leEnc, hm] at H
  rw [e, isNeutral, Bool.and_eq_true] at ev
  have h1 := Nat.eq_of_beq_eq_true ev.1
  have h2 := Nat.eq_of_beq_eq_true ev.2
  obtain ⟨x, y, Z, ed, hZ, hx, hy, hz, -⟩ := H
  have hx := hx.val_res
  have hy := hy.val_res
  have hz := hz.val_res
  rw [h1, Nat.cast_zero] at hx
  rw [h2, hz] at hy
  have x0 : x = 0 := by
    rcases mul_eq_zero.mp hx.symm with h | h
    · exact h
    · exact absurd h hZ
  have y1 : y = 1 := mul_right_cancel₀ hZ (by rw [one_mul]; exact hy.symm)
  subst x0 y1
  exact ed_unique ed (show EdP (0 : Pt) 0 1 from ⟨rfl, rfl⟩)

theorem order_lt : L < 2 ^ 255 := by decide

theorem order_ok {n : Nat} (hn : n = L) : n • Bpt = 0 := by
  have h := order_eval
  have h' := order_lt
  rw [← hn] at h h'
  exact order_aux h' h

theorem mod_order (n : Nat) : (n % L) • Bpt = n • Bpt := by
  conv_rhs => rw [← Nat.div_add_mod n L, add_smul, mul_comm, mul_smul, order_ok rfl, nsmul_zero, zero_add]

/-- the order and a power of two have no common factor -/
theorem coprime_order {S : Pt} (h1 : L • S = 0) {k : Nat} (h2 : 2 ^ k • S = 0) : S = 0 := by
  have c : Nat.Coprime (2 ^ k) L := Nat.Coprime.pow_left _ (by decide)
  have := Nat.dvd_gcd (addOrderOf_dvd_of_nsmul_eq_zero h2) (addOrderOf_dvd_of_nsmul_eq_zero h1)
  rw [c] at this
  exact AddMonoid.addOrderOf_eq_one_iff.mp (Nat.dvd_one.mp this)

theorem Bpt_ne : Bpt ≠ 0 := by
  rw [Bpt]
  exact WeierstrassCurve.Affine.Point.some_ne_zero _

/-- a point of odd order has no `y = 0` -/
theorem sub_y_ne {S : Pt} (h1 : L • S = 0) {x y : Fp} (h : EdP S x y) : y ≠ 0 := by
  rintro rfl
  have cv : -x ^ 2 + 0 ^ 2 = 1 + (dN : Fp) * x ^ 2 * 0 ^ 2 := Ed.curve consts h
  obtain ⟨-, -, d2⟩ := h.add h
  obtain ⟨-, -, d4⟩ := d2.add d2
  have x2 : x * x = -1 := by linear_combination -cv
  have z : EdP (S + S + (S + S)) 0 1 := by
    convert d4 using 1
    · simp
    · simp [x2]
  have := ed_unique z (show EdP (0 : Pt) 0 1 from ⟨rfl, rfl⟩)
  have h2 : 2 ^ 2 • S = 0 := by
    rw [← this]
    abel
  have h0 := coprime_order h1 h2
  rw [h0] at h
  exact zero_ne_one (h.2 : (0 : Fp) = 1)

theorem sub_mul (n : Nat) : L • (n • Bpt) = 0 := by rw [← mul_smul, mul_comm, mul_smul, order_ok rfl, nsmul_zero]

/-- a multiple of the base point is no point with `y = 0` -/
theorem mul_y_ne {n : Nat} {x y : Fp} (h : EdP (n • Bpt) x y) : y ≠ 0 := sub_y_ne (sub_mul n) h

/-! ### The points of the specification -/

/-- the coordinates of a point -/
def Rep (a : Nat × Nat) (S : Pt) : Prop := a.1 < P ∧ a.2 < P ∧ EdP S (a.1 : Fp) (a.2 : Fp)

theorem d_eq : Rfc8032.d = dN := rfl
theorem L_eq : Rfc8032.L = L := by decide +kernel

theorem inv_ok (a : Nat) : ((Rfc8032.inv a : Nat) : Fp) = (a : Fp)⁻¹ := by
  rw [Rfc8032.inv, kmod, Nat.cast_pow]
  by_cases h : (a : Fp) = 0
  · rw [h, inv_zero, zero_pow (by decide)]
  · have f1 := ZMod.pow_card_sub_one_eq_one h
    have : (a : Fp) ^ (P - 2) * (a : Fp) = 1 := by rw [← pow_succ, show P - 2 + 1 = P - 1 by decide, f1]
    exact eq_inv_of_mul_eq_one_left this

theorem Rep.zero : Rep (0, 1) 0 := ⟨by decide, by decide, by
  show EdP 0 ((0 : Nat) : Fp) ((1 : Nat) : Fp)
  rw [Nat.cast_zero, Nat.cast_one]
  exact ⟨rfl, rfl⟩⟩

theorem Rep.base : Rep Rfc8032.B Bpt := ⟨by decide, by decide, Bpt_ed⟩

theorem Rep.add {a b : Nat × Nat} {S T : Pt} (h : Rep a S) (h' : Rep b T) : Rep (Rfc8032.add a b) (S + T) := by
  refine ⟨Nat.mod_lt _ P_pos, Nat.mod_lt _ P_pos, ?_⟩
  obtain ⟨n1, n2, e⟩ := h.2.2.add h'.2.2
  have hw : ((Rfc8032.d * (a.1 * b.1 * a.2 * b.2) % P : Nat) : Fp) = dN * ((a.1 : Fp) * b.1 * a.2 * b.2) := by
    rw [kmod, d_eq]; push_cast; rfl
  have hlt := Nat.mod_lt (Rfc8032.d * (a.1 * b.1 * a.2 * b.2)) P_pos
  convert e using 1
  · rw [Rfc8032.add]
    dsimp only
    rw [kmod, Nat.cast_mul, inv_ok, Nat.cast_add, Nat.cast_add, hw, div_eq_mul_inv]
    push_cast; rfl
  · rw [Rfc8032.add]
    dsimp only
    rw [kmod, Nat.cast_mul, inv_ok, Nat.cast_add, Nat.cast_add, Nat.cast_sub hlt.le, hw, kP, zero_sub, div_eq_mul_inv]
    push_cast
    rw [← sub_eq_add_neg]

theorem Rep.mul {a : Nat × Nat} {S : Pt} (h : Rep a S) : ∀ n, Rep (Rfc8032.mul n a) (n • S)
  | 0 => by rw [zero_nsmul]; exact Rep.zero
  | n + 1 => by rw [succ_nsmul]; exact (h.mul n).add h

theorem nat_val {n : Nat} (h : n < P) : (n : Fp).val = n := by rw [ZMod.val_natCast, Nat.mod_eq_of_lt h]

theorem Rep.inj {a b : Nat × Nat} {S : Pt} (h : Rep a S) (h' : Rep b S) : a = b := by
  obtain ⟨e1, e2⟩ := Ed.inj consts h.2.2 h'.2.2
  have f1 := congrArg ZMod.val e1
  have f2 := congrArg ZMod.val e2
  rw [nat_val h.1, nat_val h'.1] at f1
  rw [nat_val h.2.1, nat_val h'.2.1] at f2
  exact Prod.ext f1 f2

theorem Rep.unique {a : Nat × Nat} {S T : Pt} (h : Rep a S) (h' : Rep a T) : S = T := ed_unique h.2.2 h'.2.2

theorem Rep.enc {a : Nat × Nat} {S : Pt} (h : Rep a S) : Rfc8032.encode a = encPt (a.1 : Fp) (a.2 : Fp) := by
  rw [Rfc8032.encode, encPt, nat_val h.1, nat_val h.2.1]

theorem Rep.curve {a : Nat × Nat} {S : Pt} (h : Rep a S) : Rfc8032.OnCurve a := by
  refine ⟨h.1, h.2.1, ?_⟩
  have cv : -(a.1 : Fp) ^ 2 + (a.2 : Fp) ^ 2 = 1 + (dN : Fp) * (a.1 : Fp) ^ 2 * (a.2 : Fp) ^ 2 := Ed.curve consts h.2.2
  apply (ZMod.natCast_eq_natCast_iff' _ _ P).mp
  rw [d_eq]
  push_cast
  linear_combination cv

theorem Rep.exists {a : Nat × Nat} (h : Rfc8032.OnCurve a) : ∃ S, Rep a S := by
  obtain ⟨h1, h2, h3⟩ := h
  have h3 := nat_eq h3
  rw [d_eq] at h3
  push_cast at h3
  obtain ⟨S, hS⟩ := ed_surj (x := (a.1 : Fp)) (y := (a.2 : Fp)) (by rw [OnEd]; linear_combination h3)
  exact ⟨S, h1, h2, hS⟩

theorem Rep.of {S : Pt} {x y : Fp} (h : EdP S x y) : Rep (x.val, y.val) S :=
  ⟨ZMod.val_lt x, ZMod.val_lt y, by
    show EdP S ((x.val : Nat) : Fp) ((y.val : Nat) : Fp)
    rw [ZMod.natCast_zmod_val, ZMod.natCast_zmod_val]
    exact h⟩

/-- the multiples of the base point -/
theorem base_mul (n : Nat) : Rep (Rfc8032.mul n Rfc8032.B) (n • Bpt) := Rep.base.mul n

end Cex.Ed25519
