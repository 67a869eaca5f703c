import Mathlib.Algebra.Polynomial.Div
import Mathlib.Data.ZMod.Basic
import Mathlib.Algebra.CharP.Two
import Mathlib.Tactic.Ring
import Mathlib.Algebra.BigOperators.Ring.Finset

/-!
# The field of GCM

`Nist.mul` is Algorithm 1 of NIST SP 800-38D. It is proved to be multiplication of polynomials over GF(2) modulo
`x^128 + x^7 + x^2 + x + 1`, where the leftmost bit of a block is the coefficient of `x^0`.
-/

namespace Cex.Gcm
open Polynomial

/-- The polynomial of a block. -/
noncomputable def poly (v : BitVec 128) : (ZMod 2)[X] := ∑ i ∈ Finset.range 128, if v.getMsbD i then X ^ i else 0

/-- The modulus. -/
noncomputable def P : (ZMod 2)[X] := X ^ 128 + (X ^ 7 + X ^ 2 + X + 1)

/-- `R = 11100001 || 0^120`. -/
def Nist.R : BitVec 128 := 0xE1000000000000000000000000000000

/-- The step of `V` in Algorithm 1. -/
def Nist.mulx (v : BitVec 128) : BitVec 128 := if v.getLsbD 0 then (v >>> 1) ^^^ Nist.R else v >>> 1

/-- Algorithm 1: steps `i, …, i + n - 1` on `(Z, V)`. -/
def Nist.steps (x : BitVec 128) : Nat → Nat → BitVec 128 × BitVec 128 → BitVec 128 × BitVec 128
  | _, 0, s => s
  | i, n + 1, s => Nist.steps x (i + 1) n (if x.getMsbD i then s.1 ^^^ s.2 else s.1, Nist.mulx s.2)

/-- Algorithm 1: `X • Y`. -/
def Nist.mul (x y : BitVec 128) : BitVec 128 := (Nist.steps x 0 128 (0, y)).1

/-! ## Polynomials of blocks -/

theorem bit_add (a b : Bool) (p : (ZMod 2)[X]) : (if (a ^^ b) then p else 0) = (if a then p else 0) + (if b then p else 0) := by
  cases a <;> cases b <;> simp [CharTwo.add_self_eq_zero]

theorem poly_xor (a b : BitVec 128) : poly (a ^^^ b) = poly a + poly b := by
  simp only [poly, ← Finset.sum_add_distrib]
  refine Finset.sum_congr rfl fun i _ => ?_
  rw [BitVec.getMsbD_xor, bit_add]

theorem poly_zero : poly 0 = 0 := by simp [poly]

theorem poly_coeff (v : BitVec 128) (i : Nat) : (poly v).coeff i = if v.getMsbD i then 1 else 0 := by
  simp only [poly, finset_sum_coeff]
  by_cases hi : i < 128
  · rw [Finset.sum_eq_single i]
    · split <;> simp
    · intro j _ hj
      split
      · rw [coeff_X_pow, if_neg (Ne.symm hj)]
      · simp
    · intro h; exact absurd (Finset.mem_range.mpr hi) h
  · rw [BitVec.getMsbD_of_ge v i (by omega)]
    refine Finset.sum_eq_zero fun j hj => ?_
    have := Finset.mem_range.mp hj
    split
    · rw [coeff_X_pow, if_neg (by omega)]
    · simp

theorem poly_inj {a b : BitVec 128} (h : poly a = poly b) : a = b := by
  apply BitVec.eq_of_getMsbD_eq
  intro i hi
  have := congrArg (fun p => p.coeff i) h
  simp only [poly_coeff] at this
  cases ha : a.getMsbD i <;> cases hb : b.getMsbD i <;> simp_all

theorem P_tail_degree : degree (X ^ 7 + X ^ 2 + X + 1 : (ZMod 2)[X]) < ((128 : ℕ) : WithBot ℕ) := by
  refine lt_of_le_of_lt ?_ (Nat.cast_lt.mpr (show 7 < 128 by omega))
  refine (degree_add_le _ _).trans (max_le ((degree_add_le _ _).trans (max_le ((degree_add_le _ _).trans (max_le (degree_X_pow_le 7) ?_)) ?_)) ?_)
  · exact (degree_X_pow_le 2).trans (Nat.cast_le.mpr (by omega))
  · exact degree_X_le.trans (by exact_mod_cast (show 1 ≤ 7 by omega))
  · exact degree_one_le.trans (by exact_mod_cast (show 0 ≤ 7 by omega))

theorem monic_aux {n : ℕ} {q : (ZMod 2)[X]} (h : degree q < (n : WithBot ℕ)) : (X ^ n + q).Monic ∧ (X ^ n + q).degree = (n : WithBot ℕ) :=
  ⟨monic_X_pow_add h, by rw [degree_add_eq_left_of_degree_lt, degree_X_pow]; rw [degree_X_pow]; exact h⟩

theorem P_monic : P.Monic := by
  unfold P
  exact (monic_aux (n := 128) P_tail_degree).1

theorem P_degree : P.degree = ((128 : ℕ) : WithBot ℕ) := by
  unfold P
  exact (monic_aux (n := 128) P_tail_degree).2

theorem degree_aux {n : ℕ} {q : (ZMod 2)[X]} (h : ∀ m, n ≤ m → q.coeff m = 0) : degree q < (n : WithBot ℕ) := (degree_lt_iff_coeff_zero _ n).mpr h

theorem poly_degree (v : BitVec 128) : (poly v).degree < P.degree := by
  rw [P_degree]
  refine degree_aux fun m hm => ?_
  rw [poly_coeff, BitVec.getMsbD_of_ge v m hm]; rfl

theorem poly_mod (v : BitVec 128) : poly v %ₘ P = poly v := (modByMonic_eq_self_iff P_monic).mpr (poly_degree v)

theorem mod_aux {a q : (ZMod 2)[X]} (hm : (a + q).Monic) (hq : q.degree < (a + q).degree) : a %ₘ (a + q) = q := by
  have h : a = q + (a + q) * 1 := by rw [mul_one, add_left_comm, CharTwo.add_self_eq_zero, add_zero]
  conv_lhs => lhs; rw [h]
  rw [add_modByMonic, show ((a + q) * 1) %ₘ (a + q) = 0 from (modByMonic_eq_zero_iff_dvd hm).mpr ⟨1, rfl⟩, add_zero]
  exact (modByMonic_eq_self_iff hm).mpr hq

theorem X128_mod : (X ^ 128 : (ZMod 2)[X]) %ₘ P = X ^ 7 + X ^ 2 + X + 1 := by
  have h1 := P_monic
  have h2 := lt_of_lt_of_eq P_tail_degree P_degree.symm
  unfold P at h1 h2 ⊢
  exact mod_aux h1 h2

theorem poly_R : poly Nist.R = X ^ 7 + X ^ 2 + X + 1 := by
  have hb : ∀ i < 128, Nist.R.getMsbD i = (decide (i = 0) || decide (i = 1) || decide (i = 2) || decide (i = 7)) := by decide +kernel
  ext n
  rw [poly_coeff]
  by_cases hn : n < 128
  · rw [hb n hn]
    simp only [coeff_add, coeff_X_pow, coeff_X, coeff_one]
    by_cases h0 : n = 0
    · subst h0; simp
    by_cases h1 : n = 1
    · subst h1; simp
    by_cases h2 : n = 2
    · subst h2; simp
    by_cases h7 : n = 7
    · subst h7; simp
    · simp [h0, h1, h2, h7, Ne.symm h1]
  · rw [BitVec.getMsbD_of_ge _ n (by omega)]
    simp only [coeff_add, coeff_X_pow, coeff_X, coeff_one]
    rw [if_neg (show ¬ n = 7 by omega), if_neg (show ¬ n = 2 by omega), if_neg (show ¬ 1 = n by omega), if_neg (show ¬ n = 0 by omega)]; simp

theorem shift_aux (f : ℕ → Bool) (g : ℕ → Bool) (n m : ℕ) (hm : m = n + 1) (h0 : g 0 = false) (h : ∀ i, i < n → g (i + 1) = f i) :
    X * (∑ i ∈ Finset.range m, if f i then X ^ i else 0 : (ZMod 2)[X]) =
      (∑ i ∈ Finset.range m, if g i then X ^ i else 0) + (if f n then X ^ m else 0) := by
  subst hm
  rw [Finset.mul_sum, Finset.sum_range_succ, Finset.sum_range_succ' (fun i => if g i then (X ^ i : (ZMod 2)[X]) else 0), h0]
  simp only [Bool.false_eq_true, if_false, add_zero]
  congr 1
  · refine Finset.sum_congr rfl fun i hi => ?_
    rw [h i (Finset.mem_range.mp hi)]
    split
    · rw [pow_succ, mul_comm]
    · simp
  · split
    · rw [← pow_succ']
    · simp

theorem poly_mulx (v : BitVec 128) : poly (Nist.mulx v) = (X * poly v) %ₘ P := by
  have h : X * poly v = poly (v >>> 1) + (if v.getMsbD 127 then X ^ 128 else 0) := by
    have := shift_aux v.getMsbD (v >>> 1).getMsbD 127 128 rfl (by simp) (fun i hi => by simp; omega)
    rw [poly, poly]
    exact this
  rw [show v.getMsbD 127 = v.getLsbD 0 by simp [BitVec.getMsbD]] at h
  rw [h, add_modByMonic, poly_mod, Nist.mulx]
  split
  · rw [poly_xor, X128_mod, poly_R]
  · simp

/-- `V` after `n` steps. -/
def Nist.vpow (y : BitVec 128) : Nat → BitVec 128
  | 0 => y
  | n + 1 => Nist.mulx (Nist.vpow y n)

theorem poly_vpow (y : BitVec 128) : ∀ n, poly (Nist.vpow y n) = (X ^ n * poly y) %ₘ P
  | 0 => by rw [Nist.vpow, pow_zero, one_mul, poly_mod]
  | n + 1 => by
    rw [Nist.vpow, poly_mulx, mul_modByMonic, poly_mod, poly_vpow y n, pow_succ', mul_assoc, ← mul_modByMonic]

theorem steps_eq (x y : BitVec 128) : ∀ n i z, poly (Nist.steps x i n (z, Nist.vpow y i)).1 =
    poly z + ∑ j ∈ Finset.range n, if x.getMsbD (i + j) then poly (Nist.vpow y (i + j)) else 0
  | 0, i, z => by simp [Nist.steps]
  | n + 1, i, z => by
    rw [Nist.steps, show Nist.mulx (Nist.vpow y i) = Nist.vpow y (i + 1) from rfl, steps_eq x y n (i + 1), Finset.sum_range_succ']
    simp only [Nat.add_zero]
    have hs : ∀ j, i + 1 + j = i + (j + 1) := by intro j; omega
    simp only [hs]
    split
    · rw [poly_xor]; ring
    · ring

/-- Algorithm 1 multiplies polynomials modulo `x^128 + x^7 + x^2 + x + 1`. -/
theorem nist_mul (x y : BitVec 128) : poly (Nist.mul x y) = (poly x * poly y) %ₘ P := by
  have h := steps_eq x y 128 0 0
  rw [show Nist.vpow y 0 = y from rfl, poly_zero, zero_add] at h
  rw [Nist.mul, h, poly, Finset.sum_mul]
  have hl : ∀ (s : Finset ℕ) (f : ℕ → (ZMod 2)[X]), (∑ i ∈ s, f i) %ₘ P = ∑ i ∈ s, (f i) %ₘ P := by
    intro s f
    induction s using Finset.induction_on with
    | empty => simp
    | insert a s ha ih => rw [Finset.sum_insert ha, Finset.sum_insert ha, add_modByMonic, ih]
  rw [hl]
  refine Finset.sum_congr rfl fun i _ => ?_
  rw [Nat.zero_add]
  split
  · exact poly_vpow y i
  · simp

end Cex.Gcm
