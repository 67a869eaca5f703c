import Mathlib.AlgebraicGeometry.EllipticCurve.Affine.Point
import Mathlib.Tactic.FieldSimp
import Mathlib.Tactic.LinearCombination
import Mathlib.Tactic.Ring

/-!
# The Montgomery curve as a group, and the two formulas of the ladder

Over a field in which `2` and `A^2 - 4` are not zero. The group law is Mathlib's.
-/

namespace Cex.Ec25519

open WeierstrassCurve WeierstrassCurve.Affine

variable {K : Type*} [Field K] [DecidableEq K]

/-- the curve `y^2 = x^3 + A x^2 + x` -/
def mont (A : K) : WeierstrassCurve.Affine K := ⟨0, A, 0, 1, 0⟩

theorem mont_eqn {A x y : K} : (mont A).Equation x y ↔ y ^ 2 = x ^ 3 + A * x ^ 2 + x := by
  rw [equation_iff]; simp [mont]

theorem mont_nonsingular {A x y : K} (h2 : (2 : K) ≠ 0) (hA : A ^ 2 - 4 ≠ 0) (h : y ^ 2 = x ^ 3 + A * x ^ 2 + x) : (mont A).Nonsingular x y := by
  refine (equation_iff_nonsingular_of_Δ_ne_zero (W := mont A) ?_).mp (mont_eqn.mpr h)
  have : (mont A).Δ = 2 ^ 4 * (A ^ 2 - 4) := by
    simp only [WeierstrassCurve.Δ, WeierstrassCurve.b₂, WeierstrassCurve.b₄, WeierstrassCurve.b₆, WeierstrassCurve.b₈, mont]; ring
  rw [this]
  exact mul_ne_zero (pow_ne_zero _ h2) hA

/-- `(X : Z)` represents the x-coordinate of a point; the neutral element is `(X : 0)` -/
def Rx {A : K} (R : (mont A).Point) (X Z : K) : Prop :=
  match R with
  | .zero => Z = 0 ∧ X ≠ 0
  | .some x _ _ => Z ≠ 0 ∧ X = x * Z

theorem neg_pt {A x y : K} (h : (mont A).Nonsingular x y) : ∃ h', -(Point.some x y h : (mont A).Point) = Point.some x (-y) h' := by
  have e : (mont A).negY x y = -y := by simp [negY, mont]
  refine ⟨by rw [← e]; exact (nonsingular_neg ..).mpr h, ?_⟩
  rw [Point.neg_some]
  simp only [e]

theorem add_ne {A x1 y1 x2 y2 : K} {h1 : (mont A).Nonsingular x1 y1} {h2 : (mont A).Nonsingular x2 y2} (hx : x1 ≠ x2) :
    ∃ x3 y3 h3, (Point.some x1 y1 h1 : (mont A).Point) + Point.some x2 y2 h2 = Point.some x3 y3 h3 ∧
      x3 * (x1 - x2) ^ 2 = (y1 - y2) ^ 2 - (A + x1 + x2) * (x1 - x2) ^ 2 := by
  refine ⟨_, _, _, Point.add_of_X_ne hx, ?_⟩
  rw [slope_of_X_ne hx, addX]
  have : x1 - x2 ≠ 0 := sub_ne_zero.mpr hx
  simp only [mont]
  field_simp
  ring

theorem double_pt {A x y : K} (h2 : (2 : K) ≠ 0) {h : (mont A).Nonsingular x y} (hy : y ≠ 0) :
    ∃ x3 y3 h3, (Point.some x y h : (mont A).Point) + Point.some x y h = Point.some x3 y3 h3 ∧ x3 * (4 * y ^ 2) = (x ^ 2 - 1) ^ 2 := by
  have e : (mont A).negY x y = -y := by simp [negY, mont]
  have hne : y ≠ (mont A).negY x y := by
    rw [e]; intro h
    have : 2 * y = 0 := by linear_combination h
    exact hy ((mul_eq_zero.mp this).resolve_left h2)
  refine ⟨_, _, _, Point.add_self_of_Y_ne hne, ?_⟩
  have hq := mont_eqn.mp h.1
  rw [slope_of_Y_ne rfl hne, addX, e]
  rw [show y - -y = 2 * y by ring]
  simp only [mont, zero_mul, sub_zero, add_zero]
  field_simp
  linear_combination (-16 * A - 32 * x) * hq

theorem add_self_zero {A x : K} {h : (mont A).Nonsingular x 0} : (Point.some x 0 h : (mont A).Point) + Point.some x 0 h = 0 :=
  Point.add_self_of_Y_eq (by simp [negY, mont])

/-- the doubling of the ladder -/
theorem double_ok {A : K} (h2 : (2 : K) ≠ 0) (hA : A ^ 2 - 4 ≠ 0) {R : (mont A).Point} {X Z : K} (h : Rx R X Z) :
    Rx (R + R) ((X ^ 2 - Z ^ 2) ^ 2) (4 * X * Z * (X ^ 2 + A * X * Z + Z ^ 2)) := by
  match R, h with
  | .zero, h =>
    obtain ⟨hz, hx⟩ := h
    have e : (Point.zero : (mont A).Point) + Point.zero = Point.zero := zero_add _
    rw [e]
    exact ⟨by rw [hz]; ring, by rw [hz]; simpa using hx⟩
  | .some x y hn, h =>
    obtain ⟨hz, rfl⟩ := h
    have hq := mont_eqn.mp hn.1
    by_cases hy : y = 0
    · subst hy
      rw [add_self_zero]
      have hq' : x * (x ^ 2 + A * x + 1) = 0 := by linear_combination -hq
      refine ⟨by linear_combination (4 * Z ^ 4) * hq', ?_⟩
      rw [show ((x * Z) ^ 2 - Z ^ 2) ^ 2 = (x ^ 2 - 1) ^ 2 * Z ^ 4 by ring]
      refine mul_ne_zero (pow_ne_zero _ fun h1 => ?_) (pow_ne_zero _ hz)
      rcases mul_eq_zero.mp hq' with h0 | h0
      · rw [h0] at h1; simp at h1
      · apply hA
        have h3 : A * x = -2 := by linear_combination h0 - h1
        linear_combination (A * x - 2) * h3 - A ^ 2 * h1
    · obtain ⟨x3, y3, h3, e, he⟩ := double_pt h2 (h := hn) hy
      rw [e]
      have h4 : (4 : K) ≠ 0 := by rw [show (4 : K) = 2 * 2 by norm_num]; exact mul_ne_zero h2 h2
      have hZ : 4 * (x * Z) * Z * ((x * Z) ^ 2 + A * (x * Z) * Z + Z ^ 2) = 4 * y ^ 2 * Z ^ 4 := by linear_combination (-4 * Z ^ 4) * hq
      rw [hZ]
      refine ⟨mul_ne_zero (mul_ne_zero h4 (pow_ne_zero _ hy)) (pow_ne_zero _ hz), ?_⟩
      linear_combination (-Z ^ 4) * he

/-- the differential addition of the ladder -/
theorem diff_ok {A : K} (h2 : (2 : K) ≠ 0) {R1 R2 : (mont A).Point} {X1 Z1 X2 Z2 u v : K} {hn : (mont A).Nonsingular u v} (hu : u ≠ 0)
    (hd : R2 - R1 = Point.some u v hn) (h1 : Rx R1 X1 Z1) (hr2 : Rx R2 X2 Z2) :
    Rx (R1 + R2) (4 * (X1 * X2 - Z1 * Z2) ^ 2) (4 * u * (X1 * Z2 - X2 * Z1) ^ 2) := by
  have h4 : (4 : K) ≠ 0 := by rw [show (4 : K) = 2 * 2 by norm_num]; exact mul_ne_zero h2 h2
  match R1, R2, h1, hr2, hd with
  | .zero, R2, h1, hr2, hd =>
    obtain ⟨rfl, hx⟩ := h1
    have e : R2 = Point.some u v hn := (sub_zero R2).symm.trans hd
    have e' : (Point.zero : (mont A).Point) + R2 = R2 := zero_add _
    rw [e', e]
    rw [e] at hr2
    obtain ⟨hz2, rfl⟩ := hr2
    refine ⟨?_, by ring⟩
    rw [show 4 * u * (X1 * Z2 - u * Z2 * 0) ^ 2 = 4 * u * (X1 ^ 2 * Z2 ^ 2) by ring]
    exact mul_ne_zero (mul_ne_zero h4 hu) (mul_ne_zero (pow_ne_zero _ hx) (pow_ne_zero _ hz2))
  | .some x1 y1 n1, .zero, h1, hr2, hd =>
    obtain ⟨rfl, hx⟩ := hr2
    obtain ⟨n1', e1⟩ := neg_pt n1
    have e : (Point.some x1 (-y1) n1' : (mont A).Point) = Point.some u v hn := by rw [← e1]; exact (zero_sub _).symm.trans hd
    have e' : (Point.some x1 y1 n1 : (mont A).Point) + Point.zero = Point.some x1 y1 n1 := add_zero _
    rw [e']
    obtain ⟨hz1, rfl⟩ := h1
    rw [Point.some.injEq] at e
    obtain ⟨rfl, _⟩ := e
    refine ⟨?_, by ring⟩
    rw [show 4 * x1 * (x1 * Z1 * 0 - X2 * Z1) ^ 2 = 4 * x1 * (X2 ^ 2 * Z1 ^ 2) by ring]
    exact mul_ne_zero (mul_ne_zero h4 hu) (mul_ne_zero (pow_ne_zero _ hx) (pow_ne_zero _ hz1))
  | .some x1 y1 n1, .some x2 y2 n2, h1, hr2, hd =>
    obtain ⟨hz1, rfl⟩ := h1
    obtain ⟨hz2, rfl⟩ := hr2
    have q1 := mont_eqn.mp n1.1
    have q2 := mont_eqn.mp n2.1
    by_cases hx : x1 = x2
    · rcases (Point.X_eq_iff (h₁ := n1) (h₂ := n2)).mp hx with e | e
      · rw [e, sub_self] at hd
        exact absurd hd (Ne.symm (Point.some_ne_zero _))
      · rw [e, sub_neg_eq_add] at hd
        rw [e, neg_add_cancel]
        subst hx
        by_cases hy : y2 = 0
        · subst hy
          rw [add_self_zero] at hd
          exact absurd hd (Ne.symm (Point.some_ne_zero _))
        · obtain ⟨x3, y3, h3, e3, he⟩ := double_pt h2 (h := n2) hy
          rw [e3, Point.some.injEq] at hd
          obtain ⟨rfl, _⟩ := hd
          refine ⟨by ring, ?_⟩
          rw [show 4 * (x1 * Z1 * (x1 * Z2) - Z1 * Z2) ^ 2 = 4 * (x1 ^ 2 - 1) ^ 2 * (Z1 * Z2) ^ 2 by ring, ← he]
          exact mul_ne_zero (mul_ne_zero h4 (mul_ne_zero hu (mul_ne_zero h4 (pow_ne_zero _ hy)))) (pow_ne_zero _ (mul_ne_zero hz1 hz2))
    · obtain ⟨x3, y3, h3, e3, he3⟩ := add_ne (h1 := n1) (h2 := n2) hx
      obtain ⟨n1', e1⟩ := neg_pt n1
      obtain ⟨x4, y4, h4', e4, he4⟩ := add_ne (h1 := n2) (h2 := n1') (Ne.symm hx)
      rw [sub_eq_add_neg, e1, e4, Point.some.injEq] at hd
      obtain ⟨rfl, _⟩ := hd
      rw [e3]
      have hd : x1 - x2 ≠ 0 := sub_ne_zero.mpr hx
      refine ⟨?_, ?_⟩
      · rw [show 4 * x4 * (x1 * Z1 * Z2 - x2 * Z2 * Z1) ^ 2 = 4 * x4 * ((x1 - x2) ^ 2 * (Z1 * Z2) ^ 2) by ring]
        exact mul_ne_zero (mul_ne_zero h4 hu) (mul_ne_zero (pow_ne_zero _ hd) (pow_ne_zero _ (mul_ne_zero hz1 hz2)))
      · have key : x3 * x4 * (x1 - x2) ^ 2 = (x1 * x2 - 1) ^ 2 := by
          apply mul_right_cancel₀ (pow_ne_zero 2 hd)
          have p : x3 * x4 * (x1 - x2) ^ 2 * (x1 - x2) ^ 2 = (x3 * (x1 - x2) ^ 2) * (x4 * (x2 - x1) ^ 2) := by ring
          rw [p, he3, he4]
          have p2 : ((y1 - y2) ^ 2 - (A + x1 + x2) * (x1 - x2) ^ 2) * ((y2 - -y1) ^ 2 - (A + x2 + x1) * (x2 - x1) ^ 2) =
              (y1 ^ 2 - y2 ^ 2) ^ 2 - (A + x1 + x2) * (x1 - x2) ^ 2 * (2 * (y1 ^ 2 + y2 ^ 2)) + (A + x1 + x2) ^ 2 * (x1 - x2) ^ 4 := by ring
          rw [p2, q1, q2]
          ring
        linear_combination (-4 * (Z1 * Z2) ^ 2) * key

end Cex.Ec25519
