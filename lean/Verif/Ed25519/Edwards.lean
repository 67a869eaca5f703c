import Verif.Ec25519.Group

/-!
# The twisted Edwards curve as the Montgomery curve in other coordinates

`-x^2 + y^2 = 1 + d x^2 y^2` with `d` not a square: the addition formulas of RFC 8032 have no exceptions, and they are
the addition of Mathlib's group on `y^2 = x^3 + A x^2 + x`.
-/

namespace Cex.Ed25519

open WeierstrassCurve WeierstrassCurve.Affine Cex.Ec25519

variable {K : Type*} [Field K] [DecidableEq K]

/-- the constants of the two curves: `c` is the scale between them, `i` a root of -1 -/
structure Consts (A c d i : K) : Prop where
  h2 : (2 : K) ≠ 0
  c0 : c ≠ 0
  hc : c ^ 2 = -(A + 2)
  hd : d * c ^ 2 = A - 2
  hi : i ^ 2 = -1
  ns : ∀ s, s ^ 2 ≠ d

/-- `(x, y)` are the Edwards coordinates of the point -/
def Ed (c : K) {A : K} (R : (mont A).Point) (x y : K) : Prop :=
  match R with
  | .zero => x = 0 ∧ y = 1
  | .some u v _ => (u = 0 ∧ x = 0 ∧ y = -1) ∨ (u ≠ 0 ∧ x * v = c * u ∧ y * (u + 1) = u - 1)

variable {A c d i : K}

theorem Consts.v_ne (H : Consts A c d i) {u v : K} (hq : v ^ 2 = u ^ 3 + A * u ^ 2 + u) (hu : u ≠ 0) : v ≠ 0 := by
  rintro rfl
  have h1 : u ^ 2 + A * u + 1 = 0 := by
    have : u * (u ^ 2 + A * u + 1) = 0 := by linear_combination -hq
    exact (mul_eq_zero.mp this).resolve_left hu
  have h3 : (2 * u + A) ^ 2 = -(d * c ^ 4) := by linear_combination 4 * h1 + c ^ 2 * H.hd + (A - 2) * H.hc
  apply H.ns (i * (2 * u + A) / c ^ 2)
  have := H.c0
  field_simp
  linear_combination (2 * u + A) ^ 2 * H.hi - h3

theorem Consts.u1_ne (H : Consts A c d i) {u v : K} (hq : v ^ 2 = u ^ 3 + A * u ^ 2 + u) : u + 1 ≠ 0 := by
  intro h
  have hu : u = -1 := by linear_combination h
  subst hu
  apply H.ns (v / c)
  have := H.c0
  field_simp
  linear_combination hq - H.hd

/-- the coordinates are on the Edwards curve -/
theorem Ed.curve (H : Consts A c d i) {R : (mont A).Point} {x y : K} (h : Ed c R x y) : -x ^ 2 + y ^ 2 = 1 + d * x ^ 2 * y ^ 2 := by
  match R, h with
  | .zero, h => obtain ⟨rfl, rfl⟩ := h; ring
  | .some u v hn, .inl h => obtain ⟨-, rfl, rfl⟩ := h; ring
  | .some u v hn, .inr h =>
    obtain ⟨hu, hX, hY⟩ := h
    have hq := mont_eqn.mp hn.1
    have hv := H.v_ne hq hu
    have h1 := H.u1_ne hq
    have hM : v ^ 2 * (u + 1) ^ 2 ≠ 0 := mul_ne_zero (pow_ne_zero _ hv) (pow_ne_zero _ h1)
    apply mul_left_cancel₀ hM
    linear_combination (-(u + 1) ^ 2 * (x * v + c * u) - d * (y * (u + 1)) ^ 2 * (x * v + c * u)) * hX +
      (y * (u + 1) + (u - 1)) * (v ^ 2 - d * c ^ 2 * u ^ 2) * hY - u ^ 2 * (u + 1) ^ 2 * H.hc - u ^ 2 * (u - 1) ^ 2 * H.hd - 4 * u * hq

/-- the denominators of the addition do not vanish -/
theorem Consts.den_ne (H : Consts A c d i) {x1 y1 x2 y2 e : K} (he : e ^ 2 = 1) (h1 : -x1 ^ 2 + y1 ^ 2 = 1 + d * x1 ^ 2 * y1 ^ 2)
    (h2 : -x2 ^ 2 + y2 ^ 2 = 1 + d * x2 ^ 2 * y2 ^ 2) : d * (x1 * x2 * y1 * y2) ≠ e := by
  intro h
  have e0 : e ≠ 0 := fun z => by rw [z] at he; simp at he
  have x0 : x1 ≠ 0 := by rintro rfl; exact e0 (by rw [← h]; ring)
  have y0 : y1 ≠ 0 := by rintro rfl; exact e0 (by rw [← h]; ring)
  have i0 : i ≠ 0 := fun z => by have := H.hi; rw [z] at this; simp at this
  -- `s = 1` and `s = -1`
  have key : ∀ s : K, s ^ 2 = 1 → i * x2 + s * y2 = 0 := by
    intro s hs
    by_contra hne
    apply H.ns (i * (i * x1 + s * e * y1) / ((i * x1) * y1 * (i * x2 + s * y2)))
    have hm : (i * x1) * y1 * (i * x2 + s * y2) ≠ 0 := mul_ne_zero (mul_ne_zero (mul_ne_zero i0 x0) y0) hne
    rw [div_pow, div_eq_iff (pow_ne_zero _ hm)]
    have p1 : (i * (i * x1 + s * e * y1)) ^ 2 = -(-x1 ^ 2 + y1 ^ 2 + 2 * s * e * i * x1 * y1) := by
      linear_combination (i * x1 + s * e * y1) ^ 2 * H.hi - x1 ^ 2 * H.hi - y1 ^ 2 * e ^ 2 * hs - y1 ^ 2 * he
    have p2 : d * (i * x1 * y1 * (i * x2 + s * y2)) ^ 2 = -(d * x1 ^ 2 * y1 ^ 2 * (-x2 ^ 2 + y2 ^ 2 + 2 * s * i * x2 * y2)) := by
      linear_combination d * x1 ^ 2 * y1 ^ 2 * (i * x2 + s * y2) ^ 2 * H.hi - d * x1 ^ 2 * y1 ^ 2 * x2 ^ 2 * H.hi - d * x1 ^ 2 * y1 ^ 2 * y2 ^ 2 * hs
    rw [p1, p2]
    linear_combination -h1 + d * x1 ^ 2 * y1 ^ 2 * h2 + (d * (x1 * x2 * y1 * y2) + e) * h + he + 2 * s * i * x1 * y1 * h
  have a := key 1 (by ring)
  have b := key (-1) (by ring)
  have y20 : y2 = 0 := by
    have : 2 * y2 = 0 := by linear_combination a - b
    exact (mul_eq_zero.mp this).resolve_left H.h2
  exact e0 (by rw [← h, y20]; ring)

/-- what has to be shown of the coordinates of the sum -/
theorem ed_core (H : Consts A c d i) {u1 v1 u2 v2 u3 v3 x1 y1 x2 y2 : K} (hv1 : v1 ≠ 0) (hv2 : v2 ≠ 0) (hu1 : u1 + 1 ≠ 0) (hu2 : u2 + 1 ≠ 0)
    (hX1 : x1 * v1 = c * u1) (hY1 : y1 * (u1 + 1) = u1 - 1) (hX2 : x2 * v2 = c * u2) (hY2 : y2 * (u2 + 1) = u2 - 1)
    (hx : u3 * (v1 * v2 * ((u1 + 1) * (u2 + 1)) + (A - 2) * (u1 * u2) * ((u1 - 1) * (u2 - 1))) =
      v3 * (u1 * v2 * (u1 + 1) * (u2 - 1) + u2 * v1 * (u2 + 1) * (u1 - 1)))
    (hy : u3 * (v1 * v2 * (u1 + u2) + u1 * u2 * (A * (u1 + u2) + 2 * (u1 * u2 + 1))) =
      v1 * v2 * (u1 * u2 + 1) - u1 * u2 * (A * (u1 * u2 + 1) + 2 * (u1 + u2))) :
    (x1 * y2 + y1 * x2) * v3 = c * u3 * (1 + d * (x1 * x2 * y1 * y2)) ∧
    (y1 * y2 + x1 * x2) * (u3 + 1) = (u3 - 1) * (1 - d * (x1 * x2 * y1 * y2)) := by
  have hM : v1 * v2 * ((u1 + 1) * (u2 + 1)) ≠ 0 := mul_ne_zero (mul_ne_zero hv1 hv2) (mul_ne_zero hu1 hu2)
  have eX : x1 * v1 * (x2 * v2) = -(A + 2) * (u1 * u2) := by rw [hX1, hX2]; linear_combination u1 * u2 * H.hc
  have edX : d * (x1 * v1 * (x2 * v2)) = (A - 2) * (u1 * u2) := by rw [hX1, hX2]; linear_combination u1 * u2 * H.hd
  have eY : y1 * (u1 + 1) * (y2 * (u2 + 1)) = (u1 - 1) * (u2 - 1) := by rw [hY1, hY2]
  have m1 : (x1 * y2 + y1 * x2) * (v1 * v2 * ((u1 + 1) * (u2 + 1))) = c * (u1 * v2 * (u1 + 1) * (u2 - 1) + u2 * v1 * (u2 + 1) * (u1 - 1)) := by
    have a : x1 * v1 * (y2 * (u2 + 1)) = c * u1 * (u2 - 1) := by rw [hX1, hY2]
    have b : x2 * v2 * (y1 * (u1 + 1)) = c * u2 * (u1 - 1) := by rw [hX2, hY1]
    linear_combination v2 * (u1 + 1) * a + v1 * (u2 + 1) * b
  have m2 : d * (x1 * x2 * y1 * y2) * (v1 * v2 * ((u1 + 1) * (u2 + 1))) = (A - 2) * (u1 * u2) * ((u1 - 1) * (u2 - 1)) := by
    rw [← edX, ← eY]; ring
  have m3 : (y1 * y2 + x1 * x2) * (v1 * v2 * ((u1 + 1) * (u2 + 1))) = (u1 - 1) * (u2 - 1) * (v1 * v2) - (A + 2) * (u1 * u2) * ((u1 + 1) * (u2 + 1)) := by
    linear_combination v1 * v2 * eY + (u1 + 1) * (u2 + 1) * eX
  constructor
  · apply mul_right_cancel₀ hM
    linear_combination v3 * m1 - c * u3 * m2 - c * hx
  · apply mul_right_cancel₀ hM
    linear_combination (u3 + 1) * m3 + (u3 - 1) * m2 - 2 * hy

theorem chord_ok {u1 v1 u2 v2 u3 v3 : K} (hu : u1 ≠ u2) (q1 : v1 ^ 2 = u1 ^ 3 + A * u1 ^ 2 + u1) (q2 : v2 ^ 2 = u2 ^ 3 + A * u2 ^ 2 + u2)
    (he : u3 * (u1 - u2) ^ 2 = (v1 - v2) ^ 2 - (A + u1 + u2) * (u1 - u2) ^ 2) (hv : v3 * (u1 - u2) = v1 * u2 - v2 * u1 - (v1 - v2) * u3) :
    u3 * (v1 * v2 * ((u1 + 1) * (u2 + 1)) + (A - 2) * (u1 * u2) * ((u1 - 1) * (u2 - 1))) =
      v3 * (u1 * v2 * (u1 + 1) * (u2 - 1) + u2 * v1 * (u2 + 1) * (u1 - 1)) ∧
    u3 * (v1 * v2 * (u1 + u2) + u1 * u2 * (A * (u1 + u2) + 2 * (u1 * u2 + 1))) =
      v1 * v2 * (u1 * u2 + 1) - u1 * u2 * (A * (u1 * u2 + 1) + 2 * (u1 + u2)) := by
  have hd : u1 - u2 ≠ 0 := sub_ne_zero.mpr hu
  constructor
  · apply mul_left_cancel₀ (pow_ne_zero 3 hd)
    linear_combination ((u1 - u2) * (v1 * v2 * ((u1 + 1) * (u2 + 1)) + (A - 2) * (u1 * u2) * ((u1 - 1) * (u2 - 1))) +
        (u1 * v2 * (u1 + 1) * (u2 - 1) + u2 * v1 * (u2 + 1) * (u1 - 1)) * (v1 - v2)) * he -
      (u1 * v2 * (u1 + 1) * (u2 - 1) + u2 * v1 * (u2 + 1) * (u1 - 1)) * (u1 - u2) ^ 2 * hv + (2 * u1 ^ 2 * u2 * v1 * v2 - 5 * u1 ^ 2 * u2 * v2 ^ 2 - A * u1 ^ 3 * u2 + A * u1 ^ 2 * u2 + 2 * u1 ^ 3 * u2 - u1 ^ 2 * u2 - 4 * u1 * u2 ^ 2 * v1 * v2 + 5 * u1 * u2 ^ 2 * v2 ^ 2 + A * u1 ^ 2 * u2 ^ 3 - 2 * A * u1 * u2 ^ 3 - 3 * A * u1 * u2 ^ 2 + 5 * u1 ^ 2 * u2 ^ 3 - 5 * u1 * u2 ^ 3 + u1 * u2 ^ 2 + u1 ^ 2 * v2 ^ 2 + u1 * v2 ^ 2 + u1 * u2 ^ 2 * v1 ^ 2 - A * u1 * u2 ^ 4 + 3 * u1 ^ 2 * u2 ^ 4 - 2 * u1 * u2 ^ 5 - u2 ^ 2 * v1 ^ 2 + 2 * u2 ^ 2 * v1 * v2 - u2 ^ 2 * v2 ^ 2 + 2 * A * u1 ^ 2 * u2 ^ 2 + A * u2 ^ 4 - 5 * u1 * u2 ^ 4 + 2 * u2 ^ 5 + u1 * u2 * v1 ^ 2 - 2 * u1 * u2 * v1 * v2 - u2 * v1 ^ 2 + 2 * u2 * v1 * v2 - u2 * v2 ^ 2 + A * u2 ^ 3 + 2 * u2 ^ 4 - 2 * u1 ^ 3 * u2 ^ 2 + A * u1 ^ 3 * u2 ^ 2 + u1 ^ 2 * u2 ^ 2 - u1 * u2) * q1 + (4 * u1 ^ 2 * u2 * v1 * v2 + 4 * A * u1 ^ 3 * u2 ^ 2 + 2 * A * u1 ^ 3 * u2 + 2 * A * u1 ^ 2 * u2 - 6 * u1 ^ 3 * u2 ^ 2 - u1 ^ 2 * u2 - 2 * u1 * u2 ^ 2 * v1 * v2 + A * u1 * u2 ^ 3 - A * u1 * u2 ^ 2 - 2 * u1 * u2 ^ 3 - u1 ^ 2 * u2 * v2 ^ 2 - 4 * A * u1 ^ 4 * u2 - 3 * u1 ^ 5 * u2 + 2 * u1 ^ 4 * u2 ^ 2 - 2 * u1 ^ 2 * v1 * v2 + u1 ^ 2 * v2 ^ 2 - 3 * A * u1 ^ 2 * u2 ^ 2 - u1 ^ 5 + 5 * u1 ^ 4 * u2 + 2 * u1 * u2 * v1 * v2 - u1 * u2 * v2 ^ 2 - 2 * u1 * v1 * v2 + u1 * v2 ^ 2 - u1 ^ 4 + 2 * u1 ^ 2 * u2 ^ 3 + 4 * u1 ^ 2 * u2 ^ 2 + u1 ^ 3 + u1 ^ 2 - u1 ^ 3 * u2 - A * u1 ^ 2 * u2 ^ 3) * q2
  · apply mul_left_cancel₀ (pow_ne_zero 2 hd)
    have w : (v1 * v2) ^ 2 = (u1 ^ 3 + A * u1 ^ 2 + u1) * (u2 ^ 3 + A * u2 ^ 2 + u2) := by rw [mul_pow, q1, q2]
    linear_combination (v1 * v2 * (u1 + u2) + u1 * u2 * (A * (u1 + u2) + 2 * (u1 * u2 + 1))) * (he + q1 + q2) - 2 * (u1 + u2) * w

theorem tangent_ok {u v u3 v3 : K} (h2 : (2 : K) ≠ 0) (hv0 : v ≠ 0) (q : v ^ 2 = u ^ 3 + A * u ^ 2 + u)
    (he : u3 * (4 * v ^ 2) = (u ^ 2 - 1) ^ 2) (hv : v3 * (2 * v) = (3 * u ^ 2 + 2 * A * u + 1) * (u - u3) - 2 * v ^ 2) :
    u3 * (v * v * ((u + 1) * (u + 1)) + (A - 2) * (u * u) * ((u - 1) * (u - 1))) =
      v3 * (u * v * (u + 1) * (u - 1) + u * v * (u + 1) * (u - 1)) ∧
    u3 * (v * v * (u + u) + u * u * (A * (u + u) + 2 * (u * u + 1))) =
      v * v * (u * u + 1) - u * u * (A * (u * u + 1) + 2 * (u + u)) := by
  have h4 : (4 * v ^ 2 : K) ≠ 0 := mul_ne_zero (by rw [show (4 : K) = 2 * 2 by norm_num]; exact mul_ne_zero h2 h2) (pow_ne_zero _ hv0)
  constructor
  · apply mul_left_cancel₀ h4
    linear_combination (v ^ 2 * (u + 1) ^ 2 + (A - 2) * u ^ 2 * (u - 1) ^ 2 + u * (u ^ 2 - 1) * (3 * u ^ 2 + 2 * A * u + 1)) * he -
      4 * v ^ 2 * (u * (u ^ 2 - 1)) * hv + (- 3 * u ^ 6 + 2 * u ^ 5 + 7 * u ^ 4 - 4 * u ^ 3 - 5 * u ^ 2 + 2 * u + 1 + 8 * u ^ 3 * v ^ 2 - 8 * u * v ^ 2) * q
  · linear_combination u * he + (-u3 * 2 * u - (u ^ 2 + 1)) * q

theorem add_ne' {A u1 v1 u2 v2 : K} {h1 : (mont A).Nonsingular u1 v1} {h2 : (mont A).Nonsingular u2 v2} (hx : u1 ≠ u2) :
    ∃ u3 v3 h3, (Point.some u1 v1 h1 : (mont A).Point) + Point.some u2 v2 h2 = Point.some u3 v3 h3 ∧
      u3 * (u1 - u2) ^ 2 = (v1 - v2) ^ 2 - (A + u1 + u2) * (u1 - u2) ^ 2 ∧ v3 * (u1 - u2) = v1 * u2 - v2 * u1 - (v1 - v2) * u3 := by
  refine ⟨_, _, _, Point.add_of_X_ne hx, ?_, ?_⟩
  · rw [slope_of_X_ne hx, addX]
    have : u1 - u2 ≠ 0 := sub_ne_zero.mpr hx
    simp only [mont]
    field_simp
    ring
  · rw [slope_of_X_ne hx]
    have : u1 - u2 ≠ 0 := sub_ne_zero.mpr hx
    generalize hX : (mont A).addX u1 u2 ((v1 - v2) / (u1 - u2)) = X
    rw [addY, negAddY, hX, negY]
    simp only [mont]
    field_simp
    ring

theorem double_pt' {A u v : K} (h2 : (2 : K) ≠ 0) {h : (mont A).Nonsingular u v} (hy : v ≠ 0) :
    ∃ u3 v3 h3, (Point.some u v h : (mont A).Point) + Point.some u v h = Point.some u3 v3 h3 ∧ u3 * (4 * v ^ 2) = (u ^ 2 - 1) ^ 2 ∧
      v3 * (2 * v) = (3 * u ^ 2 + 2 * A * u + 1) * (u - u3) - 2 * v ^ 2 := by
  have e : (mont A).negY u v = -v := by simp [negY, mont]
  have hne : v ≠ (mont A).negY u v := by
    rw [e]; intro h
    have : 2 * v = 0 := by linear_combination h
    exact hy ((mul_eq_zero.mp this).resolve_left h2)
  have hq := mont_eqn.mp h.1
  refine ⟨_, _, _, Point.add_self_of_Y_ne hne, ?_, ?_⟩
  · rw [slope_of_Y_ne rfl hne, addX, e]
    rw [show v - -v = 2 * v by ring]
    simp only [mont, zero_mul, sub_zero, add_zero]
    field_simp
    linear_combination (-16 * A - 32 * u) * hq
  · rw [slope_of_Y_ne rfl hne, e, show v - -v = 2 * v by ring]
    generalize hX : (mont A).addX u u _ = X
    rw [addY, negAddY, hX, negY]
    simp only [mont, zero_mul, sub_zero, add_zero]
    field_simp
    ring

theorem Ed.inj (H : Consts A c d i) {R : (mont A).Point} {x y x' y' : K} (h : Ed c R x y) (h' : Ed c R x' y') : x = x' ∧ y = y' := by
  match R, h, h' with
  | .zero, h, h' => exact ⟨h.1.trans h'.1.symm, h.2.trans h'.2.symm⟩
  | .some u v hn, .inl h, .inl h' => exact ⟨h.2.1.trans h'.2.1.symm, h.2.2.trans h'.2.2.symm⟩
  | .some u v hn, .inl h, .inr h' => exact absurd h.1 h'.1
  | .some u v hn, .inr h, .inl h' => exact absurd h'.1 h.1
  | .some u v hn, .inr h, .inr h' =>
    have hq := mont_eqn.mp hn.1
    exact ⟨mul_right_cancel₀ (H.v_ne hq h.1) (h.2.1.trans h'.2.1.symm), mul_right_cancel₀ (H.u1_ne hq) (h.2.2.trans h'.2.2.symm)⟩

theorem Ed.neg {R : (mont A).Point} {x y : K} (h : Ed c R x y) : Ed c (-R) (-x) y := by
  match R, h with
  | .zero, h =>
    have e : -(Point.zero : (mont A).Point) = Point.zero := neg_zero
    rw [e]
    exact ⟨by rw [h.1, neg_zero], h.2⟩
  | .some u v hn, h =>
    obtain ⟨hn', e⟩ := neg_pt hn
    rw [e]
    rcases h with ⟨a, b, e⟩ | ⟨a, b, e⟩
    · exact .inl ⟨a, by rw [b, neg_zero], e⟩
    · exact .inr ⟨a, by linear_combination b, e⟩

/-- adding the point of order two -/
theorem Ed.add_two (H : Consts A c d i) {v0 : K} {h0 : (mont A).Nonsingular 0 v0} {R : (mont A).Point} {x y : K} (h : Ed c R x y) :
    Ed c (Point.some 0 v0 h0 + R) (-x) (-y) := by
  have z : v0 = 0 := by
    have := mont_eqn.mp h0.1
    exact pow_eq_zero_iff (two_ne_zero) |>.mp (by rw [this]; ring)
  subst z
  match R, h with
  | .zero, h =>
    have e : (Point.some 0 0 h0 : (mont A).Point) + Point.zero = Point.some 0 0 h0 := add_zero _
    rw [e]
    exact .inl ⟨rfl, by rw [h.1, neg_zero], by rw [h.2]⟩
  | .some u v hn, h =>
    have hq := mont_eqn.mp hn.1
    rcases h with ⟨rfl, hx, hy⟩ | ⟨hu, hx, hy⟩
    · have z : v = 0 := pow_eq_zero_iff (two_ne_zero) |>.mp (by rw [hq]; ring)
      subst z
      rw [add_self_zero]
      exact ⟨by rw [hx, neg_zero], by rw [hy, neg_neg]⟩
    · obtain ⟨u3, v3, h3, e, he, hv⟩ := add_ne' (h1 := h0) (h2 := hn) (Ne.symm hu)
      rw [e]
      have h1 : u3 * u = 1 := by
        apply mul_right_cancel₀ hu
        linear_combination he + hq
      refine .inr ⟨fun z => by rw [z, zero_mul] at h1; exact zero_ne_one h1, ?_, ?_⟩
      · apply mul_right_cancel₀ hu
        linear_combination x * hv + u3 * hx
      · apply mul_right_cancel₀ hu
        linear_combination (-1 - y) * h1 - hy

/-- the addition formulas without exceptions -/
theorem Ed.add (H : Consts A c d i) {R S : (mont A).Point} {x1 y1 x2 y2 : K} (h1 : Ed c R x1 y1) (h2 : Ed c S x2 y2) :
    1 + d * (x1 * x2 * y1 * y2) ≠ 0 ∧ 1 - d * (x1 * x2 * y1 * y2) ≠ 0 ∧
    Ed c (R + S) ((x1 * y2 + y1 * x2) / (1 + d * (x1 * x2 * y1 * y2))) ((y1 * y2 + x1 * x2) / (1 - d * (x1 * x2 * y1 * y2))) := by
  have c1 := h1.curve H
  have c2 := h2.curve H
  have n1 : 1 + d * (x1 * x2 * y1 * y2) ≠ 0 := fun z => H.den_ne (e := -1) (by ring) c1 c2 (by linear_combination z)
  have n2 : 1 - d * (x1 * x2 * y1 * y2) ≠ 0 := fun z => H.den_ne (e := 1) (by ring) c1 c2 (by linear_combination -z)
  refine ⟨n1, n2, ?_⟩
  -- it suffices to give coordinates that solve the two equations
  suffices h : ∃ x3 y3, Ed c (R + S) x3 y3 ∧ x3 * (1 + d * (x1 * x2 * y1 * y2)) = x1 * y2 + y1 * x2 ∧
      y3 * (1 - d * (x1 * x2 * y1 * y2)) = y1 * y2 + x1 * x2 by
    obtain ⟨x3, y3, h, ex, ey⟩ := h
    rwa [← ex, ← ey, mul_div_cancel_right₀ _ n1, mul_div_cancel_right₀ _ n2]
  by_cases hS : S = -R
  · subst hS
    obtain ⟨rfl, rfl⟩ := Ed.inj H h1.neg h2
    refine ⟨0, 1, ?_, by ring, by linear_combination -c1⟩
    rw [add_neg_cancel]
    exact ⟨rfl, rfl⟩
  match hRS : R + S with
  | .zero => exact absurd (neg_eq_of_add_eq_zero_right hRS).symm hS
  | .some u3 v3 n3 =>
  by_cases hu3 : u3 = 0
  · subst hu3
    have e : S = Point.some 0 v3 n3 + -R := by rw [← hRS]; abel
    obtain ⟨rfl, rfl⟩ := Ed.inj H h2 (e ▸ h1.neg.add_two H)
    exact ⟨0, -1, .inl ⟨rfl, rfl, rfl⟩, by ring, by linear_combination c1⟩
  match R, h1 with
  | .zero, h1 =>
    obtain ⟨rfl, rfl⟩ := h1
    have e : (Point.zero : (mont A).Point) + S = S := zero_add _
    rw [e] at hRS
    rw [hRS] at h2
    exact ⟨x2, y2, h2, by ring, by ring⟩
  | .some u1 v1 hn1, .inl h1 =>
    obtain ⟨rfl, rfl, rfl⟩ := h1
    have := h2.add_two H (h0 := hn1)
    rw [hRS] at this
    exact ⟨_, _, this, by ring, by ring⟩
  | .some u1 v1 hn1, .inr h1 =>
  match S, h2 with
  | .zero, h2 =>
    obtain ⟨rfl, rfl⟩ := h2
    have e : (Point.some u1 v1 hn1 : (mont A).Point) + Point.zero = Point.some u1 v1 hn1 := add_zero _
    rw [e] at hRS
    have h1' : Ed c (Point.some u1 v1 hn1 : (mont A).Point) x1 y1 := .inr h1
    rw [hRS] at h1'
    exact ⟨x1, y1, h1', by ring, by ring⟩
  | .some u2 v2 hn2, .inl h2 =>
    obtain ⟨rfl, rfl, rfl⟩ := h2
    have h1' : Ed c (Point.some u1 v1 hn1 : (mont A).Point) x1 y1 := .inr h1
    have := h1'.add_two H (h0 := hn2)
    rw [add_comm, hRS] at this
    exact ⟨_, _, this, by ring, by ring⟩
  | .some u2 v2 hn2, .inr h2 =>
  obtain ⟨hu1, hX1, hY1⟩ := h1
  obtain ⟨hu2, hX2, hY2⟩ := h2
  have q1 := mont_eqn.mp hn1.1
  have q2 := mont_eqn.mp hn2.1
  have hv1 := H.v_ne q1 hu1
  have hv2 := H.v_ne q2 hu2
  have fin : (x1 * y2 + y1 * x2) * v3 = c * u3 * (1 + d * (x1 * x2 * y1 * y2)) ∧
      (y1 * y2 + x1 * x2) * (u3 + 1) = (u3 - 1) * (1 - d * (x1 * x2 * y1 * y2)) := by
    by_cases hx : u1 = u2
    · rcases (Point.X_eq_iff (h₁ := hn1) (h₂ := hn2)).mp hx with e | e
      · rw [Point.some.injEq] at e
        obtain ⟨rfl, rfl⟩ := e
        obtain ⟨u4, v4, h4, e4, he, hv⟩ := double_pt' H.h2 (h := hn1) hv1
        rw [hRS, Point.some.injEq] at e4
        obtain ⟨rfl, rfl⟩ := e4
        obtain ⟨a, b⟩ := tangent_ok H.h2 hv1 q1 he hv
        exact ed_core H hv1 hv2 (H.u1_ne q1) (H.u1_ne q2) hX1 hY1 hX2 hY2 a b
      · exact absurd (by rw [e, neg_neg]) hS
    · obtain ⟨u4, v4, h4, e4, he, hv⟩ := add_ne' (h1 := hn1) (h2 := hn2) hx
      rw [hRS, Point.some.injEq] at e4
      obtain ⟨rfl, rfl⟩ := e4
      obtain ⟨a, b⟩ := chord_ok hx q1 q2 he hv
      exact ed_core H hv1 hv2 (H.u1_ne q1) (H.u1_ne q2) hX1 hY1 hX2 hY2 a b
  refine ⟨(x1 * y2 + y1 * x2) / (1 + d * (x1 * x2 * y1 * y2)), (y1 * y2 + x1 * x2) / (1 - d * (x1 * x2 * y1 * y2)), .inr ⟨hu3, ?_, ?_⟩,
    div_mul_cancel₀ _ n1, div_mul_cancel₀ _ n2⟩
  · rw [div_mul_eq_mul_div, fin.1, mul_div_cancel_right₀ _ n1]
  · rw [div_mul_eq_mul_div, fin.2, mul_div_cancel_right₀ _ n2]

end Cex.Ed25519
