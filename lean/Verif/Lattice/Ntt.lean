import Mathlib.Algebra.BigOperators.Ring.Finset
import Mathlib.Algebra.BigOperators.Intervals
import Mathlib.Tactic.Ring
import Mathlib.Tactic.LinearCombination

/-!
# Butterfly layers over a commutative ring

The layers of the number theoretic transforms of Kyber and Dilithium as functions on sequences, what they compute, and their inverses.
Pure algebra: nothing here is about the code.
-/

namespace Cex.Lattice
open Finset

variable {F : Type} [CommRing F]

/-- One forward layer on 256 values: blocks of `2 * len`, the factor of block `b` is `ζ (128 / len + b)`. -/
def layer (ζ : Nat → F) (len : Nat) (f : Nat → F) : Nat → F := fun i =>
  if i % (2 * len) < len then f i + ζ (128 / len + i / (2 * len)) * f (i + len)
  else f (i - len) - ζ (128 / len + i / (2 * len)) * f i

/-- One inverse layer: the factors of block `b` is `ζ (256 / len - 1 - b)`. -/
def invLayer (ζ : Nat → F) (len : Nat) (f : Nat → F) : Nat → F := fun i =>
  if i % (2 * len) < len then f i + f (i + len)
  else ζ (256 / len - 1 - i / (2 * len)) * (f i - f (i - len))

/-- The values `f (s)`, `f (s + w)`, … as a polynomial with `m` coefficients, at `γ`. -/
def ev (w : Nat) (f : Nat → F) (m s : Nat) (γ : F) : F := ∑ j ∈ range m, f (s + w * j) * γ ^ j

theorem ev_split (w : Nat) (f : Nat → F) (m s : Nat) (γ : F) : ev w f (2 * m) s γ = ev w f m s γ + γ ^ m * ev w f m (s + w * m) γ := by
  unfold ev
  rw [show 2 * m = m + m from by omega, sum_range_add, mul_sum]
  congr 1
  apply sum_congr rfl
  intro j _
  rw [pow_add, show s + w * (m + j) = s + w * m + w * j from by rw [Nat.mul_add]; omega]
  ring

theorem div_block {len b i o : Nat} (hl : 0 < len) (ho : o < 2 * len) (hi : i = b * (2 * len) + o) : i / (2 * len) = b ∧ i % (2 * len) = o := by
  subst hi
  constructor
  · rw [Nat.add_comm, Nat.add_mul_div_right _ _ (by omega), Nat.div_eq_of_lt ho, Nat.zero_add]
  · rw [Nat.add_comm, Nat.add_mul_mod_self_right, Nat.mod_eq_of_lt ho]

/-- A layer turns the values of a block, as a polynomial modulo `X ^ (2 * m) - z ^ 2`, into its residues modulo `X ^ m - z` and `X ^ m + z`. -/
theorem ev_layer (ζ : Nat → F) (w m b c p : Nat) (f : Nat → F) (γ : F) (hm : 0 < m) (hp : p < w) (hc : c < 2)
    (hγ : γ ^ m = (-1) ^ c * ζ (128 / (w * m) + b)) :
    ev w (layer ζ (w * m) f) m ((2 * b + c) * (w * m) + p) γ = ev w f (2 * m) (b * (2 * (w * m)) + p) γ := by
  have hl : 0 < w * m := Nat.mul_pos (by omega) hm
  have hw : ∀ j, j < m → p + w * j < w * m := by
    intro j hj
    calc p + w * j < w + w * j := by omega
      _ = w * (j + 1) := by rw [Nat.mul_add]; omega
      _ ≤ w * m := Nat.mul_le_mul_left _ hj
  rw [ev_split]
  have e1 : (2 * b + 1) * (w * m) = b * (2 * (w * m)) + w * m := by rw [Nat.add_mul, Nat.mul_comm 2 b, Nat.mul_assoc]; omega
  have e0 : (2 * b + 0) * (w * m) = b * (2 * (w * m)) := by rw [Nat.add_zero, Nat.mul_comm 2 b, Nat.mul_assoc]
  obtain rfl | rfl : c = 0 ∨ c = 1 := by omega
  · rw [e0, hγ]
    unfold ev
    rw [mul_sum, ← sum_add_distrib]
    apply sum_congr rfl
    intro j hj
    have hj := hw j (mem_range.mp hj)
    obtain ⟨d1, d2⟩ := div_block (b := b) (i := b * (2 * (w * m)) + p + w * j) (o := p + w * j) hl (by omega) (by omega)
    rw [layer, if_pos (by omega), d1, show b * (2 * (w * m)) + p + w * j + w * m = b * (2 * (w * m)) + p + w * m + w * j from by omega]
    ring
  · rw [e1, hγ]
    unfold ev
    rw [mul_sum, ← sum_add_distrib]
    apply sum_congr rfl
    intro j hj
    have hj := hw j (mem_range.mp hj)
    obtain ⟨d1, d2⟩ := div_block (b := b) (i := b * (2 * (w * m)) + w * m + p + w * j) (o := w * m + p + w * j) hl (by omega) (by omega)
    rw [layer, if_neg (by omega), d1, show b * (2 * (w * m)) + w * m + p + w * j - w * m = b * (2 * (w * m)) + p + w * j from by omega,
      show b * (2 * (w * m)) + w * m + p + w * j = b * (2 * (w * m)) + p + w * m + w * j from by omega]
    ring

/-- `len` is the half of a block size of the transforms. -/
def Len (len : Nat) : Prop := len = 1 ∨ len = 2 ∨ len = 4 ∨ len = 8 ∨ len = 16 ∨ len = 32 ∨ len = 64 ∨ len = 128

theorem Len.pos {len : Nat} (h : Len len) : 0 < len := by unfold Len at h; omega

/-- Where an index of an inner position lies. -/
theorem Len.lo {len i : Nat} (h : Len len) (hi : i < 256) (ho : i % (2 * len) < len) :
    i + len < 256 ∧ (i + len) % (2 * len) = i % (2 * len) + len ∧ (i + len) / (2 * len) = i / (2 * len) := by
  rcases h with rfl | rfl | rfl | rfl | rfl | rfl | rfl | rfl <;> omega

theorem Len.hi {len i : Nat} (h : Len len) (hi : i < 256) (ho : ¬ i % (2 * len) < len) :
    len ≤ i ∧ (i - len) % (2 * len) < len ∧ (i - len) / (2 * len) = i / (2 * len) := by
  rcases h with rfl | rfl | rfl | rfl | rfl | rfl | rfl | rfl <;> omega

theorem Len.block {len i : Nat} (h : Len len) (hi : i < 256) : i / (2 * len) < 128 / len := by
  rcases h with rfl | rfl | rfl | rfl | rfl | rfl | rfl | rfl <;> omega

/-- The factors of an inverse layer fit those of the layer. -/
def Fit (ζ : Nat → F) (len : Nat) : Prop := ∀ b, b < 128 / len → ζ (256 / len - 1 - b) * ζ (128 / len + b) = -1

theorem layer_congr {ζ : Nat → F} {len : Nat} (h : Len len) {f g : Nat → F} (hf : ∀ i, i < 256 → f i = g i) :
    ∀ i, i < 256 → layer ζ len f i = layer ζ len g i := by
  intro i hi
  unfold layer
  split
  · next ho => rw [hf i hi, hf _ (h.lo hi ho).1]
  · next ho => rw [hf i hi, hf _ (by omega)]

theorem invLayer_congr {ζ : Nat → F} {len : Nat} (h : Len len) {f g : Nat → F} (hf : ∀ i, i < 256 → f i = g i) :
    ∀ i, i < 256 → invLayer ζ len f i = invLayer ζ len g i := by
  intro i hi
  unfold invLayer
  split
  · next ho => rw [hf i hi, hf _ (h.lo hi ho).1]
  · next ho => rw [hf i hi, hf _ (by omega)]

theorem invLayer_layer {ζ : Nat → F} {len : Nat} (h : Len len) (hz : Fit ζ len) (c : F) {f g : Nat → F}
    (hg : ∀ i, i < 256 → g i = c * layer ζ len f i) : ∀ i, i < 256 → invLayer ζ len g i = 2 * c * f i := by
  intro i hi
  unfold invLayer
  split
  · next ho =>
    obtain ⟨h1, h2, h3⟩ := h.lo hi ho
    rw [hg i hi, hg _ h1, layer, if_pos ho, layer, if_neg (by omega), h3, Nat.add_sub_cancel]
    ring
  · next ho =>
    obtain ⟨h1, h2, h3⟩ := h.hi hi ho
    rw [hg i hi, hg _ (by omega), layer, if_neg ho, layer, if_pos h2, h3, Nat.sub_add_cancel h1]
    have := hz _ (h.block hi)
    linear_combination (-2 * c * f i) * this

theorem layer_invLayer {ζ : Nat → F} {len : Nat} (h : Len len) (hz : Fit ζ len) (c : F) {f g : Nat → F}
    (hg : ∀ i, i < 256 → g i = c * invLayer ζ len f i) : ∀ i, i < 256 → layer ζ len g i = 2 * c * f i := by
  intro i hi
  have hb := hz _ (h.block hi)
  unfold layer
  split
  · next ho =>
    obtain ⟨h1, h2, h3⟩ := h.lo hi ho
    rw [hg i hi, hg _ h1, invLayer, if_pos ho, invLayer, if_neg (by omega), h3, Nat.add_sub_cancel]
    linear_combination (c * (f (i + len) - f i)) * hb
  · next ho =>
    obtain ⟨h1, h2, h3⟩ := h.hi hi ho
    rw [hg i hi, hg _ (by omega), invLayer, if_pos h2, invLayer, if_neg ho, Nat.sub_add_cancel h1]
    linear_combination (-c * (f i - f (i - len))) * hb

/-! ## Multiplication modulo `X ^ 256 + 1` -/

/-- Coefficient `k` of the product: the terms of exponent `k` less those of exponent `k + 256`. -/
def mul (a b : Nat → F) (k : Nat) : F :=
  ∑ i ∈ range 256, ∑ j ∈ range 256, if i + j = k then a i * b j else if i + j = k + 256 then - (a i * b j) else 0

/-- At any `x` with `x ^ 256 = -1`, in any algebra, the product has the product of the values. -/
theorem mul_eval {S : Type} [CommRing S] (φ : F →+* S) (x : S) (hx : x ^ 256 = -1) (a b : Nat → F) :
    ∑ k ∈ range 256, φ (mul a b k) * x ^ k = (∑ i ∈ range 256, φ (a i) * x ^ i) * ∑ j ∈ range 256, φ (b j) * x ^ j := by
  simp only [mul, map_sum, sum_mul]
  rw [sum_comm]
  apply sum_congr rfl
  intro i hi
  rw [sum_comm, mul_sum]
  apply sum_congr rfl
  intro j hj
  have hi := mem_range.mp hi
  have hj := mem_range.mp hj
  by_cases h : i + j < 256
  · rw [sum_eq_single (i + j)]
    · rw [if_pos rfl, map_mul, pow_add]; ring
    · intro k hk hne
      have hk := mem_range.mp hk
      rw [if_neg (fun e => hne e.symm), if_neg (by omega), map_zero, zero_mul]
    · intro hn; exact absurd (mem_range.mpr h) hn
  · rw [sum_eq_single (i + j - 256)]
    · rw [if_neg (by omega), if_pos (by omega), map_neg, map_mul]
      have : x ^ (i + j) = - x ^ (i + j - 256) := by
        conv_lhs => rw [show i + j = 256 + (i + j - 256) from by omega, pow_add, hx]
        ring
      rw [pow_add] at this
      linear_combination (-(φ (a i) * φ (b j))) * this
    · intro k hk hne
      have hk := mem_range.mp hk
      rw [if_neg (by omega), if_neg (by omega), map_zero, zero_mul]
    · intro hn; exact absurd (mem_range.mpr (by omega)) hn

end Cex.Lattice
