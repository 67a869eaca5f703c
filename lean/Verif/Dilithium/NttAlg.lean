import Mathlib.Tactic.NormNum
import Verif.Dilithium.Spec

/-!
# The layers compute the transform, and the transform is multiplicative
-/

namespace Cex.Dilithium
open Finset Cex.Lattice Cex.Spec.Dilithium

/-- The factor of table entry `k`. -/
def z (k : Nat) : F := 1753 ^ br8 k

theorem pow256 : (1753 : F) ^ 256 = -1 := by
  have h1 : (1753 : F) ^ 4 = (1753 ^ 4 % 8380417 : Nat) := by decide +kernel
  have h2 : ((1753 ^ 4 % 8380417 : Nat) : F) ^ 4 = (1753 ^ 16 % 8380417 : Nat) := by decide +kernel
  have h3 : ((1753 ^ 16 % 8380417 : Nat) : F) ^ 4 = (1753 ^ 64 % 8380417 : Nat) := by decide +kernel
  have h4 : ((1753 ^ 64 % 8380417 : Nat) : F) ^ 4 = -1 := by decide +kernel
  rw [show 256 = 4 * 4 * 4 * 4 from rfl, pow_mul, pow_mul, pow_mul, h1, h2, h3, h4]

theorem pow512 : (1753 : F) ^ 512 = 1 := by
  rw [show 512 = 256 * 2 from rfl, pow_mul, pow256]; ring

theorem pow_mod (n : Nat) : (1753 : F) ^ n = 1753 ^ (n % 512) := by
  conv_lhs => rw [← Nat.div_add_mod n 512, pow_add, pow_mul, pow512, one_pow, one_mul]

theorem br8_fit : ∀ len ∈ [1, 2, 4, 8, 16, 32, 64, 128], ∀ b < 128 / len, br8 (256 / len - 1 - b) + br8 (128 / len + b) = 256 := by decide +kernel

theorem br8_root : ∀ t < 8, ∀ B < 256, (2 * br8 B + 1) * 2 ^ t % 512 = (256 * (B / 2 ^ t % 2) + br8 (128 / 2 ^ t + B / 2 ^ (t + 1))) % 512 := by decide +kernel

theorem fit {len : Nat} (h : len ∈ [1, 2, 4, 8, 16, 32, 64, 128]) : Fit z len := by
  intro b hb
  rw [z, z, ← pow_add, br8_fit len h b hb, pow256]

theorem root {t B : Nat} (ht : t < 8) (hB : B < 256) : γ B ^ 2 ^ t = (-1) ^ (B / 2 ^ t % 2) * z (128 / (1 * 2 ^ t) + B / 2 ^ (t + 1)) := by
  rw [γ, z, ← pow_mul, pow_mod, br8_root t ht B hB, ← pow_mod, pow_add, pow_mul, pow256, Nat.one_mul]

theorem ev_step {t B : Nat} (ht : t < 8) (hB : B < 256) (f : Nat → F) :
    ev 1 (layer z (2 ^ t) f) (2 ^ t) (B / 2 ^ t * 2 ^ t) (γ B) = ev 1 f (2 ^ (t + 1)) (B / 2 ^ (t + 1) * 2 ^ (t + 1)) (γ B) := by
  have := ev_layer z 1 (2 ^ t) (B / 2 ^ (t + 1)) (B / 2 ^ t % 2) 0 f (γ B) (Nat.pos_of_ne_zero (by simp)) (by decide) (Nat.mod_lt _ (by decide)) (root ht hB)
  rw [show 2 * (B / 2 ^ (t + 1)) + B / 2 ^ t % 2 = B / 2 ^ t from by rw [Nat.pow_succ, ← Nat.div_div_eq_div_mul]; omega, Nat.one_mul, Nat.add_zero, Nat.add_zero] at this
  rw [this, Nat.pow_succ, Nat.mul_comm (2 ^ t) 2]

/-- The layers in the order of `Ntt`. -/
def layers (f : Nat → F) : Nat → F := layer z 1 (layer z 2 (layer z 4 (layer z 8 (layer z 16 (layer z 32 (layer z 64 (layer z 128 f)))))))

/-- The layers in the order of `InvNttToMont`. -/
def invLayers (f : Nat → F) : Nat → F := invLayer z 128 (invLayer z 64 (invLayer z 32 (invLayer z 16 (invLayer z 8 (invLayer z 4 (invLayer z 2 (invLayer z 1 f)))))))

theorem layers_ntt (f : Nat → F) {i : Nat} (hi : i < 256) : layers f i = ntt f i := by
  have e0 : layers f i = ev 1 (layers f) 1 i (γ i) := by
    unfold ev
    rw [sum_range_one, pow_zero, mul_one, Nat.mul_zero, Nat.add_zero]
  have s (t) (ht : t < 8) (f : Nat → F) := ev_step (t := t) ht hi f
  have s0 := s 0 (by omega)
  have s1 := s 1 (by omega)
  have s2 := s 2 (by omega)
  have s3 := s 3 (by omega)
  have s4 := s 4 (by omega)
  have s5 := s 5 (by omega)
  have s6 := s 6 (by omega)
  have s7 := s 7 (by omega)
  norm_num only [pow_zero] at s0 s1 s2 s3 s4 s5 s6 s7
  rw [Nat.div_one, Nat.mul_one] at s0
  rw [e0, layers, s0, s1, s2, s3, s4, s5, s6, s7]
  unfold ev ntt
  rw [Nat.div_eq_of_lt hi]
  apply sum_congr rfl
  intro j _
  congr 2
  omega

theorem invLayers_layers (f g : Nat → F) (hg : ∀ i, i < 256 → g i = layers f i) : ∀ i, i < 256 → invLayers g i = 256 * f i := by
  have a0 := invLayer_layer (len := 1) (by simp [Len]) (fit (by simp)) 1 (f := layer z 2 (layer z 4 (layer z 8 (layer z 16 (layer z 32 (layer z 64 (layer z 128 f)))))))
    (g := g) (fun i hi => by rw [hg i hi, one_mul]; rfl)
  have a1 := invLayer_layer (len := 2) (by simp [Len]) (fit (by simp)) _ a0
  have a2 := invLayer_layer (len := 4) (by simp [Len]) (fit (by simp)) _ a1
  have a3 := invLayer_layer (len := 8) (by simp [Len]) (fit (by simp)) _ a2
  have a4 := invLayer_layer (len := 16) (by simp [Len]) (fit (by simp)) _ a3
  have a5 := invLayer_layer (len := 32) (by simp [Len]) (fit (by simp)) _ a4
  have a6 := invLayer_layer (len := 64) (by simp [Len]) (fit (by simp)) _ a5
  have a7 := invLayer_layer (len := 128) (by simp [Len]) (fit (by simp)) _ a6
  intro i hi
  rw [show invLayers g i = _ from a7 i hi]
  ring

theorem layers_invLayers (f g : Nat → F) (hg : ∀ i, i < 256 → g i = invLayers f i) : ∀ i, i < 256 → layers g i = 256 * f i := by
  have a1 := layer_invLayer (len := 128) (by simp [Len]) (fit (by simp)) 1 (f := invLayer z 64 (invLayer z 32 (invLayer z 16 (invLayer z 8 (invLayer z 4 (invLayer z 2 (invLayer z 1 f)))))))
    (g := g) (fun i hi => by rw [hg i hi, one_mul]; rfl)
  have a2 := layer_invLayer (len := 64) (by simp [Len]) (fit (by simp)) _ a1
  have a3 := layer_invLayer (len := 32) (by simp [Len]) (fit (by simp)) _ a2
  have a4 := layer_invLayer (len := 16) (by simp [Len]) (fit (by simp)) _ a3
  have a5 := layer_invLayer (len := 8) (by simp [Len]) (fit (by simp)) _ a4
  have a6 := layer_invLayer (len := 4) (by simp [Len]) (fit (by simp)) _ a5
  have a7 := layer_invLayer (len := 2) (by simp [Len]) (fit (by simp)) _ a6
  have a8 := layer_invLayer (len := 1) (by simp [Len]) (fit (by simp)) _ a7
  intro i hi
  rw [show layers g i = _ from a8 i hi]
  ring

theorem ntt_congr {f g : Nat → F} (h : ∀ i, i < 256 → f i = g i) (k : Nat) : ntt f k = ntt g k := by
  unfold ntt
  apply sum_congr rfl
  intro j hj
  have := mem_range.mp hj
  rw [h _ (by omega)]

theorem inv256 : (256 : F) * 8347681 = 1 := by decide +kernel

/-- A polynomial is determined by its transform. -/
theorem ntt_inj {f g : Nat → F} (h : ∀ i, i < 256 → ntt f i = ntt g i) : ∀ i, i < 256 → f i = g i := by
  intro i hi
  have h1 := invLayers_layers f (layers f) (fun _ _ => rfl) i hi
  have h2 := invLayers_layers g (layers f) (fun k hk => by rw [layers_ntt f hk, layers_ntt g hk, h k hk]) i hi
  have : (256 : F) * f i = 256 * g i := by rw [← h1, h2]
  linear_combination (8347681 : F) * this + (f i - g i) * (-inv256)

/-- The inverse transform. -/
def intt (g : Nat → F) (i : Nat) : F := 8347681 * invLayers g i

theorem ntt_intt (g : Nat → F) {i : Nat} (hi : i < 256) : ntt (intt g) i = g i := by
  have h := layers_invLayers g (invLayers g) (fun _ _ => rfl) i hi
  rw [layers_ntt _ hi] at h
  have : ntt (intt g) i = 8347681 * ntt (invLayers g) i := by
    unfold ntt intt
    rw [mul_sum]
    apply sum_congr rfl
    intro j _
    ring
  rw [this, h]
  linear_combination (g i) * inv256

theorem intt_ntt {f g : Nat → F} (h : ∀ i, i < 256 → g i = ntt f i) {i : Nat} (hi : i < 256) : intt g i = f i :=
  ntt_inj (fun k hk => by rw [ntt_intt _ hk, h k hk]) i hi

/-! ## Multiplication -/

theorem gamma_pow (B : Nat) : γ B ^ 256 = -1 := by
  rw [γ, ← pow_mul, show (2 * br8 B + 1) * 256 = 512 * br8 B + 256 from by omega, pow_add, pow_mul, pow512, one_pow, pow256, one_mul]

/-- The transform of a product is the product of the transforms. -/
theorem ntt_mul (a b : Nat → F) (k : Nat) : ntt (mul a b) k = ntt a k * ntt b k := mul_eval (RingHom.id F) (γ k) (gamma_pow k) a b

theorem ntt_add (a b : Nat → F) (k : Nat) : ntt (fun i => a i + b i) k = ntt a k + ntt b k := by
  unfold ntt
  rw [← sum_add_distrib]
  exact sum_congr rfl fun j _ => by ring

theorem ntt_sub (a b : Nat → F) (k : Nat) : ntt (fun i => a i - b i) k = ntt a k - ntt b k := by
  unfold ntt
  rw [← sum_sub_distrib]
  exact sum_congr rfl fun j _ => by ring

theorem ntt_smul (c : F) (a : Nat → F) (k : Nat) : ntt (fun i => c * a i) k = c * ntt a k := by
  unfold ntt
  rw [mul_sum]
  exact sum_congr rfl fun j _ => by ring

end Cex.Dilithium
