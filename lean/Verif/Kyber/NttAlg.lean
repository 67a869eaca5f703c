import Mathlib.Algebra.QuadraticAlgebra.Basic
import Mathlib.Tactic.NormNum
import Mathlib.Tactic.IntervalCases
import Verif.Kyber.Spec

/-!
# The layers compute the transform, and the transform is multiplicative
-/

namespace Cex.Kyber
open Finset Cex.Lattice Cex.Spec.Kyber

/-- The factor of table entry `k`. -/
def z (k : Nat) : F := 17 ^ br7 k

theorem pow128 : (17 : F) ^ 128 = -1 := by
  have h : (17 : F) ^ 16 = 2642 := by decide +kernel
  have h2 : (2642 : F) ^ 8 = -1 := by decide +kernel
  rw [show 128 = 16 * 8 from rfl, pow_mul, h, h2]

theorem pow256 : (17 : F) ^ 256 = 1 := by
  rw [show 256 = 128 * 2 from rfl, pow_mul, pow128]; ring

theorem pow_mod (n : Nat) : (17 : F) ^ n = 17 ^ (n % 256) := by
  conv_lhs => rw [← Nat.div_add_mod n 256, pow_add, pow_mul, pow256, one_pow, one_mul]

theorem br7_fit : ∀ len ∈ [2, 4, 8, 16, 32, 64, 128], ∀ b < 128 / len, br7 (256 / len - 1 - b) + br7 (128 / len + b) = 128 := by decide +kernel

theorem br7_root : ∀ t < 7, ∀ B < 128, (2 * br7 B + 1) * 2 ^ t % 256 = (128 * (B / 2 ^ t % 2) + br7 (128 / (2 * 2 ^ t) + B / 2 ^ (t + 1))) % 256 := by decide +kernel

theorem fit {len : Nat} (h : len ∈ [2, 4, 8, 16, 32, 64, 128]) : Fit z len := by
  intro b hb
  rw [z, z, ← pow_add, br7_fit len h b hb, pow128]

theorem root {t B : Nat} (ht : t < 7) (hB : B < 128) : γ B ^ 2 ^ t = (-1) ^ (B / 2 ^ t % 2) * z (128 / (2 * 2 ^ t) + B / 2 ^ (t + 1)) := by
  rw [γ, z, ← pow_mul, pow_mod, br7_root t ht B hB, ← pow_mod, pow_add, pow_mul, pow128]

theorem ev_step {t B p : Nat} (ht : t < 7) (hB : B < 128) (hp : p < 2) (f : Nat → F) :
    ev 2 (layer z (2 * 2 ^ t) f) (2 ^ t) (B / 2 ^ t * (2 * 2 ^ t) + p) (γ B) = ev 2 f (2 ^ (t + 1)) (B / 2 ^ (t + 1) * (2 * 2 ^ (t + 1)) + p) (γ B) := by
  have := ev_layer z 2 (2 ^ t) (B / 2 ^ (t + 1)) (B / 2 ^ t % 2) p f (γ B) (Nat.pos_of_ne_zero (by simp)) hp (Nat.mod_lt _ (by decide)) (root ht hB)
  rw [show 2 * (B / 2 ^ (t + 1)) + B / 2 ^ t % 2 = B / 2 ^ t from by rw [Nat.pow_succ, ← Nat.div_div_eq_div_mul]; omega] at this
  rw [this, Nat.pow_succ]
  congr 1
  · omega
  · congr 2; omega

/-- The layers in the order of `Ntt`. -/
def layers (f : Nat → F) : Nat → F := layer z 2 (layer z 4 (layer z 8 (layer z 16 (layer z 32 (layer z 64 (layer z 128 f))))))

/-- The layers in the order of `InvNtt`. -/
def invLayers (f : Nat → F) : Nat → F := invLayer z 128 (invLayer z 64 (invLayer z 32 (invLayer z 16 (invLayer z 8 (invLayer z 4 (invLayer z 2 f))))))

theorem layers_ntt (f : Nat → F) {i : Nat} (hi : i < 256) : layers f i = ntt f i := by
  have hB : i / 2 < 128 := by omega
  have hp : i % 2 < 2 := by omega
  have e0 : layers f i = ev 2 (layers f) 1 (i / 2 * 2 + i % 2) (γ (i / 2)) := by
    unfold ev
    rw [sum_range_one, pow_zero, mul_one, Nat.mul_zero, Nat.add_zero]
    congr 1
    omega
  have s (t) (ht : t < 7) (f : Nat → F) := ev_step (t := t) ht hB hp f
  have s0 := s 0 (by omega)
  have s1 := s 1 (by omega)
  have s2 := s 2 (by omega)
  have s3 := s 3 (by omega)
  have s4 := s 4 (by omega)
  have s5 := s 5 (by omega)
  have s6 := s 6 (by omega)
  norm_num only [pow_zero] at s0 s1 s2 s3 s4 s5 s6
  rw [Nat.div_one] at s0
  rw [e0, layers, s0, s1, s2, s3, s4, s5, s6]
  unfold ev ntt
  rw [Nat.div_eq_of_lt hB]
  apply sum_congr rfl
  intro j _
  congr 2
  omega

theorem invLayers_layers (f g : Nat → F) (hg : ∀ i, i < 256 → g i = layers f i) : ∀ i, i < 256 → invLayers g i = 128 * f i := by
  have a1 := invLayer_layer (len := 2) (by simp [Len]) (fit (by simp)) 1 (f := layer z 4 (layer z 8 (layer z 16 (layer z 32 (layer z 64 (layer z 128 f))))))
    (g := g) (fun i hi => by rw [hg i hi, one_mul]; rfl)
  have a2 := invLayer_layer (len := 4) (by simp [Len]) (fit (by simp)) _ a1
  have a3 := invLayer_layer (len := 8) (by simp [Len]) (fit (by simp)) _ a2
  have a4 := invLayer_layer (len := 16) (by simp [Len]) (fit (by simp)) _ a3
  have a5 := invLayer_layer (len := 32) (by simp [Len]) (fit (by simp)) _ a4
  have a6 := invLayer_layer (len := 64) (by simp [Len]) (fit (by simp)) _ a5
  have a7 := invLayer_layer (len := 128) (by simp [Len]) (fit (by simp)) _ a6
  intro i hi
  rw [show invLayers g i = _ from a7 i hi]
  ring

theorem layers_invLayers (f g : Nat → F) (hg : ∀ i, i < 256 → g i = invLayers f i) : ∀ i, i < 256 → layers g i = 128 * f i := by
  have a1 := layer_invLayer (len := 128) (by simp [Len]) (fit (by simp)) 1 (f := invLayer z 64 (invLayer z 32 (invLayer z 16 (invLayer z 8 (invLayer z 4 (invLayer z 2 f))))))
    (g := g) (fun i hi => by rw [hg i hi, one_mul]; rfl)
  have a2 := layer_invLayer (len := 64) (by simp [Len]) (fit (by simp)) _ a1
  have a3 := layer_invLayer (len := 32) (by simp [Len]) (fit (by simp)) _ a2
  have a4 := layer_invLayer (len := 16) (by simp [Len]) (fit (by simp)) _ a3
  have a5 := layer_invLayer (len := 8) (by simp [Len]) (fit (by simp)) _ a4
  have a6 := layer_invLayer (len := 4) (by simp [Len]) (fit (by simp)) _ a5
  have a7 := layer_invLayer (len := 2) (by simp [Len]) (fit (by simp)) _ a6
  intro i hi
  rw [show layers g i = _ from a7 i hi]
  ring

theorem ntt_congr {f g : Nat → F} (h : ∀ i, i < 256 → f i = g i) (k : Nat) : ntt f k = ntt g k := by
  unfold ntt
  apply sum_congr rfl
  intro j hj
  have := mem_range.mp hj
  rw [h _ (by omega)]

theorem two_ne : (128 : F) * 3303 = 1 := by decide +kernel

/-- A polynomial is determined by its transform. -/
theorem ntt_inj {f g : Nat → F} (h : ∀ i, i < 256 → ntt f i = ntt g i) : ∀ i, i < 256 → f i = g i := by
  intro i hi
  have h1 := invLayers_layers f (layers f) (fun _ _ => rfl) i hi
  have h2 := invLayers_layers g (layers f) (fun k hk => by rw [layers_ntt f hk, layers_ntt g hk, h k hk]) i hi
  have : (128 : F) * f i = 128 * g i := by rw [← h1, h2]
  linear_combination (3303 : F) * this + (f i - g i) * (-two_ne)

/-- Every vector is a transform. -/
theorem ntt_surj (g : Nat → F) : ∃ f : Nat → F, ∀ i, i < 256 → ntt f i = g i := by
  refine ⟨fun i => 3303 * invLayers g i, fun i hi => ?_⟩
  have h := layers_invLayers g (invLayers g) (fun _ _ => rfl) i hi
  rw [layers_ntt _ hi] at h
  have : ntt (fun i => 3303 * invLayers g i) i = 3303 * ntt (invLayers g) i := by
    unfold ntt
    rw [mul_sum]
    apply sum_congr rfl
    intro j _
    ring
  rw [this, h]
  linear_combination (g i) * two_ne

/-! ## Multiplication -/

/-- The ring `F[X] / (X ^ 2 - c)`. -/
abbrev Q2 (c : F) := QuadraticAlgebra F c 0

theorem omega_sq (c : F) : (⟨0, 1⟩ : Q2 c) ^ 2 = ⟨c, 0⟩ := by
  rw [pow_two]
  ext <;> simp

theorem omega_pow (c : F) (j : Nat) : (⟨0, 1⟩ : Q2 c) ^ (2 * j) = ⟨c ^ j, 0⟩ := by
  rw [pow_mul, omega_sq]
  induction j with
  | zero => ext <;> simp [QuadraticAlgebra.re_one, QuadraticAlgebra.im_one]
  | succ j ih =>
    rw [pow_succ, ih]
    ext <;> simp [pow_succ]

theorem gamma_pow (B : Nat) : γ B ^ 128 = -1 := by
  rw [γ, ← pow_mul, show (2 * br7 B + 1) * 128 = 256 * br7 B + 128 from by omega, pow_add, pow_mul, pow256, one_pow, pow128, one_mul]

theorem ntt_value (f : Nat → F) (B : Nat) :
    ∑ k ∈ range 256, (algebraMap F (Q2 (γ B))) (f k) * (⟨0, 1⟩ : Q2 (γ B)) ^ k = ⟨ntt f (2 * B), ntt f (2 * B + 1)⟩ := by
  have hs : ∀ (g : Nat → Q2 (γ B)) (n : Nat), ∑ k ∈ range (2 * n), g k = ∑ j ∈ range n, (g (2 * j) + g (2 * j + 1)) := by
    intro g n
    induction n with
    | zero => simp
    | succ n ih => rw [show 2 * (n + 1) = 2 * n + 1 + 1 from by omega, sum_range_succ, sum_range_succ, ih, sum_range_succ, add_assoc]
  have hre : ∀ (g : Nat → Q2 (γ B)) (n : Nat), (∑ j ∈ range n, g j) = ⟨∑ j ∈ range n, (g j).re, ∑ j ∈ range n, (g j).im⟩ := by
    intro g n
    induction n with
    | zero => ext <;> simp
    | succ n ih =>
      rw [sum_range_succ, ih, sum_range_succ, sum_range_succ]
      ext <;> simp
  rw [show 256 = 2 * 128 from rfl, hs, hre]
  unfold ntt
  rw [show 2 * B % 2 = 0 from by omega, show (2 * B + 1) % 2 = 1 from by omega, show 2 * B / 2 = B from by omega, show (2 * B + 1) / 2 = B from by omega]
  have hmk : ∀ {a b c d : F}, a = c → b = d → (⟨a, b⟩ : Q2 (γ B)) = ⟨c, d⟩ := by rintro a b c d rfl rfl; rfl
  apply hmk
  · apply sum_congr rfl
    intro j _
    rw [pow_succ, omega_pow]
    simp
  · apply sum_congr rfl
    intro j _
    rw [pow_succ, omega_pow]
    simp

/-- The transform of a product is the product of the transforms. -/
theorem ntt_mul (a b : Nat → F) {k : Nat} : ntt (mul a b) k = baseMul (ntt a) (ntt b) k := by
  have hx : (⟨0, 1⟩ : Q2 (γ (k / 2))) ^ 256 = -1 := by
    rw [show 256 = 2 * 128 from rfl, omega_pow, gamma_pow]
    ext <;> simp [QuadraticAlgebra.re_one, QuadraticAlgebra.im_one]
  have h := mul_eval (algebraMap F (Q2 (γ (k / 2)))) _ hx a b
  rw [ntt_value, ntt_value, ntt_value] at h
  unfold baseMul
  have h0 := congrArg QuadraticAlgebra.re h
  have h1 := congrArg QuadraticAlgebra.im h
  simp only [QuadraticAlgebra.re_mul, QuadraticAlgebra.im_mul] at h0 h1
  split
  · next e =>
    rw [show 2 * (k / 2) = k from by omega] at h0
    rw [h0]; ring
  · next e =>
    rw [show 2 * (k / 2) + 1 = k from by omega, show 2 * (k / 2) = k - 1 from by omega] at h1
    rw [h1]; ring

end Cex.Kyber
