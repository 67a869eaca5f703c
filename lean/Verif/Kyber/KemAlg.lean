import Verif.Kyber.KemSpec
import Verif.Kyber.CodecProps

/-!
# Why decryption works
-/

namespace Cex.Kyber
open Cex Cex.Lattice Cex.Spec.Lattice Cex.Spec.Kyber

theorem ntt_inner' (K : Nat) (a b : Nat → Nat → F) : Spec.Kyber.ntt (Spec.Kyber.inner K a b) = fun n => ∑ k ∈ Finset.range K, Spec.Kyber.baseMul (Spec.Kyber.ntt (a k)) (Spec.Kyber.ntt (b k)) n := by
  funext n
  rw [show Spec.Kyber.inner K a b = fun i => ∑ k ∈ Finset.range K, mul (a k) (b k) i from rfl, ntt_sum]
  exact Finset.sum_congr rfl fun k _ => by rw [ntt_mul]

theorem baseMul_sum_left (K : Nat) (a : Nat → Nat → F) (b : Nat → F) (n : Nat) :
    Spec.Kyber.baseMul (fun n => ∑ k ∈ Finset.range K, a k n) b n = ∑ k ∈ Finset.range K, Spec.Kyber.baseMul (a k) b n := by
  unfold Spec.Kyber.baseMul
  split <;> simp only [Finset.sum_mul, Finset.mul_sum, Finset.sum_add_distrib]

theorem baseMul_comm (a b : Nat → F) (n : Nat) : Spec.Kyber.baseMul a b n = Spec.Kyber.baseMul b a n := by
  unfold Spec.Kyber.baseMul
  split <;> ring

theorem baseMul_sum_right (K : Nat) (a : Nat → Nat → F) (b : Nat → F) (n : Nat) :
    Spec.Kyber.baseMul b (fun n => ∑ k ∈ Finset.range K, a k n) n = ∑ k ∈ Finset.range K, Spec.Kyber.baseMul b (a k) n := by
  rw [baseMul_comm, baseMul_sum_left]
  exact Finset.sum_congr rfl fun k _ => baseMul_comm _ _ _

theorem baseMul_swap (a s r : Nat → F) (n : Nat) : Spec.Kyber.baseMul (Spec.Kyber.baseMul a s) r n = Spec.Kyber.baseMul s (Spec.Kyber.baseMul a r) n := by
  unfold Spec.Kyber.baseMul
  rcases Nat.mod_two_eq_zero_or_one n with h | h
  · have h1 : (n + 1) % 2 = 1 := by omega
    have h2 : (n + 1) / 2 = n / 2 := by omega
    simp only [h, h1, if_true, Nat.add_sub_cancel, one_ne_zero, if_false]
    ring
  · have h1 : (n - 1) % 2 = 0 := by omega
    have h2 : (n - 1) / 2 = n / 2 := by omega
    have h3 : n - 1 + 1 = n := by omega
    simp only [h, h1, h2, h3, if_true, one_ne_zero, if_false]
    ring

/-- `(A s)ᵀ r = sᵀ (Aᵀ r)`. -/
theorem inner_swap (K : Nat) (A : Nat → Nat → Nat → F) (s r : Nat → Nat → F) :
    ∀ n, n < 256 → Spec.Kyber.inner K (fun i => Spec.Kyber.inner K (A i) s) r n = Spec.Kyber.inner K s (fun i => Spec.Kyber.inner K (fun j => A j i) r) n := by
  refine ntt_inj fun n _ => ?_
  rw [ntt_inner', ntt_inner']
  simp only [ntt_inner', baseMul_sum_left, baseMul_sum_right]
  rw [Finset.sum_comm]
  exact Finset.sum_congr rfl fun i _ => Finset.sum_congr rfl fun j _ => baseMul_swap _ _ _ _

theorem mul_add_right (a b c : Nat → F) (n : Nat) : mul a (fun i => b i + c i) n = mul a b n + mul a c n := by
  unfold mul
  rw [← Finset.sum_add_distrib]
  refine Finset.sum_congr rfl fun i _ => ?_
  rw [← Finset.sum_add_distrib]
  refine Finset.sum_congr rfl fun j _ => ?_
  split
  · ring
  · split <;> ring

theorem mul_add_left (a b c : Nat → F) (n : Nat) : mul (fun i => b i + c i) a n = mul b a n + mul c a n := by
  unfold mul
  rw [← Finset.sum_add_distrib]
  refine Finset.sum_congr rfl fun i _ => ?_
  rw [← Finset.sum_add_distrib]
  refine Finset.sum_congr rfl fun j _ => ?_
  split
  · ring
  · split <;> ring

theorem mul_congr {a a' b b' : Nat → F} (ha : ∀ i, i < 256 → a i = a' i) (hb : ∀ i, i < 256 → b i = b' i) (n : Nat) : mul a b n = mul a' b' n := by
  unfold mul
  refine Finset.sum_congr rfl fun i hi => Finset.sum_congr rfl fun j hj => ?_
  rw [ha i (Finset.mem_range.mp hi), hb j (Finset.mem_range.mp hj)]

theorem inner_congr {K : Nat} {a a' b b' : Nat → Nat → F} (ha : ∀ k, k < K → ∀ i, i < 256 → a k i = a' k i) (hb : ∀ k, k < K → ∀ i, i < 256 → b k i = b' k i) (n : Nat) :
    Spec.Kyber.inner K a b n = Spec.Kyber.inner K a' b' n :=
  Finset.sum_congr rfl fun k hk => mul_congr (ha k (Finset.mem_range.mp hk)) (hb k (Finset.mem_range.mp hk)) n

theorem inner_add_right (K : Nat) (a b c : Nat → Nat → F) (n : Nat) : Spec.Kyber.inner K a (fun k i => b k i + c k i) n = Spec.Kyber.inner K a b n + Spec.Kyber.inner K a c n := by
  unfold Spec.Kyber.inner
  rw [← Finset.sum_add_distrib]
  exact Finset.sum_congr rfl fun k _ => mul_add_right _ _ _ _

theorem inner_add_left (K : Nat) (a b c : Nat → Nat → F) (n : Nat) : Spec.Kyber.inner K (fun k i => b k i + c k i) a n = Spec.Kyber.inner K b a n + Spec.Kyber.inner K c a n := by
  unfold Spec.Kyber.inner
  rw [← Finset.sum_add_distrib]
  exact Finset.sum_congr rfl fun k _ => mul_add_left _ _ _ _

/-- What is left of a ciphertext after subtracting `sᵀ u`: the message, and `eᵀ r + e₂ + cv - sᵀ (e₁ + cu)`, where `cu` and `cv` come from the compression. -/
theorem noise_term (K : Nat) (A : Nat → Nat → Nat → F) (s e r e1 cu : Nat → Nat → F) (e2 cv : Nat → F) (m : List Byte) {n : Nat} (hn : n < 256) :
    cipherPoly K (publicVec K A s e) r e2 m n + cv n - Spec.Kyber.inner K s (fun i k => cipherVec K A r e1 i k + cu i k) n =
      decodeCompressed 1 m n + (Spec.Kyber.inner K e r n + e2 n + cv n - Spec.Kyber.inner K s (fun i k => e1 i k + cu i k) n) := by
  have h1 : Spec.Kyber.inner K (publicVec K A s e) r n = Spec.Kyber.inner K (fun i => Spec.Kyber.inner K (A i) s) r n + Spec.Kyber.inner K e r n := inner_add_left K r _ _ n
  have h2 : Spec.Kyber.inner K s (fun i k => cipherVec K A r e1 i k + cu i k) n =
      Spec.Kyber.inner K s (fun i => Spec.Kyber.inner K (fun j => A j i) r) n + Spec.Kyber.inner K s (fun i k => e1 i k + cu i k) n := by
    rw [← inner_add_right]
    exact inner_congr (fun _ _ _ _ => rfl) (fun k _ i _ => by rw [cipherVec, add_assoc]) n
  rw [h2, cipherPoly, h1, inner_swap K A s r n hn]
  ring

end Cex.Kyber
