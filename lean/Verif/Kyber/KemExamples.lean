import Verif.Kyber.KemProps

/-!
# The conditions of C61 can be met

The theorems hold for every function in the place of the permutation of Keccak. For one that ignores its argument everything can be computed: all noise polynomials are 1, the matrix is not zero, and
for the parameter set with `K = 3` decryption cannot fail.
-/

namespace Cex.Kyber
open Cex Cex.Lattice Cex.Spec.Lattice Cex.Spec.Kyber

/-- A state with only the first of its first 136 bytes set, and others. -/
def toyState : List Byte := 1 :: (List.replicate 135 0 ++ List.replicate 64 0x21)

def toy (_ : List Byte) : List Byte := toyState

theorem toy_perm : Keccak.Perm (fun s => .ok (toy s)) toy := ⟨fun _ _ => rfl, fun _ _ => (by decide +kernel : toyState.length = 200)⟩

theorem toy_sponge {r : Nat} (h0 : 0 < r) (dom : Byte) (m : List Byte) (n : Nat) : Fips202.sponge toy r dom m n = Fips202.squeeze toy r toyState n := by
  rw [Fips202.sponge, ← Keccak.f_absorbed h0]; rfl

theorem toy_noise (seed : List Byte) (nonce n : Nat) (hn : n < 256) : noise toy 2 seed nonce n = if n = 0 then 1 else 0 := by
  rw [noise, Fips202.shake, toy_sponge (by decide), Keccak.squeeze_lt (by decide)]
  have : ∀ n < 256, cbd 2 (toyState.take (64 * 2)) n = if n = 0 then 1 else 0 := by decide +kernel
  exact this n hn

theorem toy_enough (ρ : List Byte) : Enough toy 3 ρ := by
  intro x y _ _
  rw [Fips202.shake, toy_sponge (by decide), Keccak.squeeze_ge (by decide) (by decide), Keccak.squeeze_ge (by decide) (by decide), Keccak.squeeze_ge (by decide) (by decide),
    Keccak.squeeze_lt (by decide)]
  decide +kernel

theorem one_mul' (b : Nat → F) {k : Nat} (hk : k < 256) : mul (fun n => if n = 0 then 1 else 0) b k = b k := by
  rw [mul, Finset.sum_eq_single 0 (fun i _ hi => Finset.sum_eq_zero fun j _ => by simp [hi]) (by simp), Finset.sum_eq_single k]
  · simp
  · intro j hj hjk
    have := Finset.mem_range.mp hj
    rw [if_neg (by omega), if_neg (by omega)]
  · intro h; exact absurd (Finset.mem_range.mpr hk) h

theorem of_norm {x : F} {B : Nat} (h : norm x ≤ B) : ∃ z : Int, -(B : Int) ≤ z ∧ z ≤ B ∧ x = (z : F) := by
  rw [norm] at h
  have hv := val_lt x
  have e : ((x.val : Nat) : F) = x := ZMod.natCast_zmod_val x
  by_cases hx : x.val ≤ B
  · exact ⟨x.val, by omega, by omega, by rw [Int.cast_natCast, e]⟩
  · refine ⟨x.val - 3329, by omega, by omega, ?_⟩
    have h0 : (3329 : F) = 0 := by decide
    push_cast
    rw [e, h0, sub_zero]

theorem toy_noFailure (A : Nat → Nat → Nat → F) (σ m coins : List Byte) : NoFailure toy 3 2 A σ m coins := by
  intro n hn
  have hone : ∀ (seed : List Byte) (j k : Nat), ∀ i, i < 3 → ∀ n, n < 256 → noiseVec toy 2 seed j i n = (fun _ n => if n = 0 then 1 else 0 : Nat → Nat → F) i n := by
    intro seed j _ i _ n hn
    rw [noiseVec, toy_noise _ _ _ hn]
    by_cases h : n = 0 <;> simp [h]
  rw [noiseTerm, inner_congr (hone _ _ 0) (hone _ _ 0), inner_congr (hone _ _ 0) (fun _ _ _ _ => rfl), Spec.Kyber.inner, Spec.Kyber.inner, Finset.sum_congr rfl fun k _ => one_mul' _ hn,
    Finset.sum_congr rfl fun k _ => one_mul' _ hn, toy_noise _ _ _ hn]
  simp only [Finset.sum_range_succ, Finset.sum_range_zero]
  rw [hone _ _ 0 0 (by decide) n hn, hone _ _ 0 1 (by decide) n hn, hone _ _ 0 2 (by decide) n hn]
  obtain ⟨v, v1, v2, ev⟩ := of_norm (C59_rounding (cipherPoly 3 (publicVec 3 A (noiseVec toy 2 σ 0) (noiseVec toy 2 σ 3)) (noiseVec toy 2 coins 0) (fun n => (noise toy 2 coins (2 * 3) n : F)) m n)).1
  have hu := fun i => of_norm (C59_rounding (cipherVec 3 A (noiseVec toy 2 coins 0) (noiseVec toy 2 coins 3) i n)).2.2.1
  obtain ⟨a, a1, a2, ea⟩ := hu 0
  obtain ⟨b, b1, b2, eb⟩ := hu 1
  obtain ⟨c, c1, c2, ec⟩ := hu 2
  have hdv : dv 3 = 4 := rfl
  have hdu : du 3 = 10 := rfl
  rw [hdv, hdu, roundErr, ev, roundErr, ea, roundErr, eb, roundErr, ec]
  refine ⟨(if n = 0 then 1 else 0) + v - a - b - c, ?_, ?_, ?_⟩
  · split <;> omega
  · split <;> omega
  · by_cases h : n = 0 <;> simp only [h, if_true, if_false] <;> push_cast <;> ring

/-- The conditions of the round trip hold, with the matrix of the specification. -/
example (d z r : List Byte) (hd : d.length = 32) (hz : z.length = 32) (hr : r.length = 32) :
    ∃ A pk sk ct secret, IsMatrix toy 3 ((G toy d).take 32) A ∧ (Obj.mk ⟨3, 2⟩ none none []).generate (fun s => .ok (toy s)) 1 d z = .ok (pk, sk) ∧
      ((Obj.mk ⟨5, 2⟩ none none []).initialize pk).encapsulate (fun s => .ok (toy s)) 1 r = .ok (ct, secret) ∧ secret.length = 32 ∧
      ∀ ss, ((Obj.mk ⟨2, 3⟩ none none []).initialize sk).decapsulate (fun s => .ok (toy s)) 1 ct ss = .ok (true, secret) := by
  obtain ⟨A, hA⟩ := matrix_exists (toy_enough ((G toy d).take 32))
  have hs := samples_of_matrix toy_perm (toy_enough _) 0 hA
  obtain ⟨pk, sk, ct, secret, h⟩ := C61_roundtrip toy_perm (Obj.mk ⟨3, 2⟩ none none []) (Obj.mk ⟨2, 3⟩ none none []) (Obj.mk ⟨5, 2⟩ none none []) (by simp [sets]) rfl rfl 1 hd hz hr hs (toy_noFailure A _ _ _)
  exact ⟨A, pk, sk, ct, secret, hA, h⟩

/-- The matrix is not the zero matrix. -/
example (ρ : List Byte) (A : Nat → Nat → Nat → F) (hA : IsMatrix toy 3 ρ A) : Spec.Kyber.ntt (A 0 0) 0 = 1 := by
  obtain ⟨cs, h1, h2⟩ := hA 0 0 (by decide) (by decide)
  have h3 : Parses toy ρ 0 0 ((accepted (Fips202.shake toy 168 (ρ ++ [BitVec.ofNat 8 0, BitVec.ofNat 8 0]) 534)).take 256) :=
    ⟨178, by rw [List.length_take]; have := toy_enough ρ 0 0 (by decide) (by decide); omega, rfl⟩
  rw [C60_parse_unique toy_perm h1 h3] at h2
  rw [h2 0 1, Nat.cast_one]
  rw [Fips202.shake, toy_sponge (by decide), Keccak.squeeze_ge (by decide) (by decide), Keccak.squeeze_ge (by decide) (by decide), Keccak.squeeze_ge (by decide) (by decide),
    Keccak.squeeze_lt (by decide)]
  decide +kernel

end Cex.Kyber
