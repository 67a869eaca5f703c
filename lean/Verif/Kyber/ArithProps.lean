import Verif.Kyber.MulLemmas

/-!
# C58: the arithmetic of Kyber
-/

namespace Cex.Kyber
open Cex Cex.Lattice Cex.Spec.Kyber Finset

/-- Coefficient `i` of a polynomial as a field element. -/
def coeff (r : List Int) (i : Nat) : F := match r[i]? with | some v => (v : F) | none => 0

/-- 256 coefficients, at most `B` in absolute value. -/
def Bounded (B : Int) (r : List Int) : Prop := r.length = 256 ∧ ∀ v ∈ r, |v| ≤ B

theorem rep_of_bounded {B : Int} {r : List Int} (h : Bounded B r) : Rep (Is B) r (coeff r) := by
  refine ⟨h.1, fun i v hv => ⟨h.2 v (List.mem_of_getElem? hv), ?_⟩⟩
  rw [coeff, hv]

theorem bounded_of_rep {B : Int} {r : List Int} {f : Nat → F} (h : Rep (Is B) r f) : Bounded B r ∧ ∀ i, i < 256 → coeff r i = f i := by
  refine ⟨⟨h.1, fun v hv => ?_⟩, fun i hi => ?_⟩
  · obtain ⟨i, hi, rfl⟩ := List.mem_iff_getElem.mp hv
    exact (h.2 i _ (List.getElem?_eq_getElem hi)).1
  · obtain ⟨v, _, e, s⟩ := h.get hi
    rw [coeff, e]
    exact s.2

/-- **C58** (Montgomery reduction): exact division by `2 ^ 16` modulo `q`, result below `q`, no overflow, for every operand up to `q * (2 ^ 15 - 1)`. -/
theorem C58_montgomery (a : Int) (h : |a| ≤ 3329 * 32767) : ∃ t, montgomeryReduce a = .ok t ∧ |t| < 3329 ∧ (t * 65536 - a) % 3329 = 0 := by
  obtain ⟨t, h1, h2, h3⟩ := montgomery_spec (a := a) (C := 3328) (x := (a : F)) (by omega) (by omega) rfl
  refine ⟨t, h1, by omega, ?_⟩
  have : ((t * 65536 - a : Int) : F) = ((0 : Int) : F) := by
    push_cast
    rw [h3]
    linear_combination (a : F) * r_inv
  rw [ZMod.intCast_eq_intCast_iff] at this
  exact this

/-- **C58** (Barrett reduction): the centred representative, for every `int16_t`. -/
theorem C58_barrett (a : Int) (h1 : -32768 ≤ a) (h2 : a ≤ 32767) : ∃ t, barrettReduce a = .ok t ∧ |t| ≤ 1664 ∧ (t - a) % 3329 = 0 := by
  obtain ⟨t, h3, h4, h5⟩ := barrett_spec (a := a) (x := (a : F)) ⟨abs_le.mpr (by omega), rfl⟩ h2
  refine ⟨t, h3, h4, ?_⟩
  rw [ZMod.intCast_eq_intCast_iff] at h5
  have : t % 3329 = a % 3329 := h5
  omega

/-- **C58** (`Ntt`): for all coefficients up to 9471 nothing overflows and the result is the transform of the specification. -/
theorem C58_ntt {r : List Int} (h : Bounded 9471 r) :
    ∃ r', ntt r = .ok r' ∧ Bounded 32767 r' ∧ ∀ i, i < 256 → coeff r' i = Spec.Kyber.ntt (coeff r) i := by
  obtain ⟨r', h1, h2⟩ := ntt_layers (rep_of_bounded h)
  obtain ⟨h3, h4⟩ := bounded_of_rep h2
  exact ⟨r', h1, h3, fun i hi => by rw [h4 i hi, layers_ntt _ hi]⟩

/-- **C58** (`PolyNttv2`): the same with centred coefficients. -/
theorem C58_polyNtt {r : List Int} (h : Bounded 9471 r) :
    ∃ r', polyNtt r = .ok r' ∧ Bounded 1664 r' ∧ ∀ i, i < 256 → coeff r' i = Spec.Kyber.ntt (coeff r) i := by
  obtain ⟨r', h1, h2⟩ := ntt_layers (rep_of_bounded h)
  obtain ⟨r'', h3, h4⟩ := polyReduce_spec h2
  obtain ⟨h5, h6⟩ := bounded_of_rep h4
  exact ⟨r'', by rw [polyNtt, h1, ok_bind, h3], h5, fun i hi => by rw [h6 i hi, layers_ntt _ hi]⟩

/-- **C58** (`InvNtt`): for all coefficients up to 16383 the result is the polynomial whose transform is `2 ^ 16` times the argument. -/
theorem C58_invNtt {r : List Int} (h : Bounded 16383 r) :
    ∃ r', invNtt r = .ok r' ∧ Bounded 3328 r' ∧ ∀ i, i < 256 → Spec.Kyber.ntt (coeff r') i = 65536 * coeff r i := by
  obtain ⟨r', h1, h2⟩ := invNtt_layers (rep_of_bounded h)
  obtain ⟨h3, h4⟩ := bounded_of_rep h2
  refine ⟨r', h1, h3, fun i hi => ?_⟩
  rw [ntt_congr h4]
  have e : Spec.Kyber.ntt (fun i => 512 * invLayers (coeff r) i) i = 512 * Spec.Kyber.ntt (invLayers (coeff r)) i := by
    unfold Spec.Kyber.ntt
    rw [mul_sum]
    exact sum_congr rfl fun j _ => by ring
  rw [e, ← layers_ntt _ hi, layers_invLayers (coeff r) _ (fun _ _ => rfl) i hi]
  ring

theorem ntt_smul (c : F) (f : Nat → F) (i : Nat) : Spec.Kyber.ntt (fun i => c * f i) i = c * Spec.Kyber.ntt f i := by
  unfold Spec.Kyber.ntt
  rw [mul_sum]
  exact sum_congr rfl fun j _ => by ring

theorem ntt_add (f g : Nat → F) (i : Nat) : Spec.Kyber.ntt (fun i => f i + g i) i = Spec.Kyber.ntt f i + Spec.Kyber.ntt g i := by
  unfold Spec.Kyber.ntt
  rw [← sum_add_distrib]
  exact sum_congr rfl fun j _ => by ring

theorem ntt_sum (n : Nat) (f : Nat → Nat → F) (i : Nat) : Spec.Kyber.ntt (fun k => ∑ j ∈ range n, f j k) i = ∑ j ∈ range n, Spec.Kyber.ntt (f j) i := by
  induction n with
  | zero => simp [Spec.Kyber.ntt]
  | succ n ih =>
    simp only [sum_range_succ]
    rw [ntt_add, ih]

/-- **C58** (there and back): `InvNtt` after `PolyNttv2` is multiplication by `2 ^ 16`. -/
theorem C58_roundtrip {r : List Int} (h : Bounded 9471 r) :
    ∃ r' r'', polyNtt r = .ok r' ∧ invNtt r' = .ok r'' ∧ Bounded 3328 r'' ∧ ∀ i, i < 256 → coeff r'' i = 65536 * coeff r i := by
  obtain ⟨r', h1, h2, h3⟩ := C58_polyNtt h
  obtain ⟨r'', h4, h5, h6⟩ := C58_invNtt (r := r') ⟨h2.1, fun v hv => by have := h2.2 v hv; omega⟩
  refine ⟨r', r'', h1, h4, h5, ntt_inj fun i hi => ?_⟩
  rw [ntt_smul, h6 i hi, h3 i hi]

theorem baseMul_congr {a a' b b' : Nat → F} (ha : ∀ i, i < 256 → a i = a' i) (hb : ∀ i, i < 256 → b i = b' i) {k : Nat} (hk : k < 256) :
    Spec.Kyber.baseMul a b k = Spec.Kyber.baseMul a' b' k := by
  unfold Spec.Kyber.baseMul
  split
  · rw [ha k hk, hb k hk, ha (k + 1) (by omega), hb (k + 1) (by omega)]
  · rw [ha k hk, hb k hk, ha (k - 1) (by omega), hb (k - 1) (by omega)]

/-- **C58** (products): transforming, multiplying and transforming back gives the product modulo `X ^ 256 + 1`, without overflow, for all coefficients up to 9471. -/
theorem C58_mul {a b t : List Int} (ha : Bounded 9471 a) (hb : Bounded 9471 b) (ht : t.length = 256) :
    ∃ a' b' c d, polyNtt a = .ok a' ∧ polyNtt b = .ok b' ∧ polyBaseMul t a' b' = .ok c ∧ invNtt c = .ok d ∧ Bounded 3328 d ∧
      ∀ k, k < 256 → coeff d k = mul (coeff a) (coeff b) k := by
  obtain ⟨a', h1, h2, h3⟩ := C58_polyNtt ha
  obtain ⟨b', h4, h5, h6⟩ := C58_polyNtt hb
  obtain ⟨c, h7, h8⟩ := polyBaseMul_spec ht ((rep_of_bounded h2).mono fun v i _ hv => hv.mono (by omega)) ((rep_of_bounded h5).mono fun v i _ hv => hv.mono (by omega))
  obtain ⟨h9, h10⟩ := bounded_of_rep h8
  obtain ⟨d, h11, h12, h13⟩ := C58_invNtt (r := c) ⟨h9.1, fun v hv => by have := h9.2 v hv; omega⟩
  refine ⟨a', b', c, d, h1, h4, h7, h11, h12, ntt_inj fun i hi => ?_⟩
  rw [h13 i hi, h10 i hi, ntt_mul, baseMul_congr h3 h6 hi]
  linear_combination (Spec.Kyber.baseMul (Spec.Kyber.ntt (coeff a)) (Spec.Kyber.ntt (coeff b)) i) * r_inv

/-- **C58** (scalar products): `PolyVecBaseMulAccMontgomery` and `InvNtt` on two vectors of up to 5 transforms, with the first in the range `PolyFromBytes`
and `RejUniform` deliver (0 to 4095), give the sum of the products modulo `X ^ 256 + 1` of the polynomials with these transforms. -/
theorem C58_dot {K : Nat} {as bs : List (List Int)} {t : List Int} (hK : 0 < K) (hK5 : K ≤ 5) (ha : as.length = K) (hb : bs.length = K)
    (hab : ∀ a ∈ as, Bounded 4095 a) (hbb : ∀ b ∈ bs, Bounded 4095 b) (ht : t.length = 256) (f g : Nat → Nat → F)
    (hf : ∀ i a, as[i]? = some a → ∀ k, k < 256 → coeff a k = Spec.Kyber.ntt (f i) k) (hg : ∀ i b, bs[i]? = some b → ∀ k, k < 256 → coeff b k = Spec.Kyber.ntt (g i) k) :
    ∃ c d, polyVecBaseMulAcc t as bs = .ok c ∧ invNtt c = .ok d ∧ Bounded 3328 d ∧ ∀ k, k < 256 → coeff d k = ∑ i ∈ range K, mul (f i) (g i) k := by
  have ra : Reps (Is 4095) K as (fun i => Spec.Kyber.ntt (f i)) := by
    refine ⟨ha, fun i r hr => (rep_of_bounded (hab r (List.mem_of_getElem? hr))).mono fun v k hk hv => ?_⟩
    rw [hf i r hr k hk] at hv
    exact hv
  have rb : Reps (Is 4095) K bs (fun i => Spec.Kyber.ntt (g i)) := by
    refine ⟨hb, fun i r hr => (rep_of_bounded (hbb r (List.mem_of_getElem? hr))).mono fun v k hk hv => ?_⟩
    rw [hg i r hr k hk] at hv
    exact hv
  obtain ⟨c, h7, h8⟩ := polyVecBaseMulAcc_spec ht hK hK5 ra rb
  obtain ⟨h9, h10⟩ := bounded_of_rep h8
  obtain ⟨d, h11, h12, h13⟩ := C58_invNtt (r := c) ⟨h9.1, fun v hv => by have := h9.2 v hv; omega⟩
  refine ⟨c, d, h7, h11, h12, ntt_inj fun i hi => ?_⟩
  rw [h13 i hi, h10 i hi, ntt_sum]
  simp only [ntt_mul]
  rw [dot]
  linear_combination (∑ j ∈ range K, Spec.Kyber.baseMul (Spec.Kyber.ntt (f j)) (Spec.Kyber.ntt (g j)) i) * r_inv

/-- Not vacuous: a polynomial at the bounds. -/
example : Bounded 9471 (List.replicate 128 9471 ++ List.replicate 128 (-9471)) := by
  refine ⟨by rw [List.length_append, List.length_replicate, List.length_replicate], fun v hv => ?_⟩
  simp only [List.mem_append, List.mem_replicate] at hv
  rcases hv with ⟨_, rfl⟩ | ⟨_, rfl⟩ <;> decide

end Cex.Kyber
