import Verif.Dilithium.SchemeAlg
import Verif.Dilithium.VecLemmas

/-!
# Signatures of Dilithium are valid (a statement about the specification)
-/

namespace Cex.Dilithium
open Cex Cex.Lattice Cex.Spec.Dilithium Cex.Keccak Finset

variable {P : List Byte → M (List Byte)} {f : List Byte → List Byte}

/-- The three parameter sets. -/
def Std (s : Parameters) : Prop := s = level2 ∨ s = level3 ∨ s = level5

theorem Std.gamma {s : Parameters} (h : Std s) : Gamma s.gamma2 := by
  rcases h with rfl | rfl | rfl
  · exact Or.inl rfl
  · exact Or.inr rfl
  · exact Or.inr rfl

theorem Std.gamma1 {s : Parameters} (h : Std s) : s.gamma1 = 2 ^ 17 ∨ s.gamma1 = 2 ^ 19 := by
  rcases h with rfl | rfl | rfl
  · exact Or.inl rfl
  · exact Or.inr rfl
  · exact Or.inr rfl

theorem Std.eta {s : Parameters} (h : Std s) : s.eta = 2 ∨ s.eta = 4 := by
  rcases h with rfl | rfl | rfl
  · exact Or.inl rfl
  · exact Or.inr rfl
  · exact Or.inl rfl

/-- The numbers of a parameter set, as far as bounds need them. -/
theorem Std.bounds {s : Parameters} (h : Std s) : 0 < s.L ∧ s.L ≤ 7 ∧ s.K ≤ 8 ∧ s.tau ≤ 256 ∧ s.beta < 200 ∧ 95232 ≤ s.gamma2 ∧ s.gamma2 ≤ 261888 ∧ 131072 ≤ s.gamma1 ∧ s.gamma1 ≤ 524288 ∧
    s.omega < 256 := by
  rcases h with rfl | rfl | rfl <;> decide

/-- Two matrices for the same seed are equal. -/
theorem matrix_unique (p : Perm P f) {K L : Nat} {ρ : List Byte} {a a' : Nat → Nat → Nat → F} (h : IsMatrix f K L ρ a) (h' : IsMatrix f K L ρ a') {i j k : Nat} (hi : i < K) (hj : j < L) (hk : k < 256) :
    a i j k = a' i j k := by
  obtain ⟨cs, u, e⟩ := h i j hi hj
  obtain ⟨ds, u', e'⟩ := h' i j hi hj
  obtain ⟨m, hm⟩ := (found_uniform p).mp u
  obtain ⟨m', hm'⟩ := (found_uniform p).mp u'
  obtain rfl : cs = ds := by rw [← (hm (max m m') (le_max_left _ _)).2, ← (hm' (max m m') (le_max_right _ _)).2]
  have hl : cs.length = 256 := by obtain ⟨_, hl, _⟩ := u; exact hl
  refine ntt_inj (fun k hk => ?_) k hk
  have hk' : k < cs.length := by omega
  rw [e k _ (List.getElem?_eq_getElem hk'), e' k _ (List.getElem?_eq_getElem hk')]

theorem dot_congr {L : Nat} {a a' : Nat → Nat → Nat → F} {v v' : Nat → Nat → F} {i : Nat} (ha : ∀ j k, j < L → k < 256 → a i j k = a' i j k) (hv : ∀ j k, j < L → k < 256 → v j k = v' j k) (k : Nat) :
    dot L a v i k = dot L a' v' i k := by
  unfold dot
  exact sum_congr rfl fun j hj => mul_congr (fun k hk => ha j k (mem_range.mp hj) hk) (fun k hk => hv j k (mem_range.mp hj) hk) k

/-- `A z - c t₁ 2^d = w - c s₂ + c t₀`. -/
theorem commitment {L : Nat} {a : Nat → Nat → Nat → F} {y s1 : Nat → Nat → F} {s2 t0 t1 c : Nat → F} {i : Nat} (ht : ∀ k, k < 256 → t1 k + t0 k = dot L a s1 i k + s2 k) {k : Nat} (hk : k < 256) :
    dot L a (fun j k => y j k + mul c (s1 j) k) i k - mul c t1 k = dot L a y i k - mul c s2 k + mul c t0 k := by
  refine ntt_inj (f := fun k => dot L a (fun j k => y j k + mul c (s1 j) k) i k - mul c t1 k) (g := fun k => (dot L a y i k - mul c s2 k) + mul c t0 k) (fun k _ => ?_) k hk
  rw [ntt_add, ntt_sub, ntt_sub]
  have e1 : ∀ (x : Nat → F), Spec.Dilithium.ntt (fun k => mul c x k) k = Spec.Dilithium.ntt c k * Spec.Dilithium.ntt x k := fun x => ntt_mul c x k
  have e2 : ∀ (x : Nat → Nat → F), Spec.Dilithium.ntt (fun k => dot L a x i k) k = ∑ j ∈ range L, Spec.Dilithium.ntt (a i j) k * Spec.Dilithium.ntt (x j) k := fun x => ntt_dot L a x i k
  have e3 : Spec.Dilithium.ntt t1 k + Spec.Dilithium.ntt t0 k = (∑ j ∈ range L, Spec.Dilithium.ntt (a i j) k * Spec.Dilithium.ntt (s1 j) k) + Spec.Dilithium.ntt s2 k := by
    rw [← e2, ← ntt_add, ← ntt_add]
    exact ntt_congr ht k
  have e4 : ∀ j, Spec.Dilithium.ntt (fun k => y j k + mul c (s1 j) k) k = Spec.Dilithium.ntt (y j) k + Spec.Dilithium.ntt c k * Spec.Dilithium.ntt (s1 j) k := fun j => by
    rw [ntt_add (y j) (mul c (s1 j)), ntt_mul]
  simp only [e1, e2, e4]
  have e5 : ∑ j ∈ range L, Spec.Dilithium.ntt (a i j) k * (Spec.Dilithium.ntt (y j) k + Spec.Dilithium.ntt c k * Spec.Dilithium.ntt (s1 j) k) =
      (∑ j ∈ range L, Spec.Dilithium.ntt (a i j) k * Spec.Dilithium.ntt (y j) k) + Spec.Dilithium.ntt c k * ∑ j ∈ range L, Spec.Dilithium.ntt (a i j) k * Spec.Dilithium.ntt (s1 j) k := by
    rw [Finset.mul_sum, ← Finset.sum_add_distrib]
    exact sum_congr rfl fun j _ => by ring
  rw [e5]
  have e6 : (∑ j ∈ range L, Spec.Dilithium.ntt (a i j) k * Spec.Dilithium.ntt (s1 j) k) = Spec.Dilithium.ntt t1 k + Spec.Dilithium.ntt t0 k - Spec.Dilithium.ntt s2 k := by rw [e3]; ring
  rw [e6]
  ring

/-- `‖c s₂‖ ≤ β`. -/
theorem cs_norm {tau eta K : Nat} (ht : tau ≤ 256) {x : List Byte} {c : Nat → Int} (hc : IsChallenge f tau x c) {v : Nat → Nat → Int} (hv : Between K (-eta) eta v) {i k : Nat} (hi : i < K) (hk : k < 256) :
    |mul c (v i) k| ≤ (tau * eta : Nat) := by
  have h := mul_norm (B := (eta : Int)) (by omega) (isChallenge_range hc) (fun j hj => by have := hv i j hi hj; rw [abs_le]; omega) hk (x := v i)
  rw [isChallenge_count ht hc] at h
  push_cast
  exact h

/-- The high bits of `w` and of `w - c s₂` agree when the low bits are small, and the other way round. -/
theorem low_bits {g : Int} (hg : Gamma g) {β : Int} {w : F} {e : Int} (he : |e| ≤ β) (hβ : 0 ≤ β) :
    (|(Spec.Dilithium.decompose g w.val).2 - e| < g - β ↔ |(Spec.Dilithium.decompose g (w - (e : F)).val).2| < g - β) ∧
    (|(Spec.Dilithium.decompose g (w - (e : F)).val).2| < g - β →
      Spec.Dilithium.decompose g (w - (e : F)).val = ((Spec.Dilithium.decompose g w.val).1, (Spec.Dilithium.decompose g w.val).2 - e)) := by
  have back : |(Spec.Dilithium.decompose g (w - (e : F)).val).2| < g - β →
      Spec.Dilithium.decompose g (w - (e : F)).val = ((Spec.Dilithium.decompose g w.val).1, (Spec.Dilithium.decompose g w.val).2 - e) := by
    intro h
    have := decompose_shift hg (w := w - (e : F)) (e := -e) (by rw [abs_lt] at h ⊢; rw [abs_le] at he; omega)
    rw [Int.cast_neg, sub_neg_eq_add, sub_add_cancel] at this
    rw [this]
    simp
  refine ⟨⟨fun h => ?_, fun h => ?_⟩, back⟩
  · rw [decompose_shift hg (by omega)]
    exact h
  · have := back h
    rw [this] at h
    exact h

theorem encW1_ext {s : Parameters} {x y : Nat → Nat → Int} (h : ∀ i k, i < s.K → k < 256 → x i k = y i k) : encW1 s x = encW1 s y :=
  flatMap_range_congr fun i hi => packPlain_ext fun k hk => h i k hi hk

/-- A signature is valid under the public key. -/
theorem signature_valid (p : Perm P f) {s : Parameters} (hs : Std s) {x : SecretKey} (hx : x.Fits s) {pk msg sig : List Byte} (hpk : IsPublic f s x pk) (h : IsSignature f s x msg sig) : Valid f s pk msg sig := by
  obtain ⟨a, ma, t1, rfl, htr, ht⟩ := hpk
  obtain ⟨a', μ, ρ', κ, c, ma', hμ, hρ', X, hX, _, hc, acc, rfl⟩ := h
  have hg := hs.gamma
  obtain ⟨b1, b2, b3, b4, b5, b6, b7, b8, b9, b10⟩ := hs.bounds
  have hXs : X.s = s := by rw [hX]
  have hround : ∀ i k, i < s.K → k < 256 → 0 ≤ t1 i k ∧ t1 i k ≤ 1023 ∧ red (t1 i) k * 8192 + red (x.t0 i) k = dot s.L a (fun j => red (x.s1 j)) i k + red (x.s2 i) k := by
    intro i k hi hk
    have e := ht i k hi hk
    generalize dot s.L a (fun j => red (x.s1 j)) i k + red (x.s2 i) k = t at *
    obtain ⟨v0, v1⟩ := val_range t
    obtain ⟨q1, q2, q3, q4, q5⟩ := power2Round_parts v0 v1
    rw [← e] at q1 q2 q3 q4 q5
    simp only [] at q1 q2 q3 q4 q5
    refine ⟨q1, by omega, ?_⟩
    have hw : t = ((t.val : Int) : F) := by rw [Int.cast_natCast, ZMod.natCast_zmod_val]
    conv_rhs => rw [hw, q5]
    unfold red
    push_cast
    rfl
  have hXf : X.f = f := by rw [hX]
  refine ⟨x.ρ, t1, X.hash κ, fun i k => centre (X.z κ c i k), X.h κ c, a, c, hx.ρ, fun i k hi hk => ⟨(hround i k hi hk).1, (hround i k hi hk).2.1⟩, rfl, ?_, ?_, by rw [← hXs]; exact acc.hints,
    by rw [Signing.sig, hXs], ma, hc, ?_⟩
  · rw [Signing.hash, hXf]
    exact shake_len p (by norm_num) (by norm_num) _
  · intro i k hi hk
    have := acc.z i k (by rw [hXs]; exact hi) hk
    rw [hXs] at this
    rw [(centre_spec _).2.2]
    omega
  · rw [Signing.hash, hXf, hXs, ← htr, ← hμ]
    have hXμ : X.μ = μ := by rw [hX]
    rw [hXμ, encW1_ext]
    intro i k hi hk
    have hr0 := acc.r0 i k (by rw [hXs]; exact hi) hk
    have ht0 := acc.t0 i k (by rw [hXs]; exact hi) hk
    rw [hXs] at hr0 ht0
    have hcs := cs_norm b4 hc hx.s2 hi hk
    have hrw : X.r κ c i k = X.w κ i k - ((mul c (x.s2 i) k : Int) : F) := by rw [Signing.r, hX, red_mul]
    have hhigh : highBits s.gamma2 (X.w κ i k).val = highBits s.gamma2 (X.r κ c i k).val := by
      have := (low_bits hg hcs (by omega) (w := X.w κ i k)).2
      rw [← hrw] at this
      unfold highBits
      rw [this hr0]
    rw [hhigh]
    have hcode := (hint_code hg (r := X.r κ c i k) (ct := X.ct0 c i k) (by unfold Parameters.beta at *; omega) (by exact_mod_cast ht0)).2
    rw [← hcode]
    have hh : X.h κ c i k = Spec.Dilithium.makeHint s.gamma2 (-(X.ct0 c i k).val) (X.r κ c i k + X.ct0 c i k).val := by rw [Signing.h, hXs]
    have hz : dot s.L a (fun j => red (fun k => centre (X.z κ c j k))) i k = dot s.L a (fun j k => X.y κ j k + mul (red c) (red (x.s1 j)) k) i k := by
      refine dot_congr (fun j k _ _ => rfl) (fun j k hj hk => ?_) k
      show ((centre (X.z κ c j k) : Int) : F) = _
      rw [(centre_spec _).1, Signing.z, hX]
    have hw : X.w κ i k = dot s.L a (X.y κ) i k := by
      rw [Signing.w, hXs, hX]
      exact dot_congr (fun j k hj hk => matrix_unique p ma' ma hi hj hk) (fun j k _ _ => rfl) k
    have e : dot s.L a (fun j => red (fun k => centre (X.z κ c j k))) i k - mul (red c) (fun k => red (t1 i) k * 8192) k = X.r κ c i k + X.ct0 c i k := by
      rw [hz, commitment (t0 := red (x.t0 i)) (s2 := red (x.s2 i)) (fun k hk => (hround i k hi hk).2.2) hk, hrw, hw, red_mul, Signing.ct0, hX]
    rw [e, hh]

end Cex.Dilithium
