import Verif.Dilithium.RoundLemmas

/-!
# C67: the arithmetic of Dilithium
-/

namespace Cex.Dilithium
open Cex Cex.Lattice Cex.Spec.Dilithium Finset

/-- Coefficient `i` of a polynomial as a field element. -/
def coeff (r : List Int) (i : Nat) : F := match r[i]? with | some v => (v : F) | none => 0

/-- 256 coefficients, at most `B` in absolute value. -/
def Bounded (B : Int) (r : List Int) : Prop := r.length = 256 ∧ ∀ v ∈ r, |v| ≤ B

theorem rep_of_bounded {B : Int} {r : List Int} (h : Bounded B r) : Rep (Is B) r (coeff r) := by
  refine ⟨h.1, fun i v hv => ⟨h.2 v (List.mem_of_getElem? hv), ?_⟩⟩
  rw [coeff, hv]

theorem bounded_of_rep {B : Int} {r : List Int} {f : Nat → F} (h : Rep (Is B) r f) : Bounded B r ∧ ∀ i, i < 256 → coeff r i = f i := by
  refine ⟨⟨h.1, fun v hv => ?_⟩, fun i hi => ?_⟩
  · obtain ⟨i, hi, rfl⟩ := List.mem_iff_getElem.mp hv
    exact (h.2 i _ (List.getElem?_eq_getElem hi)).1
  · obtain ⟨v, _, e, s⟩ := h.get hi
    rw [coeff, e]
    exact s.2

/-- **C67**, refuted for the letter of the standard: the product of two `int32_t` in `MontReduce` overflows for all operands but those whose low half is below 37
in absolute value. -/
theorem C67_signed_overflow (a : Int) (h : 37 ≤ |c32 a|) : montReduceStrict a = .error .ub := by
  have : ¬ (-2147483648 ≤ c32 a * QINV ∧ c32 a * QINV ≤ 2147483647) := by
    rw [QINV]
    rcases le_abs.mp h with h | h <;> omega
  rw [montReduceStrict, i32, if_neg this]
  rfl

/-- **C67** (Montgomery reduction), with a wrapping product: exact division by `2 ^ 32` modulo `q`, no other overflow, for every operand up to `2 ^ 31 * q`. -/
theorem C67_montgomery (a : Int) (h : |a| ≤ 2147483648 * 8380417) : ∃ t, montReduce a = .ok t ∧ |t| ≤ 8380417 ∧ (t * 4294967296 - a) % 8380417 = 0 := by
  obtain ⟨t, h1, h2, h3⟩ := mont_spec (a := a) (C := 8380417) (x := (a : F)) (by omega) (by omega) rfl (by decide)
  refine ⟨t, h1, by omega, ?_⟩
  have : ((t * 4294967296 - a : Int) : F) = ((0 : Int) : F) := by
    push_cast
    rw [h3]
    linear_combination (a : F) * r_inv
  rw [ZMod.intCast_eq_intCast_iff] at this
  exact this

/-- **C67** (`Reduce32`). -/
theorem C67_reduce (a : Int) (h : |a| ≤ 2143289343) : ∃ t, reduce32 a = .ok t ∧ -6283009 ≤ t ∧ t ≤ 6283008 ∧ (t - a) % 8380417 = 0 := by
  obtain ⟨t, h1, h2, h3, h4⟩ := reduce_spec (a := a) (x := (a : F)) ⟨h, rfl⟩
  refine ⟨t, h1, h2, h3, ?_⟩
  rw [ZMod.intCast_eq_intCast_iff] at h4
  have : t % 8380417 = a % 8380417 := h4
  omega

/-- **C67** (`Ntt`): no overflow as long as 8 steps of growth fit, and the result is the transform of the specification. -/
theorem C67_ntt {B : Int} {r : List Int} (hB : B ≤ 2080440319) (h : Bounded B r) :
    ∃ r', ntt r = .ok r' ∧ Bounded (B + 67043328) r' ∧ ∀ i, i < 256 → coeff r' i = Spec.Dilithium.ntt (coeff r) i := by
  obtain ⟨r', h1, h2⟩ := ntt_rep (by omega) (rep_of_bounded h)
  exact ⟨r', h1, bounded_of_rep h2⟩

/-- **C67** (`InvNttToMont`): the result is the polynomial whose transform is `2 ^ 32` times the argument. -/
theorem C67_invNtt {r : List Int} (h : Bounded 8380416 r) :
    ∃ r', invNttToMont r = .ok r' ∧ Bounded 4211200 r' ∧ ∀ i, i < 256 → Spec.Dilithium.ntt (coeff r') i = 4294967296 * coeff r i := by
  obtain ⟨r', h1, h2⟩ := invNtt_rep (rep_of_bounded h)
  obtain ⟨h3, h4⟩ := bounded_of_rep h2
  refine ⟨r', h1, h3, fun i hi => ?_⟩
  rw [ntt_congr h4, ntt_smul, ntt_intt _ hi]

/-- **C67** (products): transforming, multiplying and transforming back gives the product modulo `X ^ 256 + 1`, without overflow, for all coefficients below `q`. -/
theorem C67_mul {a b t : List Int} (ha : Bounded 8380416 a) (hb : Bounded 8380416 b) (ht : t.length = 256) :
    ∃ a' b' c d, ntt a = .ok a' ∧ ntt b = .ok b' ∧ polyPointwise t a' b' = .ok c ∧ invNttToMont c = .ok d ∧ Bounded 4211200 d ∧
      ∀ k, k < 256 → coeff d k = mul (coeff a) (coeff b) k := by
  obtain ⟨a', h1, h2, h3⟩ := C67_ntt (by omega) ha
  obtain ⟨b', h4, h5, h6⟩ := C67_ntt (by omega) hb
  obtain ⟨c, h7, h8⟩ := polyPointwise_spec (A := 75423744) (B := 75423744) ht (rep_of_bounded h2) (rep_of_bounded h5) (by norm_num)
  obtain ⟨h9, h10⟩ := bounded_of_rep h8
  obtain ⟨d, h11, h12, h13⟩ := C67_invNtt h9
  refine ⟨a', b', c, d, h1, h4, h7, h11, h12, ntt_inj fun i hi => ?_⟩
  rw [h13 i hi, h10 i hi, ntt_mul, h3 i hi, h6 i hi]
  linear_combination (Spec.Dilithium.ntt (coeff a) i * Spec.Dilithium.ntt (coeff b) i) * r_inv

/-- **C67** (`Decompose`, `Power2Round`, `UseHint`): exactly the functions of the specification on canonical residues, for both values of `γ2`; undefined behaviour nowhere. -/
theorem C67_rounding (g : Int) (hg : g = 95232 ∨ g = 261888) (a : Int) (h0 : 0 ≤ a) (h1 : a < 8380417) :
    decompose g a = .ok (Spec.Dilithium.decompose g a) ∧ power2Round a = .ok (Spec.Dilithium.power2Round a) ∧
    ∀ h : Bool, useHint g a (if h then 1 else 0) = .ok (Spec.Dilithium.useHint g h a) := by
  refine ⟨decompose_spec hg h0 h1, power2Round_spec h0 h1, fun h => ?_⟩
  rw [useHint_spec hg h0 h1]
  cases h <;> rfl

/-- **C67** (`MakeHint`): for high bits `w1` and a low part `r`, given as a canonical residue, the hint is the one of the
specification: it says whether replacing the low part `r` by a small `u` changes the high bits. -/
theorem C67_makeHint (g : Int) (hg : g = 95232 ∨ g = 261888) (w1 r u : Int) (h0 : 0 ≤ w1) (h1 : w1 < 8380416 / (2 * g)) (h2 : |r| < 2 * g) (h3 : |u| < g) :
    makeHint g (if r < 0 then r + 8380417 else r) w1 = if Spec.Dilithium.makeHint g (u - r) (w1 * (2 * g) + r) then 1 else 0 := by
  obtain ⟨h4, h5⟩ := abs_lt.mp h2
  obtain ⟨h6, h7⟩ := abs_lt.mp h3
  rw [makeHint_spec hg h0 h1 h4 h5 h6 h7 rfl]
  generalize (if r < 0 then r + 8380417 else r) = r'
  simp only [makeHint]
  split <;> simp

/-- **C67** (hints): the hint that the signer computes from its low part `r` lets the verifier, who only knows `w1 * 2 * γ2 + r` modulo `q`, recover `w1`. -/
theorem C67_hint (g : Int) (hg : g = 95232 ∨ g = 261888) (w1 r w' : Int) (h0 : 0 ≤ w1) (h1 : w1 < 8380416 / (2 * g)) (h2 : |r| < 2 * g)
    (hw : w' = (w1 * (2 * g) + r) % 8380417) : useHint g w' (makeHint g (if r < 0 then r + 8380417 else r) w1) = .ok w1 := by
  obtain ⟨h4, h5⟩ := abs_lt.mp h2
  have hw0 : 0 ≤ w' := by omega
  have hw1 : w' < 8380417 := by omega
  have hx : w' = w1 * (2 * g) + r ∨ w' = w1 * (2 * g) + r + 8380417 := by
    have hl : -8380417 ≤ w1 * (2 * g) + r ∧ w1 * (2 * g) + r < 8380417 := by
      rcases hg with rfl | rfl <;> omega
    rcases mod_q hl.1 hl.2 hw with h | h
    · exact .inl h.2
    · exact .inr h.2
  have e := hint_recovers hg h0 h1 h4 h5 rfl hw0 hw1 hx
  rw [useHint_spec hg hw0 hw1, e]

/-- **C67** (`PolyChkNorm`): on reduced coefficients, the test says whether some coefficient is at least `B` away from 0 modulo `q`. -/
theorem C67_norm {r : List Int} (h : Bounded 6283009 r) (B : Int) (hB : B ≤ 1047552) :
    ∃ b, polyChkNorm r B = .ok b ∧ (b = true ↔ ∃ i, i < 256 ∧ B ≤ norm (coeff r i)) := polyChkNorm_spec (rep_of_bounded h) hB

/-- Not vacuous: polynomials at the bounds; numbers for the hints with a carry; `MontReduce` of 37. -/
example : Bounded 8380416 (List.replicate 128 8380416 ++ List.replicate 128 (-8380416)) ∧ Bounded 6283009 (List.replicate 256 (-6283009)) := by
  refine ⟨⟨by rw [List.length_append, List.length_replicate, List.length_replicate], fun v hv => ?_⟩, ⟨List.length_replicate, fun v hv => ?_⟩⟩
  · simp only [List.mem_append, List.mem_replicate] at hv
    rcases hv with ⟨_, rfl⟩ | ⟨_, rfl⟩ <;> decide
  · obtain ⟨_, rfl⟩ := List.mem_replicate.mp hv
    decide

example : makeHint 95232 100000 43 = 1 ∧ useHint 95232 ((43 * (2 * 95232) + 100000) % 8380417) 1 = .ok 43 ∧ useHint 95232 ((43 * (2 * 95232) + 100000) % 8380417) 0 = .ok 0 := by
  decide

example : montReduceStrict 37 = .error .ub ∧ ∃ t, montReduce 37 = .ok t := ⟨C67_signed_overflow 37 (by decide), (C67_montgomery 37 (by decide)).imp fun _ h => h.1⟩

end Cex.Dilithium
