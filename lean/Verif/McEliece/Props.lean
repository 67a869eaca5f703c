import Verif.McEliece.Square

/-!
# C102: the field arithmetic of McEliece

The field is GF(2)[x] modulo x^13 + x^4 + x^3 + x + 1 (Verif/McEliece/Spec.lean). `el` takes an element to the `uint16_t` with the 13 bits.
-/

namespace Cex.McEliece

open Spec

/-- Every `uint16_t` below 2^13 is an element. -/
theorem el_surj (a : BitVec 16) (h : a.toNat < 8192) : el (a.setWidth 13) = a := by
  apply BitVec.eq_of_toNat_eq
  unfold el
  rw [BitVec.toNat_setWidth, BitVec.toNat_setWidth, Nat.mod_eq_of_lt (a := a.toNat) (by omega), Nat.mod_eq_of_lt (by omega)]

/-- C102: the specification is a field: a commutative product with 1, distributive over the sum, and an inverse of everything but 0. -/
theorem C102_field :
    (∀ a b, mul a b = mul b a) ∧ (∀ a b c, mul (mul a b) c = mul a (mul b c)) ∧ (∀ a, mul 1#13 a = a)
      ∧ (∀ a b c, mul a (b ^^^ c) = mul a b ^^^ mul a c) ∧ (∀ a, a ≠ 0#13 → ∃ b, mul a b = 1#13)
      ∧ (∀ a, a.getLsbD 12 = false → mul 2#13 a = a <<< 1) ∧ mul 2#13 0x1000#13 = 0x1B#13 := by
  refine ⟨mul_comm, mul_assoc, one_mul, fun a b c => mul_right a b c, fun a ha => ?_, fun a ha => ?_, by decide +kernel⟩
  · refine ⟨((⟨a⟩ : F) ^ 8190).v, ?_⟩
    have := pow_one' a ha
    rw [pow_succ'] at this
    exact congrArg F.v this
  · have h : mul 2#13 a = xt a := by
      refine Lin.ext (f := fun a => mul 2#13 a) (g := xt) (mul_right _) xt_lin (fun i hi => ?_) a
      have : ∀ i : Fin 13, mul 2#13 (BitVec.twoPow 13 i) = xt (BitVec.twoPow 13 i) := by decide +kernel
      exact this ⟨i, hi⟩
    rw [h, xt, ha]
    simp

/-- C102: `GfAdd`, `GfMultiply`, `GfSq2`, `GfSqMul` and `GfSq2Mul` are a + b, a·b, a⁴, a²·b and a⁴·b in the field, for all elements. -/
theorem C102_arith (a b : P) :
    gfAdd (el a) (el b) = el (a ^^^ b) ∧ gfMultiply (el a) (el b) = el (mul a b)
      ∧ gfSq2 (el a) = el (mul (mul a a) (mul a a)) ∧ gfSqMul (el a) (el b) = el (mul (mul a a) b)
      ∧ gfSq2Mul (el a) (el b) = el (mul (mul (mul a a) (mul a a)) b) :=
  ⟨(el_lin a b).symm, mult_eq a b, sq2_eq a, sqMul_eq a b, sq2Mul_eq a b⟩

example : gfMultiply (el 0x1ABC#13) (el 0x0F1D#13) = el (mul 0x1ABC#13 0x0F1D#13) ∧ mul 0x1ABC#13 0x0F1D#13 ≠ 0#13 := by decide +kernel

/-- C102: the quotient times the denominator is the numerator for every denominator but 0, and the quotient by 0 is 0. -/
theorem C102_frac (d n : P) :
    (d ≠ 0#13 → ∃ q, gfFrac (el d) (el n) = el q ∧ mul q d = n ∧ ∀ r, mul r d = n → r = q) ∧ gfFrac 0 (el n) = 0 := by
  refine ⟨fun hd => ?_, ?_⟩
  · have h1 : mul d ((⟨d⟩ : F) ^ 8190).v = 1#13 := by
      have := pow_one' d hd
      rw [pow_succ'] at this
      exact congrArg F.v this
    refine ⟨_, frac_eq d n, ?_, fun r hr => ?_⟩
    · rw [F.mul_v, mul_comm, ← mul_assoc, h1]
      exact one_mul n
    · rw [F.mul_v]
      show r = mul ((⟨d⟩ : F) ^ 8190).v n
      rw [← hr, mul_comm r d, ← mul_assoc, mul_comm _ d, h1, one_mul]
  · have h := frac_eq 0#13 n
    have e : ((⟨0#13⟩ : F) ^ 8190 * (⟨n⟩ : F)) = ⟨0#13⟩ := by
      rw [pow_succ', _root_.mul_assoc]
      exact congrArg F.mk (zero_mul _)
    rw [e] at h
    exact h

/-- C102: the inverse. -/
theorem C102_inv (d : P) (hd : d ≠ 0#13) : gfMultiply (gfInv (el d)) (el d) = 1 := by
  obtain ⟨q, hq, hm, _⟩ := (C102_frac d 1#13).1 hd
  have : gfInv (el d) = el q := hq
  rw [this, mult_eq, hm]
  rfl

example : gfInv (el 2#13) = el 0x100D#13 := by decide +kernel

/-- C102: `GfIsZero` is the mask 0x1FFF for 0 and 0 for every other `uint16_t`. -/
theorem C102_isZero (a : BitVec 16) : gfIsZero a = if a = 0 then 0x1FFF#16 else 0 := by
  unfold gfIsZero
  split
  · next h => subst h; decide
  · next h =>
    have h0 : a.toNat ≠ 0 := fun e => h (BitVec.eq_of_toNat_eq e)
    have hl := a.isLt
    have e : (a.setWidth 32 - 1#32) >>> 19 = 0#32 := by
      apply BitVec.eq_of_toNat_eq
      have : (a.setWidth 32 - 1#32).toNat = a.toNat - 1 := by
        rw [BitVec.toNat_sub, BitVec.toNat_setWidth, Nat.mod_eq_of_lt (a := a.toNat) (by omega)]
        show (2 ^ 32 - 1 + a.toNat) % 2 ^ 32 = _
        omega
      rw [BitVec.toNat_ushiftRight, this, Nat.shiftRight_eq_div_pow]
      show _ = 0
      omega
    rw [e]; rfl

/-- C102: `SameMask` is 0xFF for equal arguments and 0 for different ones. -/
theorem C102_sameMask (x y : BitVec 16) : sameMask x y = if x = y then 0xFF#8 else 0 := by
  unfold sameMask
  split
  · next h => subst h; rw [BitVec.xor_self]; decide
  · next h =>
    generalize hz : x ^^^ y = z
    have h0 : z.toNat ≠ 0 := fun e => h (by
      have e0 : z = 0#16 := BitVec.eq_of_toNat_eq e
      rw [e0] at hz
      exact BitVec.xor_eq_zero_iff.mp hz)
    have hl := z.isLt
    have e : (z.setWidth 32 - 1#32) >>> 31 = 0#32 := by
      apply BitVec.eq_of_toNat_eq
      have : (z.setWidth 32 - 1#32).toNat = z.toNat - 1 := by
        rw [BitVec.toNat_sub, BitVec.toNat_setWidth, Nat.mod_eq_of_lt (a := z.toNat) (by omega)]
        show (2 ^ 32 - 1 + z.toNat) % 2 ^ 32 = _
        omega
      rw [BitVec.toNat_ushiftRight, this, Nat.shiftRight_eq_div_pow]
      show _ = 0
      omega
    rw [e]; decide

theorem value_scale (l : List P) (a : P) : ∀ q r, value l a (mul q r) = mul q (value l a r) := by
  induction l with
  | nil => intro q r; exact ((mul_right q).zero).symm
  | cons c l ih =>
    intro q r
    have h := mul_right q (mul c r) (value l a (mul r a))
    simp only at h
    show mul c (mul q r) ^^^ value l a (mul (mul q r) a) = mul q (mul c r ^^^ value l a (mul r a))
    rw [h, mul_assoc q r a, ih, ← mul_assoc c q r, mul_comm c q, mul_assoc q c r]

theorem horner (l : List P) (a : P) : (l.map el).foldr (fun c r => gfAdd (gfMultiply r (el a)) c) 0 = el (value l a 1#13) := by
  induction l with
  | nil => rfl
  | cons c l ih =>
    rw [List.map_cons, List.foldr_cons, ih, mult_eq]
    show el _ ^^^ el c = el (mul c 1#13 ^^^ value l a (mul 1#13 a))
    rw [← el_lin, mul_comm c, one_mul, mul_comm 1#13 a, value_scale, mul_comm _ a, BitVec.xor_comm]

/-- C102: `Eval` is f_0 + f_1·a + … + f_t·a^t for every polynomial with t ≥ 1. -/
theorem C102_eval (f : List P) (a : P) (h : 2 ≤ f.length) : eval (f.map el) (el a) = .ok (el (value f a 1#13)) := by
  unfold eval
  have hz : gfMultiply 0 (el a) = 0 := by
    have := mult_eq 0#13 a
    rw [zero_mul] at this
    exact this
  have hr : (f.map el).reverse.foldl (fun r c => gfAdd (gfMultiply r (el a)) c) 0 = el (value f a 1#13) := by
    rw [List.foldl_reverse]; exact horner f a
  have hl : (f.map el).reverse.length = f.length := by simp
  revert hr hl
  cases (f.map el).reverse with
  | nil => intro _ hl; simp at hl; omega
  | cons c l =>
    cases l with
    | nil => intro _ hl; simp at hl; omega
    | cons d l =>
      intro hr _
      rw [List.foldl_cons, hz] at hr
      show Except.ok _ = _
      rw [← hr]
      show _ = Except.ok ((d :: l).foldl _ (0 ^^^ c))
      rw [show (0 : BitVec 16) ^^^ c = c from BitVec.zero_xor]

example : eval ([3#13, 5#13, 1#13].map el) (el 2#13) = .ok (el (value [3#13, 5#13, 1#13] 2#13 1#13)) := C102_eval _ _ (by decide)

theorem sign_mask (c : BitVec 32) : c.sshiftRight 31 = if c.toInt < 0 then BitVec.allOnes 32 else 0#32 := by
  ext i hi
  rw [BitVec.getElem_sshiftRight]
  have hm : c.msb = decide (c.toInt < 0) := BitVec.msb_eq_toInt
  have : (if h : 31 + i < 32 then c[31 + i] else c.msb) = c.msb := by
    split
    · next h =>
      have : i = 0 := by omega
      subst this
      rw [BitVec.msb_eq_getLsbD_last, BitVec.getLsbD_eq_getElem]
    · rfl
  rw [this, hm]
  by_cases h : c.toInt < 0
  · rw [if_pos h, BitVec.getElem_allOnes]; simpa using h
  · rw [if_neg h, BitVec.getElem_zero]; simpa using h

/-- C102: `MinMax32` puts the smaller first, when the difference is an `int32_t`. -/
theorem C102_minMax32_partial (a b : BitVec 32) (h : -2 ^ 31 ≤ b.toInt - a.toInt ∧ b.toInt - a.toInt < 2 ^ 31) :
    minMax32 a b = .ok (if b.toInt < a.toInt then (b, a) else (a, b)) := by
  unfold minMax32
  rw [if_neg (by omega)]
  simp only []
  have hs : (b - a).toInt = b.toInt - a.toInt := by
    rw [BitVec.toInt_sub]
    exact Int.bmod_eq_of_le (by omega) (by omega)
  have hm : ∀ x : BitVec 32, x.msb = decide (x.toInt < 0) := fun x => BitVec.msb_eq_toInt
  have hc : ((b - a) ^^^ ((b ^^^ a) &&& ((b - a) ^^^ b))).toInt < 0 ↔ b.toInt < a.toInt := by
    have := hm ((b - a) ^^^ ((b ^^^ a) &&& ((b - a) ^^^ b)))
    rw [BitVec.msb_xor, BitVec.msb_and, BitVec.msb_xor, BitVec.msb_xor, hm (b - a), hm b, hm a, hs] at this
    revert this
    generalize (b - a) ^^^ ((b ^^^ a) &&& ((b - a) ^^^ b)) = x
    intro this
    rw [← decide_eq_true_iff (p := x.toInt < 0), ← this]
    clear this hs hm
    by_cases h1 : b.toInt < 0 <;> by_cases h2 : a.toInt < 0 <;> by_cases h3 : b.toInt - a.toInt < 0 <;> simp [h1, h2, h3] <;> omega
  rw [sign_mask]
  have e1 : a ^^^ (b ^^^ a) = b := by
    have : a ^^^ (b ^^^ a) = b ^^^ (a ^^^ a) := by ac_rfl
    rw [this, BitVec.xor_self, BitVec.xor_zero]
  have e2 : b ^^^ (b ^^^ a) = a := by rw [← BitVec.xor_assoc, BitVec.xor_self, BitVec.zero_xor]
  by_cases hb : b.toInt < a.toInt
  · rw [if_pos (hc.mpr hb), if_pos hb, BitVec.allOnes_and, e1, e2]
  · rw [if_neg (fun q => hb (hc.mp q)), if_neg hb, BitVec.zero_and, BitVec.xor_zero, BitVec.xor_zero]

/-- C102: two `int32_t` of which the difference overflows are undefined behaviour. -/
theorem C102_minMax32_ub : minMax32 (-1#32) 0x7FFFFFFF#32 = .error .ub ∧ minMax32 7#32 (-5#32) = .ok (-5#32, 7#32) := by
  decide +kernel

/-- C102: `MinMax64` puts the smaller first when both are below 2^63. -/
theorem C102_minMax64_partial (a b : BitVec 64) (ha : a.toNat < 2 ^ 63) (hb : b.toNat < 2 ^ 63) :
    minMax64 a b = if b.toNat < a.toNat then (b, a) else (a, b) := by
  unfold minMax64
  simp only []
  have e1 : a ^^^ (a ^^^ b) = b := by rw [← BitVec.xor_assoc, BitVec.xor_self, BitVec.zero_xor]
  have e2 : b ^^^ (a ^^^ b) = a := by
    have : b ^^^ (a ^^^ b) = a ^^^ (b ^^^ b) := by ac_rfl
    rw [this, BitVec.xor_self, BitVec.xor_zero]
  have hs : (b - a).toNat = (2 ^ 64 - a.toNat + b.toNat) % 2 ^ 64 := BitVec.toNat_sub _ _
  by_cases h : b.toNat < a.toNat
  · have : (b - a) >>> 63 = 1#64 := by
      apply BitVec.eq_of_toNat_eq
      rw [BitVec.toNat_ushiftRight, hs, Nat.shiftRight_eq_div_pow]
      show _ = 1
      omega
    rw [this, if_pos h]
    show (a ^^^ (BitVec.allOnes 64 &&& _), b ^^^ (BitVec.allOnes 64 &&& _)) = _
    rw [BitVec.allOnes_and, e1, e2]
  · have : (b - a) >>> 63 = 0#64 := by
      apply BitVec.eq_of_toNat_eq
      rw [BitVec.toNat_ushiftRight, hs, Nat.shiftRight_eq_div_pow]
      show _ = 0
      omega
    rw [this, if_neg h]
    show (a ^^^ (0#64 &&& _), b ^^^ (0#64 &&& _)) = _
    rw [BitVec.zero_and, BitVec.xor_zero, BitVec.xor_zero]

example : minMax64 7#64 5#64 = (5#64, 7#64) := by decide +kernel

/-- C102: in general `MinMax64` does not sort: the sorted pair (0, 2^63) is swapped. -/
theorem C102_minMax64_false : ¬ ∀ a b : BitVec 64, minMax64 a b = if b.toNat < a.toNat then (b, a) else (a, b) := by
  intro h
  exact absurd (h 0#64 0x8000000000000000#64) (by decide +kernel)

end Cex.McEliece
