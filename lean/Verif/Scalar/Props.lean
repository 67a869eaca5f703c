import Verif.Scalar.Model
import Verif.McEliece.Lemmas

/-!
# C107: rotations, parity, powers of two and hexadecimal strings
-/

namespace Cex.Scalar

open McEliece (Lin)

theorem diff_ok (m w s : Nat) (hm : w < 2 ^ m) (h0 : 0 < s) (h : s < w) : (2 ^ m + w - s) % 2 ^ m = w - s := by
  have : 2 ^ m + w - s = (w - s) + 2 ^ m := by omega
  rw [this, Nat.add_mod_right, Nat.mod_eq_of_lt (by omega)]

/-- C107: for a shift from 1 to w-1 the rotation to the left moves bit i to bit (i + s) mod w. -/
theorem C107_rotL_partial {w m : Nat} (hm : w < 2 ^ m) (v : BitVec w) (s : Nat) (h0 : 0 < s) (h : s < w) :
    ∃ r, rotL m v s = .ok r ∧ ∀ i, i < w → r.getLsbD ((i + s) % w) = v.getLsbD i := by
  refine ⟨v <<< s ||| v >>> (w - s), ?_, fun i hi => ?_⟩
  · unfold rotL shl shr
    rw [diff_ok m w s hm h0 h, if_neg (by omega), if_neg (by omega)]
    rfl
  · rw [BitVec.getLsbD_or, BitVec.getLsbD_shiftLeft, BitVec.getLsbD_ushiftRight]
    by_cases h1 : i + s < w
    · rw [Nat.mod_eq_of_lt h1, BitVec.getLsbD_of_ge v (w - s + (i + s)) (by omega)]
      have e : i + s - s = i := by omega
      have e2 : ¬ i + s < s := by omega
      simp [h1, e, e2]
    · have e : (i + s) % w = i + s - w := by
        rw [Nat.mod_eq_sub_mod (by omega), Nat.mod_eq_of_lt (by omega)]
      rw [e]
      have e2 : i + s - w < s := by omega
      have e3 : w - s + (i + s - w) = i := by omega
      simp [e2, e3]

/-- C107: the rotation to the right moves bit (i + s) mod w to bit i. -/
theorem C107_rotR_partial {w m : Nat} (hm : w < 2 ^ m) (v : BitVec w) (s : Nat) (h0 : 0 < s) (h : s < w) :
    ∃ r, rotR m v s = .ok r ∧ ∀ i, i < w → r.getLsbD i = v.getLsbD ((i + s) % w) := by
  refine ⟨v >>> s ||| v <<< (w - s), ?_, fun i hi => ?_⟩
  · unfold rotR shl shr
    rw [diff_ok m w s hm h0 h, if_neg (by omega), if_neg (by omega)]
    rfl
  · rw [BitVec.getLsbD_or, BitVec.getLsbD_shiftLeft, BitVec.getLsbD_ushiftRight]
    by_cases h1 : i + s < w
    · rw [Nat.mod_eq_of_lt h1]
      have e2 : i < w - s := by omega
      have e3 : s + i = i + s := by omega
      simp [e2, e3]
    · have e : (i + s) % w = i + s - w := by
        rw [Nat.mod_eq_sub_mod (by omega), Nat.mod_eq_of_lt (by omega)]
      rw [e, BitVec.getLsbD_of_ge v (s + i) (by omega)]
      have e2 : ¬ i < w - s := by omega
      have e3 : i - (w - s) = i + s - w := by omega
      simp [e2, e3, hi]

/-- C107: the rotations of one shift undo each other. -/
theorem C107_rot_inverse {w m : Nat} (hm : w < 2 ^ m) (v : BitVec w) (s : Nat) (h0 : 0 < s) (h : s < w) :
    (rotL m v s >>= fun r => rotR m r s) = .ok v := by
  obtain ⟨r, h1, h2⟩ := C107_rotL_partial hm v s h0 h
  obtain ⟨q, h3, h4⟩ := C107_rotR_partial hm r s h0 h
  rw [h1]
  show rotR m r s = _
  rw [h3]
  congr 1
  apply BitVec.eq_of_getLsbD_eq
  intro i hi
  rw [h4 i hi, h2 i hi]

/-- C107: a rotation by 0, which `RotL32`, `RotL64`, `RotR32` and `RotR64` do not exclude, shifts by the whole width: undefined. -/
theorem C107_rot_zero_false (v : BitVec 32) (u : BitVec 64) :
    rotL 64 v 0 = .error .ub ∧ rotR 64 v 0 = .error .ub ∧ rotL 64 u 0 = .error .ub ∧ rotR 64 u 0 = .error .ub := by
  refine ⟨?_, ?_, ?_, ?_⟩ <;> rfl

example : rotL 32 0x80000001#32 4 = .ok 0x18#32 := by decide +kernel

/-! ## Parity -/

/-- The sum modulo 2 of the bits below `n`. -/
def xorBits (v : BitVec 64) : Nat → Bool
  | 0 => false
  | n + 1 => xorBits v n ^^ v.getLsbD n

theorem xorBits_xor (x y : BitVec 64) (n : Nat) : xorBits (x ^^^ y) n = (xorBits x n ^^ xorBits y n) := by
  induction n with
  | zero => rfl
  | succ n ih =>
    show (xorBits (x ^^^ y) n ^^ (x ^^^ y).getLsbD n) = ((xorBits x n ^^ x.getLsbD n) ^^ (xorBits y n ^^ y.getLsbD n))
    rw [ih, BitVec.getLsbD_xor]
    cases xorBits x n <;> cases xorBits y n <;> cases x.getLsbD n <;> cases y.getLsbD n <;> rfl

theorem step_lin (k : Nat) : Lin (fun v : BitVec 64 => v ^^^ v >>> k) := fun x y => by
  show (x ^^^ y) ^^^ (x ^^^ y) >>> k = (x ^^^ x >>> k) ^^^ (y ^^^ y >>> k)
  rw [BitVec.ushiftRight_xor_distrib]; ac_rfl

theorem parity_lin : Lin parity := by
  have h1 : Lin (fun v : BitVec 64 => v &&& 1#64) := fun x y => by
    show (x ^^^ y) &&& 1#64 = _
    ext i hi
    simp only [BitVec.getElem_and, BitVec.getElem_xor]
    cases x[i] <;> cases y[i] <;> simp
  exact h1.comp ((step_lin 1).comp ((step_lin 2).comp ((step_lin 4).comp ((step_lin 8).comp ((step_lin 16).comp (step_lin 32))))))

/-- C107: `Parity` is the sum of the 64 bits modulo 2. -/
theorem C107_parity (v : BitVec 64) : parity v = if xorBits v 64 then 1#64 else 0#64 := by
  refine Lin.ext (f := parity) (g := fun v => if xorBits v 64 then 1#64 else 0#64) parity_lin (fun x y => ?_) (fun i hi => ?_) v
  · show (if xorBits (x ^^^ y) 64 then 1#64 else 0#64) = (if xorBits x 64 then 1#64 else 0#64) ^^^ (if xorBits y 64 then 1#64 else 0#64)
    rw [xorBits_xor]
    cases xorBits x 64 <;> cases xorBits y 64 <;> simp
  · have : ∀ i : Fin 64, parity (BitVec.twoPow 64 i.val) = if xorBits (BitVec.twoPow 64 i.val) 64 then 1#64 else 0#64 := by decide +kernel
    exact this ⟨i, hi⟩

/-! ## Powers of two -/

theorem pow_of_and (n : Nat) : 0 < n → n &&& (n - 1) = 0 → ∃ k, n = 2 ^ k := by
  induction n using Nat.strongRecOn with
  | ind n ih =>
    intro h0 h
    have h2 : (n / 2) &&& ((n - 1) / 2) = 0 := by
      have := congrArg (· / 2) h
      simpa only [Nat.and_div_two, Nat.zero_div] using this
    by_cases hn : n % 2 = 0
    · have e : (n - 1) / 2 = n / 2 - 1 := by omega
      rw [e] at h2
      obtain ⟨k, hk⟩ := ih (n / 2) (by omega) (by omega) h2
      exact ⟨k + 1, by rw [Nat.pow_succ]; omega⟩
    · have e : (n - 1) / 2 = n / 2 := by omega
      rw [e, Nat.and_self] at h2
      exact ⟨0, by omega⟩

theorem sub_one {w : Nat} (v : BitVec w) (h : 0 < v.toNat) : (v - 1#w).toNat = v.toNat - 1 := by
  have hv := v.isLt
  have hw : 1 < 2 ^ w := by omega
  rw [BitVec.toNat_sub_of_le]
  · rw [BitVec.toNat_ofNat, Nat.mod_eq_of_lt hw]
  · show (1#w).toNat ≤ v.toNat
    rw [BitVec.toNat_ofNat, Nat.mod_eq_of_lt hw]; exact h

/-- C107: `IsPowerOf2` says whether the value is a power of two. -/
theorem C107_isPowerOf2 {w : Nat} (v : BitVec w) : isPowerOf2 v = true ↔ ∃ k, v.toNat = 2 ^ k := by
  unfold isPowerOf2
  rw [Bool.and_eq_true, decide_eq_true_iff, beq_iff_eq]
  constructor
  · rintro ⟨h1, h2⟩
    have h0 : 0 < v.toNat := by
      have : (0#w).toNat < v.toNat := h1
      simpa using this
    have h3 := congrArg BitVec.toNat h2
    rw [BitVec.toNat_and, sub_one v h0] at h3
    exact pow_of_and _ h0 (by simpa using h3)
  · rintro ⟨k, hk⟩
    have h0 : 0 < v.toNat := by rw [hk]; exact Nat.two_pow_pos k
    refine ⟨by show (0#w).toNat < v.toNat; simpa using h0, BitVec.eq_of_toNat_eq ?_⟩
    rw [BitVec.toNat_and, sub_one v h0, hk, Nat.and_two_pow_sub_one_eq_mod, Nat.mod_self]; simp

/-- C107: `ModPowerOf2` is the remainder by every power of two of the type. -/
theorem C107_modPowerOf2 {w : Nat} (a b : BitVec w) (h : isPowerOf2 b = true) : (modPowerOf2 a b).toNat = a.toNat % b.toNat := by
  obtain ⟨k, hk⟩ := (C107_isPowerOf2 b).mp h
  unfold modPowerOf2
  rw [BitVec.toNat_and, sub_one b (by rw [hk]; exact Nat.two_pow_pos k), hk, Nat.and_two_pow_sub_one_eq_mod]

/-- C107: `Crop` keeps the lowest bits, for every length. -/
theorem C107_crop (v : BitVec 64) (n : Nat) : (crop v n).toNat = v.toNat % 2 ^ n := by
  unfold crop
  by_cases h : n < 64
  · have e : (1#64 <<< n).toNat = 2 ^ n := by
      rw [BitVec.toNat_shiftLeft, Nat.shiftLeft_eq]
      show 1 * 2 ^ n % 2 ^ 64 = _
      rw [Nat.one_mul, Nat.mod_eq_of_lt (Nat.pow_lt_pow_right (by decide) h)]
    rw [if_pos h, BitVec.toNat_and, sub_one _ (by rw [e]; exact Nat.two_pow_pos n), e, Nat.and_two_pow_sub_one_eq_mod]
  · rw [if_neg h, Nat.mod_eq_of_lt]
    exact Nat.lt_of_lt_of_le v.isLt (Nat.pow_le_pow_right (by decide) (by omega))

/-! ## Hexadecimal strings -/

theorem hex_digit : ∀ n : Fin 16, hexVal (digit n.val) = some n.val := by decide +kernel

theorem digits_ok (v : Nat) (n : Nat) : ∀ (k a : Nat), k ≤ n →
    digitsVal a ((List.range' (n - k) k).map fun i => digit (v >>> ((n - 1) * 4 - 4 * i) &&& 0x0F)) = a * 16 ^ k + v % 16 ^ k := by
  intro k
  induction k with
  | zero => intro a _; simp [digitsVal, Nat.mod_one]
  | succ k ih =>
    intro a hk
    rw [List.range'_succ, List.map_cons]
    have e1 : (n - 1) * 4 - 4 * (n - (k + 1)) = 4 * k := by omega
    have e2 : v >>> (4 * k) &&& 0x0F = v / 16 ^ k % 16 := by
      rw [show (0x0F : Nat) = 2 ^ 4 - 1 from rfl, Nat.and_two_pow_sub_one_eq_mod, Nat.shiftRight_eq_div_pow, Nat.pow_mul]
    rw [e1, e2]
    have e3 : n - (k + 1) + 1 = n - k := by omega
    rw [e3]
    have hd := hex_digit ⟨v / 16 ^ k % 16, Nat.mod_lt _ (by decide)⟩
    simp only [] at hd
    rw [digitsVal, hd]
    simp only []
    rw [ih _ (by omega), Nat.pow_succ, Nat.mod_mul]
    rw [Nat.add_mul, Nat.mul_comm (16 ^ k) (v / 16 ^ k % 16), Nat.mul_comm 16 a, Nat.mul_assoc, Nat.mul_comm 16 (16 ^ k)]
    omega

theorem strtol_hex (n : Nat) (v : BitVec (4 * n)) : strtol (intToHex n v) = min v.toNat (2 ^ 63 - 1) := by
  unfold strtol intToHex
  have h := digits_ok v.toNat n n 0 (Nat.le_refl _)
  rw [Nat.sub_self, ← List.range_eq_range', Nat.zero_mul, Nat.zero_add] at h
  rw [h, Nat.mod_eq_of_lt]
  have := v.isLt
  rwa [Nat.pow_mul] at this

theorem hexToInt_eq (n : Nat) (v : BitVec (4 * n)) (pre post : List Char) :
    hexToInt n (pre ++ intToHex n v ++ post) pre.length = .ok (BitVec.ofNat (4 * n) (min v.toNat (2 ^ 63 - 1))) := by
  unfold hexToInt
  have hl : (intToHex n v).length = n := by simp [intToHex]
  have ht : (intToHex n v ++ post).take n = intToHex n v := List.take_left' hl
  rw [if_neg (by simp), List.append_assoc, List.drop_left, ht, strtol_hex]

/-- C107: `HexToInt` reads what `IntToHex` has written, at any place of a string, for values below 2^63: so for all values of 8, 16 and 32 bits. -/
theorem C107_hex_partial (n : Nat) (v : BitVec (4 * n)) (h : v.toNat < 2 ^ 63) (pre post : List Char) :
    hexToInt n (pre ++ intToHex n v ++ post) pre.length = .ok v := by
  rw [hexToInt_eq, Nat.min_eq_left (by omega), BitVec.ofNat_toNat, BitVec.setWidth_eq]

/-- The same for the types of 8, 16 and 32 bits without a condition. -/
theorem C107_hex32 (n : Nat) (hn : n ≤ 8) (v : BitVec (4 * n)) (pre post : List Char) : hexToInt n (pre ++ intToHex n v ++ post) pre.length = .ok v :=
  C107_hex_partial n v (Nat.lt_of_lt_of_le v.isLt (Nat.pow_le_pow_right (by decide) (by omega))) pre post

/-- C107: of 64-bit values from 2^63 on every one is read as 2^63 - 1. -/
theorem C107_hex64_false (v : BitVec (4 * 16)) (h : 2 ^ 63 ≤ v.toNat) : hexToInt 16 (intToHex 16 v) 0 = .ok 0x7FFFFFFFFFFFFFFF := by
  have := hexToInt_eq 16 v [] []
  rw [List.nil_append, List.append_nil] at this
  rw [show (0 : Nat) = ([] : List Char).length from rfl, this, Nat.min_eq_right (by omega)]
  rfl

theorem two_digits : ∀ b : BitVec 8, BitVec.ofNat 8 (strtol [digit (b.toNat / 16), digit (b.toNat % 16)]) = b := by decide +kernel

theorem toHex_len (b : List Byte) : (toHex b).length = 2 * b.length := by
  induction b with
  | nil => rfl
  | cons x b ih =>
    show (_ :: _ :: toHex b).length = _
    rw [List.length_cons, List.length_cons, ih, List.length_cons]; omega

theorem fromHex_loop (len : Nat) (b : List Byte) : ∀ (f i : Nat) (pre : List Char), pre.length = i → i + 2 * b.length = len → b.length < f →
    fromHexLoop (pre ++ toHex b) len f i = .ok b := by
  induction b with
  | nil =>
    intro f i pre _ hl hf
    cases f with
    | zero => omega
    | succ f =>
      unfold fromHexLoop
      rw [if_neg (by simp at hl; omega)]
  | cons x b ih =>
    intro f i pre hp hl hf
    rw [List.length_cons] at hl hf
    cases f with
    | zero => omega
    | succ f =>
      have e : toHex (x :: b) = [digit (x.toNat / 16), digit (x.toNat % 16)] ++ toHex b := rfl
      have h := ih f (i + 2) (pre ++ [digit (x.toNat / 16), digit (x.toNat % 16)]) (by simp [hp]) (by omega) (by omega)
      rw [List.append_assoc, ← e] at h
      unfold fromHexLoop
      rw [if_pos (by omega), if_neg (by rw [List.length_append]; omega)]
      show (fromHexLoop (pre ++ toHex (x :: b)) len f (i + 2) >>= _) = _
      rw [h, ← hp, List.drop_left, e]
      show Except.ok (_ :: b) = _
      congr 2
      exact two_digits x

/-- C107: `FromHex` gives back the bytes of `ToHex` when its length is the number of characters. -/
theorem C107_fromHex_partial (b : List Byte) : fromHex (toHex b) (toHex b).length = .ok b := by
  unfold fromHex
  exact fromHex_loop _ b _ 0 [] rfl (by rw [toHex_len]; omega) (by rw [toHex_len]; omega)

/-- C107: the documented length, the number of bytes to convert, gives only half of the bytes. -/
theorem C107_fromHex_false : fromHex (toHex [0xA1#8, 0xB2#8]) 2 = .ok [0xA1#8] := by decide +kernel

end Cex.Scalar
