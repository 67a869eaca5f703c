import Verif.Scalar.CounterModel

/-!
# C108: the word counters add modulo 2^(2w)
-/

namespace Cex.Scalar

/-- The number in the first two words, the low word first. -/
def num {w : Nat} (a b : BitVec w) : Nat := a.toNat + 2 ^ w * b.toNat

theorem carry_num {w : Nat} (a b : BitVec w) (n : Nat) (hn : n < 2 ^ w) :
    (2 ^ w ≤ a.toNat + n → num (a + BitVec.ofNat w n) (b + 1#w) = (num a b + n) % 2 ^ (2 * w))
    ∧ (a.toNat + n < 2 ^ w → num (a + BitVec.ofNat w n) b = (num a b + n) % 2 ^ (2 * w)) := by
  have ha := a.isLt
  have hb := b.isLt
  have hp : 2 ^ (2 * w) = 2 ^ w * 2 ^ w := by rw [Nat.two_mul, Nat.pow_add]
  have hs : (a + BitVec.ofNat w n).toNat = (a.toNat + n) % 2 ^ w := by
    rw [BitVec.toNat_add, BitVec.toNat_ofNat, Nat.mod_eq_of_lt hn]
  have h1 : (1#w).toNat = 1 % 2 ^ w := BitVec.toNat_ofNat ..
  unfold num
  rw [hp]
  constructor
  · intro h
    rw [hs, BitVec.toNat_add, h1, Nat.add_mod_mod, Nat.mod_mul]
    have e1 : (a.toNat + 2 ^ w * b.toNat + n) % 2 ^ w = (a.toNat + n) % 2 ^ w := by
      rw [show a.toNat + 2 ^ w * b.toNat + n = a.toNat + n + 2 ^ w * b.toNat by omega, Nat.add_mul_mod_self_left]
    have e2 : (a.toNat + 2 ^ w * b.toNat + n) / 2 ^ w = b.toNat + 1 := by
      rw [show a.toNat + 2 ^ w * b.toNat + n = a.toNat + n + 2 ^ w * b.toNat by omega, Nat.add_mul_div_left _ _ (Nat.two_pow_pos w)]
      have : (a.toNat + n) / 2 ^ w = 1 := Nat.div_eq_of_lt_le (by omega) (by omega)
      omega
    rw [e1, e2]
  · intro h
    rw [hs, Nat.mod_mul]
    have e1 : (a.toNat + 2 ^ w * b.toNat + n) % 2 ^ w = (a.toNat + n) % 2 ^ w := by
      rw [show a.toNat + 2 ^ w * b.toNat + n = a.toNat + n + 2 ^ w * b.toNat by omega, Nat.add_mul_mod_self_left]
    have e2 : (a.toNat + 2 ^ w * b.toNat + n) / 2 ^ w = b.toNat := by
      rw [show a.toNat + 2 ^ w * b.toNat + n = a.toNat + n + 2 ^ w * b.toNat by omega, Nat.add_mul_div_left _ _ (Nat.two_pow_pos w), Nat.div_eq_of_lt h]
      omega
    rw [e1, e2, Nat.mod_eq_of_lt hb]

theorem sum_cases {w : Nat} (a : BitVec w) (n : Nat) (hn : n < 2 ^ w) :
    (2 ^ w ≤ a.toNat + n ∧ (a + BitVec.ofNat w n).toNat = a.toNat + n - 2 ^ w) ∨ (a.toNat + n < 2 ^ w ∧ (a + BitVec.ofNat w n).toNat = a.toNat + n) := by
  have ha := a.isLt
  have hs : (a + BitVec.ofNat w n).toNat = (a.toNat + n) % 2 ^ w := by
    rw [BitVec.toNat_add, BitVec.toNat_ofNat, Nat.mod_eq_of_lt hn]
  by_cases h : a.toNat + n < 2 ^ w
  · exact .inr ⟨h, by rw [hs, Nat.mod_eq_of_lt h]⟩
  · exact .inl ⟨by omega, by rw [hs, Nat.mod_eq_sub_mod (by omega), Nat.mod_eq_of_lt (by omega)]⟩

/-- C108: `LeIncrementW` adds one modulo 2^(2w) to the number in the first two words and leaves the rest. -/
theorem C108_increment {w : Nat} (hw : 0 < w) (a b : BitVec w) (l : List (BitVec w)) :
    ∃ a' b', leIncrementW (a :: b :: l) = .ok (a' :: b' :: l) ∧ num a' b' = (num a b + 1) % 2 ^ (2 * w) := by
  have h1 : 1 < 2 ^ w := Nat.one_lt_two_pow (by omega)
  have hz : a + 1#w = 0#w ↔ (a + 1#w).toNat = 0 := by
    rw [← BitVec.toNat_inj]; simp
  have e : leIncrementW (a :: b :: l) = if a + 1#w = 0#w then .ok ((a + 1#w) :: (b + 1#w) :: l) else .ok ((a + 1#w) :: b :: l) := by
    unfold leIncrementW
    by_cases h : a + 1#w = 0#w
    · rw [if_pos h]; simp [rd, wr, h, ok_bind]
    · rw [if_neg h]; simp [rd, wr, h, ok_bind]
  rw [e]
  rcases sum_cases a 1 h1 with ⟨h, hs⟩ | ⟨h, hs⟩
  · have ha := a.isLt
    rw [if_pos (hz.mpr (by rw [hs]; omega))]
    exact ⟨_, _, rfl, (carry_num a b 1 h1).1 h⟩
  · rw [if_neg (fun hh => by have := hz.mp hh; omega)]
    exact ⟨_, _, rfl, (carry_num a b 1 h1).2 h⟩

/-- C108: `LeIncreaseW` in place adds every amount that fits a word. -/
theorem C108_increase_partial {w : Nat} (a b : BitVec w) (l : List (BitVec w)) (n : Nat) (hn : n < 2 ^ w) :
    ∃ a' b', leIncreaseW (a :: b :: l) n = .ok (a' :: b' :: l) ∧ num a' b' = (num a b + n) % 2 ^ (2 * w) := by
  have e : leIncreaseW (a :: b :: l) n = if (a + BitVec.ofNat w n).toNat < n then .ok ((a + BitVec.ofNat w n) :: (b + 1#w) :: l) else .ok ((a + BitVec.ofNat w n) :: b :: l) := by
    unfold leIncreaseW
    show (if (a + BitVec.ofNat w n).toNat < n then _ else _) = _
    rfl
  rw [e]
  have ha := a.isLt
  rcases sum_cases a n hn with ⟨h, hs⟩ | ⟨h, hs⟩
  · rw [if_pos (by omega)]
    exact ⟨_, _, rfl, (carry_num a b n hn).1 h⟩
  · rw [if_neg (by omega)]
    exact ⟨_, _, rfl, (carry_num a b n hn).2 h⟩

/-- C108: `LeIncreaseW` into another array adds every amount that fits a word. -/
theorem C108_increaseTo_partial {w : Nat} (a b : BitVec w) (l : List (BitVec w)) (n : Nat) (hn : n < 2 ^ w) :
    ∃ a' b', leIncreaseTo (a :: b :: l) n = .ok (a' :: b' :: l) ∧ num a' b' = (num a b + n) % 2 ^ (2 * w) := by
  have e : leIncreaseTo (a :: b :: l) n = if a + BitVec.ofNat w n < a then .ok ((a + BitVec.ofNat w n) :: (b + 1#w) :: l) else .ok ((a + BitVec.ofNat w n) :: b :: l) := by
    unfold leIncreaseTo
    show (if a + BitVec.ofNat w n < a then _ else _) = _
    rfl
  rw [e]
  have ha := a.isLt
  rcases sum_cases a n hn with ⟨h, hs⟩ | ⟨h, hs⟩
  · have hlt : a + BitVec.ofNat w n < a := by show (a + BitVec.ofNat w n).toNat < a.toNat; omega
    rw [if_pos hlt]
    exact ⟨_, _, rfl, (carry_num a b n hn).1 h⟩
  · have hlt : ¬ a + BitVec.ofNat w n < a := by show ¬ (a + BitVec.ofNat w n).toNat < a.toNat; omega
    rw [if_neg hlt]
    exact ⟨_, _, rfl, (carry_num a b n hn).2 h⟩

/-- C108: with words of 32 bits an amount of 2^33, a `size_t`, is added as 2^32 in place and as nothing into another array; a counter of one word overflows out of the array. -/
theorem C108_increase_false :
    leIncreaseW [0#32, 0#32] (2 ^ 33) = .ok [0#32, 1#32] ∧ leIncreaseTo [0#32, 0#32] (2 ^ 33) = .ok [0#32, 0#32]
      ∧ leIncrementW [0xFFFFFFFF#32] = .error .ub := by
  decide +kernel

example : leIncrementW [0xFFFFFFFF#32, 7#32, 9#32] = .ok [0#32, 8#32, 9#32] ∧ leIncreaseW [0xFFFFFFFE#32, 7#32] 5 = .ok [3#32, 8#32] := by decide +kernel

end Cex.Scalar
