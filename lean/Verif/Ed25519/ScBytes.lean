import Verif.Ed25519.ScLemmas

/-!
# Limbs of 21 bits and bytes
-/

namespace Cex.Ed25519

open Cex.Ec25519 Cex.IntTools Finset

/-! ### Loads -/

theorem byteAt_val {s : List Byte} {i : Nat} (h : i < s.length) : byteAt s i = leVal s / 256 ^ i % 256 := by
  obtain ⟨l, r, e, hl⟩ := leVal_split h
  rw [byteAt_eq h, e]
  have hb := (s[i]).isLt
  rw [Nat.add_mul_div_left _ _ (Nat.pow_pos (by decide)), Nat.div_eq_of_lt hl]
  omega

theorem load_val {s : List Byte} {o n : Nat} (hn : n = 3 ∨ n = 4) (h : o + n ≤ s.length) :
    loadN n s o = .ok (leVal s / 2 ^ (8 * o) % 2 ^ (8 * n)) := by
  rw [loadN]
  have e : ∀ j, 256 ^ (o + j) = 2 ^ (8 * o) * 256 ^ j := fun j => by rw [Nat.pow_add, Nat.pow_mul]
  rcases hn with rfl | rfl
  · rw [if_pos rfl, load3_ok h, byteAt_val (by omega), byteAt_val (by omega), byteAt_val (by omega), show (256 : Nat) ^ o = 2 ^ (8 * o) by rw [Nat.pow_mul], e, e,
      ← Nat.div_div_eq_div_mul, ← Nat.div_div_eq_div_mul]
    generalize leVal s / 2 ^ (8 * o) = x
    congr 1; omega
  · rw [if_neg (by decide), load4_ok h, byteAt_val (by omega), byteAt_val (by omega), byteAt_val (by omega), byteAt_val (by omega),
      show (256 : Nat) ^ o = 2 ^ (8 * o) by rw [Nat.pow_mul], e, e, e,
      ← Nat.div_div_eq_div_mul, ← Nat.div_div_eq_div_mul, ← Nat.div_div_eq_div_mul]
    generalize leVal s / 2 ^ (8 * o) = x
    congr 1; omega

theorem field_of_field {x a b c d : Nat} (h : c + d ≤ b) : x / 2 ^ a % 2 ^ b / 2 ^ c % 2 ^ d = x / 2 ^ (a + c) % 2 ^ d := by
  apply Nat.eq_of_testBit_eq
  intro i
  simp only [Nat.testBit_mod_two_pow, Nat.testBit_div_two_pow]
  by_cases hi : i < d
  · have h1 : i + c < b := by omega
    simp only [hi, h1, decide_true, Bool.true_and]
    congr 1; omega
  · simp [hi]

/-- the rows read the bits `21 i` … `21 i + 20` -/
theorem limbRows_ok : ∀ i < 24, ∃ n o sh, limbRows[i]? = some (n, o, sh) ∧ (n = 3 ∨ n = 4) ∧ 8 * o + sh = 21 * i ∧ o + n ≤ 64 ∧ (i < 12 → o + n ≤ 32) ∧
    (i ≠ 23 → sh + 21 ≤ 8 * n) ∧ (i = 23 → o + n = 64) ∧ (i = 11 → o + n = 32) := by
  intro i hi
  interval_cases i <;> exact ⟨_, _, _, rfl, by decide, by decide, by decide, by decide, by decide, by decide, by decide⟩

/-- limb `i` of `n` of the number `x` -/
def limb (n x i : Nat) : Nat := if i + 1 = n then x / 2 ^ (21 * i) else x / 2 ^ (21 * i) % 2 ^ 21

theorem rd_of_some {α : Type} {s : List α} {i : Nat} {a : α} (h : s[i]? = some a) : rd s i = .ok a := by
  obtain ⟨hi, e⟩ := List.getElem?_eq_some_iff.mp h
  rw [rd_ok hi, e]

theorem loadLimb_ok {n N : Nat} {b : List Byte} (hn : n = 12 ∧ N = 32 ∨ n = 24 ∧ N = 64) (hb : N ≤ b.length) {i : Nat} (hi : i < n) :
    loadLimb n b i = .ok (limb n (leVal b % 2 ^ (8 * N)) i : Nat) := by
  obtain ⟨k, o, sh, e, hk, ho, h64, h32, hm, h23, h11⟩ := limbRows_ok i (by omega)
  have hN : o + k ≤ N := by
    rcases hn with ⟨rfl, rfl⟩ | ⟨rfl, rfl⟩
    · exact h32 (by omega)
    · exact h64
  rw [loadLimb, rd_of_some e, ok_bind]
  dsimp only
  rw [load_val hk (by omega), ok_bind, pure_eq_ok, limb]
  congr 2
  rw [Nat.shiftRight_eq_div_pow]
  by_cases c : i + 1 = n
  · have hl : o + k = N := by
      rcases hn with ⟨rfl, rfl⟩ | ⟨rfl, rfl⟩
      · exact h11 (by omega)
      · exact h23 (by omega)
    rw [if_pos c, if_pos c, ← ho, ← hl]
    apply Nat.eq_of_testBit_eq
    intro t
    simp only [Nat.testBit_mod_two_pow, Nat.testBit_div_two_pow]
    congr 2
    · exact propext (by omega)
    · omega
  · rw [if_neg c, if_neg c, Nat.and_comm, show 2097151 = 2 ^ 21 - 1 from rfl, Nat.and_two_pow_sub_one_eq_mod, field_of_field (hm (by omega)), ho]
    apply Nat.eq_of_testBit_eq
    intro t
    simp only [Nat.testBit_mod_two_pow, Nat.testBit_div_two_pow]
    by_cases ht : t < 21
    · have h1 : t + 21 * i < 8 * N := by
        have := hm (by omega)
        omega
      simp only [ht, h1, decide_true, Bool.true_and]
    · simp [ht]

/-- the limbs of `x` -/
def limbs (n x : Nat) : List Int := (List.range n).map fun i => (limb n x i : Int)

theorem limbs_length (n x : Nat) : (limbs n x).length = n := by simp [limbs]

theorem dg_limbs {n x i : Nat} (h : i < n) : dg (limbs n x) i = limb n x i := by
  rw [dg, limbs, List.getElem?_map, List.getElem?_range h]; rfl

/-- a loop that appends -/
theorem append_loop {α : Type} (f : Nat → M α) (g : Nat → α) (n : Nat) (h : ∀ i < n, f i = .ok (g i)) :
    loopN n 0 (fun i s => do return s ++ [← f i]) [] = .ok ((List.range n).map g) := by
  obtain ⟨r, e, hr⟩ := loopN_inv (f := fun i s => (do return s ++ [← f i] : M (List α))) (fun i s => s = (List.range i).map g) n 0 []
    (fun i s _ hi hs => ⟨_, by rw [h i (by omega)]; rfl, by rw [hs, List.range_succ, List.map_append]; rfl⟩) rfl
  rw [e, hr, Nat.zero_add]

theorem loadLimbs_ok {n N : Nat} {b : List Byte} (hn : n = 12 ∧ N = 32 ∨ n = 24 ∧ N = 64) (hb : N ≤ b.length) :
    loadLimbs n b = .ok (limbs n (leVal b % 2 ^ (8 * N))) := by
  rw [loadLimbs, append_loop _ _ n fun i hi => loadLimb_ok hn hb hi]
  rfl

theorem limb_sum_lt (x : Nat) : ∀ k, ∑ i ∈ range k, x / 2 ^ (21 * i) % 2 ^ 21 * 2 ^ (21 * i) = x % 2 ^ (21 * k)
  | 0 => by simp [Nat.mod_one]
  | k + 1 => by
    rw [sum_range_succ, limb_sum_lt x k, Nat.mul_succ, Nat.pow_add, Nat.mod_mul, Nat.mul_comm (2 ^ (21 * k))]

theorem limb_sum (x n : Nat) : ∑ i ∈ range (n + 1), limb (n + 1) x i * 2 ^ (21 * i) = x := by
  rw [sum_range_succ, limb, if_pos rfl]
  have e : ∑ i ∈ range n, limb (n + 1) x i * 2 ^ (21 * i) = ∑ i ∈ range n, x / 2 ^ (21 * i) % 2 ^ 21 * 2 ^ (21 * i) := by
    refine sum_congr rfl fun i hi => ?_
    have := mem_range.mp hi
    rw [limb, if_neg (by omega)]
  rw [e, limb_sum_lt, Nat.mul_comm (x / _)]
  exact Nat.mod_add_div _ _

/-! ### Stores -/

/-- the rows write the bits `8 k` … `8 k + 7` -/
theorem byteRows_ok : ∀ k < 32, ∃ i sh m, byteRows[k]? = some (i, sh, m) ∧ i < 12 ∧ 21 * i + sh = 8 * k ∧ sh < 21 ∧
    (m = none → i = 11 ∨ sh + 8 ≤ 21) ∧ (∀ j, m = some j → i < 11 ∧ j + sh = 21) := by
  intro k hk
  interval_cases k <;> exact ⟨_, _, _, rfl, by decide, by decide, by decide, by decide, by simp⟩

theorem ofInt_nat (n : Nat) : BitVec.ofInt 64 (n : Int) = BitVec.ofNat 64 n := by simp

theorem limbByte_ok {s : List Int} {x : Nat} (hl : 12 ≤ s.length) (hs : ∀ i < 12, dg s i = (limb 12 x i : Nat)) {k : Nat} (hk : k < 32) :
    limbByte s k = .ok (BitVec.ofNat 8 (x / 2 ^ (8 * k))) := by
  obtain ⟨i, sh, m, e, hi, hb, hsh, h0, h1⟩ := byteRows_ok k hk
  rw [limbByte, rd_of_some e, ok_bind]
  dsimp only
  rw [dg_rd (by omega), ok_bind, hs i hi, ← hb]
  have ediv : ((limb 12 x i : Nat) : Int) / 2 ^ sh = ((limb 12 x i / 2 ^ sh : Nat) : Int) := by push_cast; rfl
  rw [ediv, ofInt_nat]
  cases m with
  | none =>
    dsimp only
    rw [pure_eq_ok]
    congr 1
    apply BitVec.eq_of_getLsbD_eq
    intro t ht
    have h0 := h0 rfl
    have ht2 : t < 64 := by omega
    rw [BitVec.getLsbD_setWidth, BitVec.getLsbD_ofNat, BitVec.getLsbD_ofNat]
    rw [limb]
    by_cases c : i + 1 = 12
    · rw [if_pos c]
      simp only [Nat.testBit_div_two_pow, ht, ht2, decide_true, Bool.true_and]
      congr 1; omega
    · rw [if_neg c]
      have h2 : t + sh < 21 := by omega
      simp only [Nat.testBit_mod_two_pow, Nat.testBit_div_two_pow, ht, ht2, h2, decide_true, Bool.true_and]
      congr 1; omega
  | some m =>
    obtain ⟨h11, hm⟩ := h1 m rfl
    dsimp only
    rw [dg_rd (by omega), ok_bind, pure_eq_ok, hs (i + 1) (by omega), ofInt_nat, BitVec.ofNat_mul_ofNat]
    congr 1
    apply BitVec.eq_of_getLsbD_eq
    intro t ht
    have ht2 : t < 64 := by omega
    rw [BitVec.getLsbD_setWidth, BitVec.getLsbD_or, BitVec.getLsbD_ofNat, BitVec.getLsbD_ofNat, BitVec.getLsbD_ofNat]
    rw [limb, if_neg (by omega), limb]
    by_cases c : i + 1 + 1 = 12
    · rw [if_pos c]
      simp only [Nat.testBit_mod_two_pow, Nat.testBit_div_two_pow, Nat.testBit_mul_two_pow, ht, ht2, decide_true, Bool.true_and]
      by_cases c2 : t + sh < 21
      · simp only [c2, show ¬ m ≤ t by omega, decide_true, decide_false, Bool.true_and, Bool.false_and, Bool.or_false]
        congr 1; omega
      · simp only [c2, show m ≤ t by omega, decide_true, decide_false, Bool.true_and, Bool.false_and, Bool.false_or]
        congr 1; omega
    · rw [if_neg c]
      simp only [Nat.testBit_mod_two_pow, Nat.testBit_div_two_pow, Nat.testBit_mul_two_pow, ht, ht2, decide_true, Bool.true_and]
      by_cases c2 : t + sh < 21
      · simp only [c2, show ¬ m ≤ t by omega, decide_true, decide_false, Bool.true_and, Bool.false_and, Bool.or_false]
        congr 1; omega
      · simp only [c2, show m ≤ t by omega, show t - m < 21 by omega, decide_true, decide_false, Bool.true_and, Bool.false_and, Bool.false_or]
        congr 1; omega

theorem leEnc_get : ∀ (n x i : Nat), i < n → (leEnc n x)[i]? = some (BitVec.ofNat 8 (x / 256 ^ i))
  | 0, _, _, h => absurd h (Nat.not_lt_zero _)
  | n + 1, x, 0, _ => by simp [leEnc]
  | n + 1, x, i + 1, h => by
    rw [leEnc, List.getElem?_cons_succ, leEnc_get n _ i (by omega), Nat.div_div_eq_div_mul, Nat.pow_succ, Nat.mul_comm 256]

theorem wr_mid {a c : List Byte} {x y : Byte} {i : Nat} (h : i = a.length) : wr (a ++ x :: c) i y = .ok (a ++ y :: c) := by
  subst h
  rw [wr_ok _ (by simp), List.set_append_right _ _ (Nat.le_refl _), Nat.sub_self, List.set_cons_zero]

theorem storeLimbs_ok {s : List Int} {x : Nat} (hl : 12 ≤ s.length) (hs : ∀ i < 12, dg s i = (limb 12 x i : Nat)) {pre old post : List Byte} (ho : old.length = 32) :
    storeLimbs s pre.length (pre ++ old ++ post) = .ok (pre ++ leEnc 32 x ++ post) := by
  obtain ⟨r, e, hr, -⟩ := loopN_inv (f := fun k out => (do wr out (pre.length + k) (← limbByte s k) : M (List Byte)))
    (fun k out => out = pre ++ (leEnc 32 x).take k ++ (old.drop k ++ post) ∧ k ≤ 32) 32 0 (pre ++ old ++ post)
    (fun k out _ hk h => by
      obtain ⟨rfl, _⟩ := h
      rw [limbByte_ok hl hs (by omega), ok_bind]
      have hlen : (pre ++ (leEnc 32 x).take k).length = pre.length + k := by rw [List.length_append, List.length_take, leEnc_length]; omega
      rw [List.drop_eq_getElem_cons (show k < old.length by omega), List.cons_append]
      refine ⟨_, wr_mid hlen.symm, ?_, by omega⟩
      have hg := leEnc_get 32 x k (by omega)
      obtain ⟨hk2, e2⟩ := List.getElem?_eq_some_iff.mp hg
      rw [List.take_succ_eq_append_getElem hk2, e2, Nat.pow_mul]
      simp) ⟨by simp, by decide⟩
  rw [storeLimbs, e, hr, Nat.zero_add, List.take_of_length_le (by rw [leEnc_length]), List.drop_eq_nil_of_le (by omega)]
  rfl

end Cex.Ed25519
