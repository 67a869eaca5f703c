import Verif.Random.Count
import Mathlib.Tactic.NormNum

/-!
# C49: random numbers in a range are uniform

Counted over all sequences of samples. True of the unsigned functions, except for the full range of the type; false of the signed ones, where the lowest number comes about twice as often.
-/

namespace Cex.Random
open Cex

theorem smpMax_nat (top m : Nat) : smpMax (top : Int) (m : Int) = ((top / m * m : Nat) : Int) := by
  have h := Nat.div_add_mod top m
  rw [Nat.mul_comm] at h
  rw [smpMax, Int.tmod_eq_emod_of_nonneg (by omega), ← Int.natCast_emod]
  omega

theorem top_cast (w : Nat) : ((2 : Int) ^ w - 1) = ((2 ^ w - 1 : Nat) : Int) := by
  have : 0 < 2 ^ w := Nat.pow_pos (by decide)
  rw [Int.natCast_sub (by omega)]
  simp

/-- One round of the unsigned loops. -/
def uRound (w : Nat) (lo : Int) (m : Nat) (x : BitVec w) : Option Int :=
  if (x.toNat : Int) ≥ smpMax (2 ^ w - 1) m then none else some (lo + (x.toNat : Int).tmod m)

theorem uRound_hits {w m : Nat} (lo : Int) (hm : 0 < m) (v : Int) :
    hits (uRound w lo m) v = if lo ≤ v ∧ v ≤ lo + m - 1 then (2 ^ w - 1) / m else 0 := by
  have hp : 0 < 2 ^ w := Nat.pow_pos (by decide)
  have hround : ∀ n < 2 ^ w, uRound w lo m (BitVec.ofNat w n) = if (2 ^ w - 1) / m * m ≤ n then none else some (lo + ((n % m : Nat) : Int)) := by
    intro n hn
    rw [uRound, top_cast, smpMax_nat, BitVec.toNat_ofNat, Nat.mod_eq_of_lt hn, Int.tmod_eq_emod_of_nonneg (by omega), ← Int.natCast_emod]
    by_cases h : (2 ^ w - 1) / m * m ≤ n
    · rw [if_pos h, if_pos (by omega)]
    · rw [if_neg h, if_neg (by omega)]
  by_cases hv : lo ≤ v ∧ v ≤ lo + m - 1
  · rw [if_pos hv]
    obtain ⟨r, hr⟩ : ∃ r : Nat, v = lo + r := ⟨(v - lo).toNat, by omega⟩
    rw [hits, count_samples _ (fun j => decide (j < (2 ^ w - 1) / m * m) && j % m == r)]
    · exact count_mod_below m r _ _ (by omega) (by have := Nat.div_mul_le_self (2 ^ w - 1) m; omega)
    · intro n hn
      rw [hround n hn]
      by_cases h : (2 ^ w - 1) / m * m ≤ n
      · rw [if_pos h]
        simp [Nat.not_lt.mpr h]
      · rw [if_neg h, hr]
        have h' : n < (2 ^ w - 1) / m * m := by omega
        by_cases e : n % m = r
        · simp [h', e]
        · have : ¬ (lo + ((n % m : Nat) : Int) = lo + (r : Int)) := by omega
          simp only [h', decide_true, Bool.true_and]
          rw [show (n % m == r) = false by simpa using e]
          simp only [beq_eq_false_iff_ne, ne_eq, Option.some.injEq]
          exact this
  · rw [if_neg hv, hits, count_samples _ (fun _ => false)]
    · simp
    · intro n hn
      rw [hround n hn]
      have hlt : n % m < m := Nat.mod_lt _ hm
      split
      · rfl
      · simp only [beq_eq_false_iff_ne, ne_eq, Option.some.injEq]
        omega

theorem uRound_uniform {w m : Nat} (lo : Int) (hm : 0 < m) (hm' : m ≤ 2 ^ w - 1) : Uniform (redraw (uRound w lo m)) lo (lo + m - 1) :=
  uniform_of_hits (Nat.div_pos hm' hm) (uRound_hits lo hm)

theorem nextUMax_eq {w : Nat} (max : BitVec w) (h : 1 ≤ max.toNat) : nextUMax max = redraw (uRound w 0 max.toNat) := by
  funext xs
  rw [nextUMax, if_neg (by omega)]
  congr 1
  funext x
  rw [uRound, Int.zero_add]

theorem nextURange_eq {w : Nat} (max min : BitVec w) (h : 1 ≤ max.toNat) (hm : min.toNat ≤ max.toNat) (hf : max.toNat - min.toNat + 1 < 2 ^ w) :
    nextURange max min = redraw (uRound w min.toNat (max.toNat - min.toNat + 1)) := by
  have hlt := max.isLt
  funext xs
  rw [nextURange, if_neg (by omega), if_neg (by omega)]
  simp only [Nat.mod_eq_of_lt hf]
  rw [if_neg (by omega)]
  congr 1
  funext x
  rw [uRound]
  split
  · rfl
  · congr 1
    rw [Int.tmod_eq_emod_of_nonneg (by omega), ← Int.natCast_emod]
    have h1 : x.toNat % (max.toNat - min.toNat + 1) < max.toNat - min.toNat + 1 := Nat.mod_lt _ (by omega)
    apply Int.emod_eq_of_lt (by omega)
    have h2 : ((2 : Int) ^ w) = ((2 ^ w : Nat) : Int) := by simp
    rw [h2]
    omega

/-- `NextUInt16/32/64(Maximum)` is uniform on `0 … Maximum - 1`. -/
theorem C49_unsigned_max {w : Nat} (max : BitVec w) (h : 1 ≤ max.toNat) : Uniform (nextUMax max) 0 (max.toNat - 1) := by
  have hlt := max.isLt
  rw [nextUMax_eq max h]
  have := uRound_uniform (w := w) 0 (m := max.toNat) (by omega) (by omega)
  rwa [Int.zero_add] at this

/-- `NextUInt16/32/64(Maximum, Minimum)` is uniform on `Minimum … Maximum`, unless that is all of the type. -/
theorem C49_unsigned_range_partial {w : Nat} (max min : BitVec w) (h : 1 ≤ max.toNat) (hm : min.toNat ≤ max.toNat) (hf : max.toNat - min.toNat + 1 < 2 ^ w) :
    Uniform (nextURange max min) min.toNat max.toNat := by
  have hlt := max.isLt
  rw [nextURange_eq max min h hm hf]
  have := uRound_uniform (w := w) min.toNat (m := max.toNat - min.toNat + 1) (by omega) (by omega)
  rwa [show ((min.toNat : Int) + ((max.toNat - min.toNat + 1 : Nat) : Int) - 1) = max.toNat by omega] at this

theorem uRound_ends {w m : Nat} (lo : Int) (hm : 0 < m) (hm' : m ≤ 2 ^ w - 1) : 2 * misses (uRound w lo m) ≤ 2 ^ w := by
  have hp : 0 < 2 ^ w := Nat.pow_pos (by decide)
  have hc : (2 ^ w - 1) / m * m ≤ 2 ^ w - 1 := Nat.div_mul_le_self _ _
  have hmis : misses (uRound w lo m) = 2 ^ w - (2 ^ w - 1) / m * m := by
    rw [misses, count_samples _ (fun j => decide ((2 ^ w - 1) / m * m ≤ j))]
    · obtain ⟨k, hk⟩ := Nat.le.dest (Nat.le_trans hc (Nat.sub_le _ _))
      generalize (2 ^ w - 1) / m * m = t at *
      rw [← hk, List.range_add, List.countP_append, List.countP_map]
      have h1 : (List.range t).countP (fun j => decide (t ≤ j)) = 0 := by
        rw [List.countP_eq_zero]; intro x hx; have := List.mem_range.mp hx; simp; omega
      have h2 : (List.range k).countP ((fun j => decide (t ≤ j)) ∘ fun x => t + x) = k := by
        have : (List.range k).countP ((fun j => decide (t ≤ j)) ∘ fun x => t + x) = (List.range k).length := by
          rw [List.countP_eq_length]; intro x _; simp
        rw [this, List.length_range]
      rw [h1, h2]; omega
    · intro n hn
      rw [uRound, top_cast, smpMax_nat, BitVec.toNat_ofNat, Nat.mod_eq_of_lt hn]
      by_cases h : (2 ^ w - 1) / m * m ≤ n
      · rw [if_pos (by omega)]; simp [h]
      · rw [if_neg (by omega)]; simp [h]
  have hmod := Nat.mod_lt (2 ^ w - 1) hm
  have hdm := Nat.div_add_mod (2 ^ w - 1) m
  rw [Nat.mul_comm] at hdm
  have hge : m ≤ (2 ^ w - 1) / m * m := Nat.le_mul_of_pos_left m (Nat.div_pos hm' hm)
  rw [hmis]
  omega

/-- The number of samples on which the call `f` has not ended after one. -/
def retries {w : Nat} (f : List (BitVec w) → M (Int × List (BitVec w))) : Nat := (samples w).countP fun x => match f [x] with
  | .ok _ => false
  | .error _ => true

theorem retries_redraw {w : Nat} (acc : BitVec w → Option Int) : retries (redraw acc) = misses acc := by
  apply List.countP_congr
  intro x _
  rcases h : acc x with _ | v <;> simp [redraw, h]

/-- Whatever the range, at least half of all samples end the loop of the unsigned functions at once. -/
theorem C49_unsigned_ends {w : Nat} (max min : BitVec w) (h : 1 ≤ max.toNat) :
    2 * retries (nextUMax max) ≤ 2 ^ w ∧ (min.toNat ≤ max.toNat → max.toNat - min.toNat + 1 < 2 ^ w → 2 * retries (nextURange max min) ≤ 2 ^ w) := by
  have := max.isLt
  refine ⟨?_, fun h1 h2 => ?_⟩
  · rw [nextUMax_eq max h, retries_redraw]
    exact uRound_ends 0 (by omega) (by omega)
  · rw [nextURange_eq max min h h1 h2, retries_redraw]
    exact uRound_ends _ (by omega) (by omega)

/-- **Counterexample** (SecureRandom.cpp:322-323, 432-433, 542-543): for the full range of the type the modulus is zero. -/
theorem C49_unsigned_full_ub {w : Nat} (hw : 0 < w) (xs : List (BitVec w)) : nextURange (BitVec.allOnes w) 0 xs = .error .ub := by
  have hp : 2 ≤ 2 ^ w := by
    have := Nat.pow_le_pow_right (n := 2) (by decide) hw
    simpa using this
  have e : (2 ^ w - 1 - 0 + 1) % 2 ^ w = 0 := by rw [show 2 ^ w - 1 - 0 + 1 = 2 ^ w by omega]; exact Nat.mod_self _
  have h0 : (0#w).toNat = 0 := by simp
  show nextURange (BitVec.allOnes w) (0#w) xs = _
  rw [nextURange, BitVec.toNat_allOnes, h0, if_neg (by omega), if_neg (by omega)]
  simp only [e]
  rw [if_pos trivial]

/-! ## Signed -/

/-- One round of the signed loops. -/
def sRound (w : Nat) (m : Nat) (x : BitVec w) : Option Int :=
  if x.toInt ≥ smpMax (2 ^ (w - 1) - 1) m ∨ x.toInt.tmod m < 0 then none else some (x.toInt.tmod m)

theorem toInt_low {k n : Nat} (hn : n < 2 ^ k) : (BitVec.ofNat (k + 1) n).toInt = n := by
  have h : 2 ^ (k + 1) = 2 * 2 ^ k := by rw [Nat.pow_succ]; omega
  rw [BitVec.toInt_eq_toNat_cond, BitVec.toNat_ofNat, Nat.mod_eq_of_lt (by omega), if_pos (by omega)]

theorem toInt_high {k n : Nat} (hn : n < 2 ^ k) : (BitVec.ofNat (k + 1) (2 ^ k + n)).toInt = -((2 ^ k - n : Nat) : Int) := by
  have h : 2 ^ (k + 1) = 2 * 2 ^ k := by rw [Nat.pow_succ]; omega
  rw [BitVec.toInt_eq_toNat_cond, BitVec.toNat_ofNat, Nat.mod_eq_of_lt (by omega), if_neg (by omega)]
  omega

theorem sRound_low {k m n : Nat} (hn : n < 2 ^ k) :
    sRound (k + 1) m (BitVec.ofNat (k + 1) n) = if (2 ^ k - 1) / m * m ≤ n then none else some ((n % m : Nat) : Int) := by
  rw [sRound, toInt_low hn, Nat.add_sub_cancel, top_cast, smpMax_nat, Int.tmod_eq_emod_of_nonneg (by omega), ← Int.natCast_emod]
  by_cases h : (2 ^ k - 1) / m * m ≤ n
  · rw [if_pos h, if_pos (by left; omega)]
  · rw [if_neg h, if_neg (by omega)]

theorem sRound_high {k m n : Nat} (hm : 0 < m) (hn : n < 2 ^ k) :
    sRound (k + 1) m (BitVec.ofNat (k + 1) (2 ^ k + n)) = if (2 ^ k - n) % m = 0 then some 0 else none := by
  rw [sRound, toInt_high hn, Nat.add_sub_cancel, top_cast, smpMax_nat, Int.neg_tmod, Int.tmod_eq_emod_of_nonneg (by omega), ← Int.natCast_emod]
  by_cases h : (2 ^ k - n) % m = 0
  · rw [if_pos h, if_neg (by omega), h]; rfl
  · rw [if_neg h, if_pos (by right; omega)]

theorem count_split {k : Nat} (acc : BitVec (k + 1) → Option Int) (v : Int) :
    hits acc v = (List.range (2 ^ k)).countP (fun n => acc (BitVec.ofNat (k + 1) n) == some v) +
      (List.range (2 ^ k)).countP (fun n => acc (BitVec.ofNat (k + 1) (2 ^ k + n)) == some v) := by
  rw [hits, samples, List.countP_map, show 2 ^ (k + 1) = 2 ^ k + 2 ^ k by rw [Nat.pow_succ]; omega, List.range_add, List.countP_append, List.countP_map]
  rfl

/-- How often each number comes out of one round of the signed loops. -/
theorem sRound_hits {k m : Nat} (hm : 0 < m) (v : Int) :
    hits (sRound (k + 1) m) v = if 0 ≤ v ∧ v ≤ m - 1 then (2 ^ k - 1) / m + (if v = 0 then 2 ^ k / m else 0) else 0 := by
  have hp : 0 < 2 ^ k := Nat.pow_pos (by decide)
  rw [count_split]
  have hlow : (List.range (2 ^ k)).countP (fun n => sRound (k + 1) m (BitVec.ofNat (k + 1) n) == some v) = if 0 ≤ v ∧ v ≤ m - 1 then (2 ^ k - 1) / m else 0 := by
    by_cases hv : 0 ≤ v ∧ v ≤ m - 1
    · rw [if_pos hv]
      obtain ⟨r, hr⟩ : ∃ r : Nat, v = r := ⟨v.toNat, by omega⟩
      refine Eq.trans ?_ (count_mod_below m r ((2 ^ k - 1) / m) (2 ^ k) (by omega) (by have := Nat.div_mul_le_self (2 ^ k - 1) m; omega))
      apply List.countP_congr
      intro n hn
      rw [sRound_low (List.mem_range.mp hn)]
      by_cases h : (2 ^ k - 1) / m * m ≤ n
      · rw [if_pos h]; simp [Nat.not_lt.mpr h]
      · rw [if_neg h, hr]
        have h' : n < (2 ^ k - 1) / m * m := by omega
        simp only [h', decide_true, Bool.true_and, beq_iff_eq, Option.some.injEq]
        omega
    · rw [if_neg hv, List.countP_eq_zero]
      intro n hn
      rw [sRound_low (List.mem_range.mp hn)]
      have := Nat.mod_lt n hm
      split
      · simp
      · simp only [beq_iff_eq, Option.some.injEq]; omega
  have hhigh : (List.range (2 ^ k)).countP (fun n => sRound (k + 1) m (BitVec.ofNat (k + 1) (2 ^ k + n)) == some v) = if v = 0 then 2 ^ k / m else 0 := by
    by_cases hv : v = 0
    · rw [if_pos hv, ← count_multiples m (2 ^ k)]
      apply List.countP_congr
      intro n hn
      rw [sRound_high hm (List.mem_range.mp hn), hv]
      split <;> simp_all
    · rw [if_neg hv, List.countP_eq_zero]
      intro n hn
      rw [sRound_high hm (List.mem_range.mp hn)]
      split
      · simp only [beq_iff_eq, Option.some.injEq]; omega
      · simp
  rw [hlow, hhigh]
  by_cases hv : 0 ≤ v ∧ v ≤ m - 1
  · rw [if_pos hv, if_pos hv]
  · rw [if_neg hv, if_neg hv, if_neg (by omega)]

/-- Only numbers from `lo` to `hi` come out; those above `lo` equally often, `lo` more often. -/
structure Skewed {w : Nat} (f : List (BitVec w) → M (Int × List (BitVec w))) (lo hi : Int) : Prop where
  equal : ∀ n u v, lo < u → u ≤ hi → lo < v → v ≤ hi → outcomes f n u = outcomes f n v
  occurs : ∀ n v, lo ≤ v → v ≤ hi → 0 < outcomes f (n + 1) v
  only : ∀ n v, v < lo ∨ hi < v → outcomes f n v = 0
  more : ∀ n v, lo < v → v ≤ hi → outcomes f (n + 1) v < outcomes f (n + 1) lo

theorem Skewed.not_uniform {w : Nat} {f : List (BitVec w) → M (Int × List (BitVec w))} {lo hi : Int} (h : Skewed f lo hi) (hl : lo < hi) : ¬ Uniform f lo hi := by
  intro hu
  have h1 := h.more 0 hi hl (Int.le_refl _)
  have h2 := hu.equal (0 + 1) hi lo (by omega) (Int.le_refl _) (Int.le_refl _) (by omega)
  omega

theorem sRound_skewed {k m : Nat} (hm : 0 < m) (hm' : m ≤ 2 ^ k - 1) : Skewed (redraw (sRound (k + 1) m)) 0 (m - 1) where
  equal n u v h1 h2 h3 h4 := by
    apply outcomes_eq
    rw [sRound_hits hm u, sRound_hits hm v, if_pos (show 0 ≤ u ∧ u ≤ m - 1 by omega), if_pos (show 0 ≤ v ∧ v ≤ m - 1 by omega), if_neg (show ¬ u = 0 by omega), if_neg (show ¬ v = 0 by omega)]
  occurs n v h1 h2 := by
    apply outcomes_pos
    rw [sRound_hits hm, if_pos ⟨h1, h2⟩]
    exact Nat.add_pos_left (Nat.div_pos hm' hm) _
  only n v hv := outcomes_none (by rw [sRound_hits hm, if_neg (by omega)]) n
  more n v h1 h2 := by
    apply outcomes_lt
    have : 0 < 2 ^ k / m := Nat.div_pos (by omega) hm
    rw [sRound_hits hm v, sRound_hits hm 0, if_pos (show 0 ≤ v ∧ v ≤ m - 1 by omega), if_pos (show (0 : Int) ≤ 0 ∧ (0 : Int) ≤ m - 1 by omega), if_neg (show ¬ v = 0 by omega), if_pos rfl]
    omega

theorem toInt_range {w : Nat} (x : BitVec w) (h : 1 ≤ x.toInt) : ∃ k, w = k + 1 ∧ x.toInt ≤ 2 ^ k - 1 := by
  rcases w with _ | k
  · have : x.toInt = 0 := by rw [BitVec.of_length_zero (x := x)]; rfl
    omega
  · refine ⟨k, rfl, ?_⟩
    have := @BitVec.toInt_lt (k + 1) x
    rw [Nat.add_sub_cancel] at this
    omega

/-- `NextInt16/32/64(Maximum)`: only `0 … Maximum - 1` come out, each does, and all but 0 are equally frequent; 0 is more frequent, so it is not uniform. -/
theorem C49_signed_max_partial {w : Nat} (max : BitVec w) (h : 1 ≤ max.toInt) : Skewed (nextSMax max) 0 (max.toInt - 1) := by
  obtain ⟨k, rfl, hk⟩ := toInt_range max h
  obtain ⟨m, hm⟩ : ∃ m : Nat, max.toInt = m := ⟨max.toInt.toNat, by omega⟩
  have e : nextSMax max = redraw (sRound (k + 1) m) := by
    funext xs
    rw [nextSMax, if_neg (by omega), hm]
    rfl
  rw [e, hm]
  rw [hm, top_cast] at hk
  exact sRound_skewed (by omega) (by omega)

/-- **Counterexample** (SecureRandom.cpp:246-251, 356-361, 466-471): negative multiples of the maximum have remainder 0 and are accepted. -/
theorem C49_signed_max_false {w : Nat} (max : BitVec w) (h : 2 ≤ max.toInt) : ¬ Uniform (nextSMax max) 0 (max.toInt - 1) :=
  (C49_signed_max_partial max (by omega)).not_uniform (by omega)

/-- Of the 65536 samples, a random bit by `NextInt16(2)` is 0 on 32767 and 1 on 16383. -/
theorem C49_bit : outcomes (nextSMax (2#16)) 1 0 = 32767 ∧ outcomes (nextSMax (2#16)) 1 1 = 16383 := by
  have h2 : (2#16).toInt = (2 : Nat) := by decide
  have e : nextSMax (2#16) = redraw (sRound 16 2) := by
    funext xs
    rw [nextSMax, if_neg (by rw [h2]; decide), h2]
    rfl
  have h0 : hits (sRound 16 2) 0 = 32767 := by rw [sRound_hits (k := 15) (m := 2) (by decide) 0]; norm_num
  have h1 : hits (sRound 16 2) 1 = 16383 := by rw [sRound_hits (k := 15) (m := 2) (by decide) 1]; norm_num
  rw [e, show (1 : Nat) = 0 + 1 from rfl, outcomes_succ, outcomes_succ, outcomes_zero, outcomes_zero, h0, h1, Nat.mul_zero, Nat.pow_zero]
  exact ⟨rfl, rfl⟩

theorem outcomes_map {w : Nat} {f g : List (BitVec w) → M (Int × List (BitVec w))} {a b : Int}
    (h : ∀ xs, (∃ r, f xs = .ok (a, r)) ↔ ∃ r, g xs = .ok (b, r)) (n : Nat) : outcomes f n a = outcomes g n b := by
  apply List.countP_congr
  intro t _
  have := h t
  rcases hf : f t with _ | ⟨u, r⟩ <;> rcases hg : g t with _ | ⟨u', r'⟩ <;> simp_all

/-- A signed loop whose results are shifted by `lo`. -/
theorem shift_skewed {w : Nat} {f g : List (BitVec w) → M (Int × List (BitVec w))} {lo hi : Int}
    (h : ∀ xs v r, g xs = .ok (v, r) ↔ f xs = .ok (v - lo, r)) (hf : Skewed f 0 (hi - lo)) : Skewed g lo hi := by
  have e : ∀ n v, outcomes g n v = outcomes f n (v - lo) := fun n v =>
    outcomes_map (fun xs => ⟨fun ⟨r, hr⟩ => ⟨r, (h xs v r).mp hr⟩, fun ⟨r, hr⟩ => ⟨r, (h xs v r).mpr hr⟩⟩) n
  constructor
  · intro n u v h1 h2 h3 h4
    rw [e, e]; exact hf.equal n _ _ (by omega) (by omega) (by omega) (by omega)
  · intro n v h1 h2
    rw [e]; exact hf.occurs n _ (by omega) (by omega)
  · intro n v hv
    rw [e]; exact hf.only n _ (by omega)
  · intro n v h1 h2
    rw [e, e, Int.sub_self]; exact hf.more n _ (by omega) (by omega)

theorem store_in {w : Nat} {v : Int} (hw : 0 < w) (h1 : -2 ^ (w - 1) ≤ v) (h2 : v < 2 ^ (w - 1)) : store w v = .ok v := by
  rw [store]
  split
  · rw [BitVec.toInt_ofInt_eq_self hw h1 h2]
  · rw [if_pos ⟨h1, h2⟩]

theorem redraw_mem {w : Nat} {α : Type} {acc : BitVec w → Option α} {v : α} : ∀ {xs r : List (BitVec w)}, redraw acc xs = .ok (v, r) → ∃ x, acc x = some v
  | [], _, h => by cases h
  | x :: xs, r, h => by
    rw [redraw] at h
    rcases hx : acc x with _ | u
    · rw [hx] at h; exact redraw_mem h
    · rw [hx] at h; cases h; exact ⟨x, hx⟩

theorem toInt_bounds {k : Nat} (x : BitVec (k + 1)) : -2 ^ k ≤ x.toInt ∧ x.toInt < 2 ^ k := by
  have h1 := @BitVec.toInt_lt (k + 1) x
  have h2 := @BitVec.le_toInt (k + 1) x
  rw [Nat.add_sub_cancel] at h1 h2
  exact ⟨h2, h1⟩

theorem sRound_bound {k m : Nat} (hm : 0 < m) {x : BitVec (k + 1)} {v : Int} (h : sRound (k + 1) m x = some v) : 0 ≤ v ∧ v < m := by
  rw [sRound] at h
  split at h
  · cases h
  · cases h
    refine ⟨by omega, Int.tmod_lt_of_pos _ (by omega)⟩

/-- `NextInt16/32/64(Maximum, Minimum)` with a range that fits the type: only `Minimum … Maximum` come out, each does, all but `Minimum` are equally frequent; `Minimum` is more
frequent, so it is not uniform. -/
theorem C49_signed_range_partial {w : Nat} (max min : BitVec w) (h : 1 ≤ max.toInt) (hm : min.toInt ≤ max.toInt) (hf : max.toInt - min.toInt + 1 < 2 ^ (w - 1)) :
    Skewed (nextSRange max min) min.toInt max.toInt := by
  obtain ⟨k, rfl, hk⟩ := toInt_range max h
  rw [Nat.add_sub_cancel] at hf
  obtain ⟨m, hmm⟩ : ∃ m : Nat, max.toInt - min.toInt + 1 = m := ⟨(max.toInt - min.toInt + 1).toNat, by omega⟩
  have hp : (0 : Int) < 2 ^ k := Int.pow_pos (by decide)
  have hmin := toInt_bounds min
  have hst : store (k + 1) (max.toInt - min.toInt + 1) = .ok (m : Int) := by
    rw [hmm]; exact store_in (by omega) (by rw [Nat.add_sub_cancel]; omega) (by rw [Nat.add_sub_cancel]; omega)
  have hm0 : 0 < m := by omega
  apply shift_skewed (f := redraw (sRound (k + 1) m))
  · intro xs v r
    have e : nextSRange max min xs = (redraw (sRound (k + 1) m) xs >>= fun p => store (k + 1) (min.toInt + p.1) >>= fun v => pure (v, p.2)) := by
      rw [nextSRange, if_neg (by omega), if_neg (by omega), hst, ok_bind]
      simp only []
      rw [if_neg (by omega)]
      rfl
    rw [e]
    rcases hr : redraw (sRound (k + 1) m) xs with _ | ⟨u, r'⟩
    · constructor
      · intro hh; cases hh
      · intro hh; cases hh
    · obtain ⟨x, hx⟩ := redraw_mem hr
      have hb := sRound_bound hm0 hx
      rw [ok_bind]
      simp only []
      rw [store_in (by omega) (by rw [Nat.add_sub_cancel]; omega) (by rw [Nat.add_sub_cancel]; omega)]
      constructor
      · intro hh
        cases hh
        rw [show min.toInt + u - min.toInt = u by omega]
      · intro hh
        cases hh
        rw [ok_bind, show min.toInt + (v - min.toInt) = v by omega]
        rfl
  · have h2 : max.toInt - min.toInt = m - 1 := by omega
    rw [h2]
    rw [hmm] at hf
    have : ((2 : Int) ^ k) = ((2 ^ k : Nat) : Int) := by simp
    exact sRound_skewed hm0 (by omega)

/-- **Counterexample** (SecureRandom.cpp:274-277, 384-387, 494-497). -/
theorem C49_signed_range_false {w : Nat} (max min : BitVec w) (h : 1 ≤ max.toInt) (hm : min.toInt < max.toInt) (hf : max.toInt - min.toInt + 1 < 2 ^ (w - 1)) :
    ¬ Uniform (nextSRange max min) min.toInt max.toInt :=
  (C49_signed_range_partial max min h (by omega) hf).not_uniform hm

/-- **Counterexample** (SecureRandom.cpp:377, 487): a range of half the type or more is a signed overflow in the 32- and 64-bit functions. -/
theorem C49_signed_range_ub {w : Nat} (hw : 32 ≤ w) (max min : BitVec w) (h : 1 ≤ max.toInt) (hm : min.toInt ≤ max.toInt) (hf : 2 ^ (w - 1) ≤ max.toInt - min.toInt + 1)
    (xs : List (BitVec w)) : nextSRange max min xs = .error .ub := by
  rw [nextSRange, if_neg (by omega), if_neg (by omega), store, if_neg (by omega), if_neg (by omega)]
  rfl

/-- **Counterexample** (SecureRandom.cpp:267): `NextInt16(32767, -32767)` reduces its modulus to -1 and always returns -32767. -/
theorem C49_int16_constant (xs r : List (BitVec 16)) (v : Int) (h : nextSRange (32767#16) (-32767#16) xs = .ok (v, r)) : v = -32767 := by
  have e : nextSRange (32767#16) (-32767#16) xs = (redraw (fun x : BitVec 16 => if x.toInt ≥ smpMax (2 ^ (16 - 1) - 1) (-1) ∨ x.toInt.tmod (-1) < 0 then none
      else some (x.toInt.tmod (-1))) xs >>= fun p => store 16 (-32767 + p.1) >>= fun v => pure (v, p.2)) := rfl
  rw [e] at h
  rcases hr : redraw (fun x : BitVec 16 => if x.toInt ≥ smpMax (2 ^ (16 - 1) - 1) (-1) ∨ x.toInt.tmod (-1) < 0 then none
      else some (x.toInt.tmod (-1))) xs with _ | ⟨u, r'⟩
  · rw [hr] at h; cases h
  · obtain ⟨x, hx⟩ := redraw_mem hr
    have hu : u = 0 := by
      simp only [Int.tmod_neg, Int.tmod_one] at hx
      split at hx
      · cases hx
      · cases hx; rfl
    subst hu
    rw [hr, ok_bind] at h
    have h2 : store 16 (-32767 + 0) = .ok (-32767) := by decide
    simp only [] at h
    rw [h2] at h
    cases h
    rfl

/-! ## Concrete cases -/

/-- A die from two bytes: 65535 is not below the limit and is drawn again. -/
example : nextURange (6#16) (1#16) [65535#16, 8#16, 7#16] = .ok (3, [7#16]) := by decide +kernel

/-- A random bit from a negative sample. -/
example : nextSMax (2#16) [-2#16] = .ok (0, []) ∧ nextSMax (2#16) [-1#16] = .error .diverges := by decide +kernel

example : Uniform (nextURange (6#32) (1#32)) 1 6 := C49_unsigned_range_partial (6#32) (1#32) (by decide) (by decide) (by decide)

example : Skewed (nextSRange (6#32) (-6#32)) (-6) 6 := C49_signed_range_partial (6#32) (-6#32) (by decide) (by decide) (by decide)

example (xs : List (BitVec 32)) : nextSRange (1#32) (-2147483647#32) xs = .error .ub := C49_signed_range_ub (by decide) _ _ (by decide) (by decide) (by decide) xs

end Cex.Random
