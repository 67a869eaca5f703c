import Verif.Random.Model
import Verif.Random.Spec
import Mathlib.Tactic.Ring

/-! # Lemmas: counting samples -/

namespace Cex.Random
open Cex

/-- One round of the loop gives `v` on so many samples. -/
def hits {w : Nat} (acc : BitVec w → Option Int) (v : Int) : Nat := (samples w).countP fun x => acc x == some v

/-- One round of the loop is repeated on so many samples. -/
def misses {w : Nat} (acc : BitVec w → Option Int) : Nat := (samples w).countP fun x => acc x == none

theorem tapes_length (w n : Nat) : (tapes w n).length = (2 ^ w) ^ n := by
  induction n with
  | zero => rfl
  | succ n ih =>
    have : ∀ l : List (BitVec w), (l.flatMap fun x => (tapes w n).map (x :: ·)).length = l.length * (2 ^ w) ^ n := by
      intro l
      induction l with
      | nil => simp
      | cons x l h => rw [List.flatMap_cons, List.length_append, h, List.length_map, ih, List.length_cons, Nat.succ_mul, Nat.add_comm]
    rw [tapes, this, samples, List.length_map, List.length_range, Nat.pow_succ, Nat.mul_comm]

theorem outcomes_zero {w : Nat} (acc : BitVec w → Option Int) (v : Int) : outcomes (redraw acc) 0 v = 0 := rfl

theorem outcomes_succ {w : Nat} (acc : BitVec w → Option Int) (n : Nat) (v : Int) :
    outcomes (redraw acc) (n + 1) v = hits acc v * (2 ^ w) ^ n + misses acc * outcomes (redraw acc) n v := by
  have : ∀ l : List (BitVec w), (l.flatMap fun x => (tapes w n).map (x :: ·)).countP (fun t => match redraw acc t with
      | .ok (u, _) => u == v
      | .error _ => false) = l.countP (fun x => acc x == some v) * (2 ^ w) ^ n + l.countP (fun x => acc x == none) * outcomes (redraw acc) n v := by
    intro l
    induction l with
    | nil => simp
    | cons x l h =>
      rw [List.flatMap_cons, List.countP_append, h, List.countP_map, List.countP_cons, List.countP_cons]
      rcases hx : acc x with _ | u
      · have e : ((fun t => match redraw acc t with
            | .ok (u, _) => u == v
            | .error _ => false) ∘ (x :: ·)) = fun t => match redraw acc t with
            | .ok (u, _) => u == v
            | .error _ => false := by
          funext t; simp only [Function.comp, redraw, hx]
        rw [e]
        simp only [outcomes]
        generalize List.countP _ (tapes w n) = k
        simp; ring
      · have e : ((fun t => match redraw acc t with
            | .ok (u, _) => u == v
            | .error _ => false) ∘ (x :: ·)) = fun _ => u == v := by
          funext t; simp only [Function.comp, redraw, hx]
        rw [e]
        by_cases huv : u = v
        · subst huv
          simp [tapes_length]; ring
        · have : (u == v) = false := by simpa using huv
          simp [huv]
  exact this (samples w)

theorem outcomes_eq {w : Nat} {acc : BitVec w → Option Int} {u v : Int} (h : hits acc u = hits acc v) (n : Nat) :
    outcomes (redraw acc) n u = outcomes (redraw acc) n v := by
  induction n with
  | zero => rfl
  | succ n ih => rw [outcomes_succ, outcomes_succ, h, ih]

theorem outcomes_none {w : Nat} {acc : BitVec w → Option Int} {v : Int} (h : hits acc v = 0) (n : Nat) : outcomes (redraw acc) n v = 0 := by
  induction n with
  | zero => rfl
  | succ n ih => rw [outcomes_succ, h, ih]; simp

theorem outcomes_pos {w : Nat} {acc : BitVec w → Option Int} {v : Int} (h : 0 < hits acc v) (n : Nat) : 0 < outcomes (redraw acc) (n + 1) v := by
  rw [outcomes_succ]
  exact Nat.add_pos_left (Nat.mul_pos h (Nat.pow_pos (Nat.pow_pos (by decide)))) _

theorem outcomes_lt {w : Nat} {acc : BitVec w → Option Int} {u v : Int} (h : hits acc u < hits acc v) (n : Nat) :
    outcomes (redraw acc) (n + 1) u < outcomes (redraw acc) (n + 1) v := by
  have hle : ∀ n, outcomes (redraw acc) n u ≤ outcomes (redraw acc) n v := by
    intro n
    induction n with
    | zero => exact Nat.le_refl _
    | succ n ih =>
      rw [outcomes_succ, outcomes_succ]
      exact Nat.add_le_add (Nat.mul_le_mul_right _ (Nat.le_of_lt h)) (Nat.mul_le_mul_left _ ih)
  rw [outcomes_succ, outcomes_succ]
  exact Nat.add_lt_add_of_lt_of_le (Nat.mul_lt_mul_of_pos_right h (Nat.pow_pos (Nat.pow_pos (by decide)))) (Nat.mul_le_mul_left _ (hle n))

/-- A uniform round makes a uniform loop. -/
theorem uniform_of_hits {w : Nat} {acc : BitVec w → Option Int} {lo hi : Int} {c : Nat} (hc : 0 < c)
    (h : ∀ v, hits acc v = if lo ≤ v ∧ v ≤ hi then c else 0) : Uniform (redraw acc) lo hi where
  equal n u v h1 h2 h3 h4 := outcomes_eq (by rw [h, h, if_pos ⟨h1, h2⟩, if_pos ⟨h3, h4⟩]) n
  occurs n v h1 h2 := outcomes_pos (by rw [h, if_pos ⟨h1, h2⟩]; exact hc) n
  only n v hv := outcomes_none (by rw [h, if_neg (by omega)]) n

/-! ## Numbers below a bound with a given remainder -/

theorem count_range_eq (m v : Nat) (h : v < m) : (List.range m).countP (fun j => j == v) = 1 := by
  have := List.count_range (a := v) (n := m)
  rw [List.count] at this
  rw [this, if_pos h]

theorem count_mod (m v : Nat) (h : v < m) : ∀ c, (List.range (c * m)).countP (fun j => j % m == v) = c := by
  intro c
  induction c with
  | zero => simp
  | succ c ih =>
    rw [Nat.succ_mul, List.range_add, List.countP_append, ih, List.countP_map]
    have : (List.range m).countP ((fun j => j % m == v) ∘ fun x => c * m + x) = (List.range m).countP (fun j => j == v) := by
      apply List.countP_congr
      intro x hx
      have hx : x < m := List.mem_range.mp hx
      simp [Nat.mul_comm c m, Nat.mul_add_mod, Nat.mod_eq_of_lt hx]
    rw [this, count_range_eq m v h]

/-- Of the numbers below `n`, those below `c * m` with remainder `v`. -/
theorem count_mod_below (m v c n : Nat) (h : v < m) (hn : c * m ≤ n) :
    (List.range n).countP (fun j => decide (j < c * m) && j % m == v) = c := by
  obtain ⟨k, rfl⟩ := Nat.le.dest hn
  rw [List.range_add, List.countP_append, List.countP_map]
  have h1 : (List.range (c * m)).countP (fun j => decide (j < c * m) && j % m == v) = c := by
    refine Eq.trans ?_ (count_mod m v h c)
    apply List.countP_congr
    intro x hx
    have hx : x < c * m := List.mem_range.mp hx
    simp [hx]
  have h2 : (List.range k).countP ((fun j => decide (j < c * m) && j % m == v) ∘ fun x => c * m + x) = 0 := by
    rw [List.countP_eq_zero]
    intro x _
    simp
  rw [h1, h2, Nat.add_zero]

/-- Multiples of `m` among `1 … n`, counted from above. -/
theorem count_multiples (m : Nat) : ∀ n, (List.range n).countP (fun j => (n - j) % m == 0) = n / m := by
  intro n
  induction n with
  | zero => simp
  | succ n ih =>
    rw [List.range_succ_eq_map, List.countP_cons, List.countP_map]
    have : (List.range n).countP ((fun j => (n + 1 - j) % m == 0) ∘ Nat.succ) = n / m := by
      rw [← ih]; apply List.countP_congr; intro x _; simp
    rw [this, Nat.succ_div]
    simp [Nat.dvd_iff_mod_eq_zero]

/-- Counting over all samples is counting over numbers. -/
theorem count_samples {w : Nat} (P : BitVec w → Bool) (Q : Nat → Bool) (h : ∀ n < 2 ^ w, P (BitVec.ofNat w n) = Q n) :
    (samples w).countP P = (List.range (2 ^ w)).countP Q := by
  rw [samples, List.countP_map]
  apply List.countP_congr
  intro x hx
  simp [Function.comp, h x (List.mem_range.mp hx)]

end Cex.Random
