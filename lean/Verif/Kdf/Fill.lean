import Verif.Stream

/-! # Loops that fill an output window block by block -/

namespace Cex.Kdf
open Cex Cex.Stream

/-- `v.resize(n)`. -/
def resize (b : List Byte) (n : Nat) : List Byte := b.take n ++ List.replicate (n - b.length) 0

theorem resize_length (b : List Byte) (n : Nat) : (resize b n).length = n := by
  simp only [resize, List.length_append, List.length_take, List.length_replicate]; omega

/-- The number of iterations of `while (plen != Length)` advancing by `min(B, Length - plen)`. -/
def blocksFor (B len : Nat) : Nat := (len + B - 1) / B

theorem blocksFor_ge {B : Nat} (hB : 0 < B) (len : Nat) : len ≤ blocksFor B len * B := by
  have h := Nat.div_add_mod (len + B - 1) B
  have h2 := Nat.mod_lt (len + B - 1) hB
  rw [blocksFor, Nat.mul_comm]
  omega

theorem blocksFor_lt {B : Nat} (hB : 0 < B) {len k : Nat} (hk : k < blocksFor B len) : k * B < len := by
  have h := Nat.div_mul_le_self (len + B - 1) B
  have h2 : (k + 1) * B ≤ blocksFor B len * B := Nat.mul_le_mul_right _ hk
  rw [blocksFor] at h2
  rw [Nat.add_mul, Nat.one_mul] at h2
  omega

/-- If every pass writes its block (cut to what is left) at its place, the loop writes the stream of blocks cut to the
requested length, and nothing outside the window. -/
theorem fill_ok {S : Type} {f : Nat → S × List Byte → M (S × List Byte)} {B n : Nat} {pre junk post : List Byte} (R : Nat → S → Prop)
    (blk : Nat → List Byte) (hl : ∀ k, k < n → (blk k).length = B) (hk : ∀ k, k < n → k * B ≤ junk.length) (hn : junk.length ≤ n * B)
    (hf : ∀ k s a win c, k < n → R k s → a.length = pre.length + k * B → win.length = min B (junk.length - k * B) →
      ∃ s', f k (s, a ++ win ++ c) = .ok (s', a ++ (blk k).take (min B (junk.length - k * B)) ++ c) ∧ R (k + 1) s')
    {s : S} (h0 : R 0 s) :
    ∃ s', loopN n 0 f (s, pre ++ junk ++ post) = .ok (s', pre ++ (((List.range n).map blk).flatten).take junk.length ++ post) ∧ R n s' := by
  have hB : ∀ k, k ≤ n → Blocks B ((List.range k).map blk) := by
    intro k hkn b hb
    obtain ⟨i, hi, rfl⟩ := List.mem_map.mp hb
    exact hl i (by have := List.mem_range.mp hi; omega)
  obtain ⟨⟨s', out⟩, h1, h2, rest, h3, h4⟩ := loopN_inv (f := f) (P := fun k p => R k p.1 ∧ ∃ rest, p.2 = pre ++ (((List.range k).map blk).flatten).take junk.length ++ rest ++ post ∧
      rest.length = junk.length - k * B) n 0 (s, pre ++ junk ++ post) (by
    rintro k ⟨t, out⟩ _ hkn ⟨hr, rest, rfl, hrest⟩
    have hkn : k < n := by omega
    have hkB := hk k hkn
    have hfl : (((List.range k).map blk).flatten).length = k * B := by rw [(hB k (by omega)).length]; simp
    have hsz : (((List.range k).map blk).flatten).take junk.length = ((List.range k).map blk).flatten := List.take_of_length_le (by omega)
    obtain ⟨s', e, r'⟩ := hf k t (pre ++ ((List.range k).map blk).flatten) (rest.take (min B (junk.length - k * B))) (rest.drop (min B (junk.length - k * B)) ++ post) hkn hr
      (by rw [List.length_append, hfl]) (by rw [List.length_take]; omega)
    have e1 : pre ++ (((List.range k).map blk).flatten).take junk.length ++ rest ++ post =
        pre ++ ((List.range k).map blk).flatten ++ rest.take (min B (junk.length - k * B)) ++ (rest.drop (min B (junk.length - k * B)) ++ post) := by
      rw [hsz]
      simp only [List.append_assoc]
      rw [← List.append_assoc (rest.take _), List.take_append_drop]
    rw [e1, e]
    refine ⟨_, rfl, r', rest.drop (min B (junk.length - k * B)), ?_, ?_⟩
    · simp only
      rw [List.range_succ, List.map_append, List.flatten_append, List.map_singleton, List.flatten_singleton, List.take_append, hsz, hfl, hl k hkn |> fun h => (by
        rw [show (blk k).take (min B (junk.length - k * B)) = (blk k).take (junk.length - k * B) by
          rw [← List.take_take, List.take_of_length_le (i := B) (by rw [List.length_take]; omega)] ] :
        (blk k).take (min B (junk.length - k * B)) = (blk k).take (junk.length - k * B))]
      simp only [List.append_assoc]
    · rw [List.length_drop, hrest, Nat.add_mul, Nat.one_mul]; omega) ⟨h0, junk, by simp, by simp⟩
  rw [Nat.zero_add] at h2 h3 h4
  have : rest = [] := List.eq_nil_of_length_eq_zero (by omega)
  subst this
  simp only at h3
  rw [List.append_nil] at h3
  subst h3
  exact ⟨s', h1, h2⟩

end Cex.Kdf
