import Verif.Blake.TreeEval2

/-!
# C66: concrete runs of the tree mode
-/

namespace Cex.Blake
open Cex

/-- The constructors give fresh objects, the default ones with 8 and 4 leaves too. -/
theorem tree_fresh : (∃ o, tree2 = .ok o ∧ Fresh o) ∧ (∃ o, Obj.newTree (core256 false) 8 512 = .ok o ∧ Fresh o) ∧ ∃ o, Obj.newTree (core512 false) 4 512 = .ok o ∧ Fresh o := by
  have key : ∀ {w : Nat} {x : M (Obj w)}, (do
      let o ← x
      return decide (o.len = 0 ∧ o.fan > 1 ∧ o.fan ≤ 64 ∧ o.buf.length = 2 * o.fan * (2 * w) ∧ 2 * w ≤ o.min ∧ o.min < 2 ^ 32) : M Bool) = .ok true → ∃ o, x = .ok o ∧ Fresh o := by
    intro w x h
    obtain ⟨o, h1, h2⟩ := bind_ok h
    obtain ⟨a, b, c, d, e, f⟩ := of_decide_eq_true (Except.ok.inj h2)
    exact ⟨o, h1, a, b, c, d, e, f⟩
  exact ⟨key (by decide +kernel), key (by decide +kernel), key (by decide +kernel)⟩

/-- **C66**, refuted: the digest of a message depends on how it is cut into calls of `Update`. -/
theorem C66_split_dependence : ∃ (o : Obj 32) (m1 m2 : List Byte) (r u : Obj 32 × List Byte), tree2 = .ok o ∧
    o.compute (core256 true) (m1 ++ m2) (List.replicate 32 0) = .ok r ∧
    (do
      let u ← o.update (core256 true) m1 0 m1.length
      let u ← u.update (core256 true) m2 0 m2.length
      u.finalize (core256 true) (List.replicate 32 0) 0) = .ok u ∧ u.2 ≠ r.2 := by
  obtain ⟨r, h1, k1⟩ := bind_ok oneCall_first
  obtain ⟨o, h0, h1⟩ := bind_ok h1
  obtain ⟨u, h2, k2⟩ := bind_ok twoCalls_first
  obtain ⟨o', h0', h2⟩ := bind_ok h2
  obtain rfl : o = o' := Except.ok.inj (h0.symm.trans h0')
  obtain ⟨u1, h3, h⟩ := bind_ok h2
  obtain ⟨u2, h4, h5⟩ := bind_ok h
  refine ⟨o, List.replicate 128 1 ++ List.replicate 128 2 ++ List.replicate 44 4, List.replicate 84 4, r, u, h0, ?_, ?_, fun e => ?_⟩
  · rw [List.append_assoc _ (List.replicate 44 4), List.replicate_append_replicate]
    exact h1
  · have hl : (List.replicate 128 (1 : Byte) ++ List.replicate 128 2 ++ List.replicate 44 4).length = 300 := by simp only [List.length_append, List.length_replicate]
    rw [hl, List.length_replicate]
    exact (by rw [h3, ok_bind, h4, ok_bind, h5])
  · have a := of_decide_eq_true (Except.ok.inj k1)
    have b := of_decide_eq_true (Except.ok.inj k2)
    rw [e, a] at b
    exact absurd b (by decide)

/-- **C66**, refuted: two different messages with one digest. -/
theorem C66_collision_exists : ∃ (o : Obj 32) (m m' : List Byte) (r : Obj 32 × List Byte), tree2 = .ok o ∧ m ≠ m' ∧
    o.compute (core256 true) m (List.replicate 32 0) = .ok r ∧ o.compute (core256 true) m' (List.replicate 32 0) = .ok r := by
  obtain ⟨r, h1, _⟩ := bind_ok oneCall_first
  obtain ⟨o, h0, h1⟩ := bind_ok h1
  obtain ⟨_, e, f⟩ := tree_fresh.1
  obtain rfl := Except.ok.inj (h0.symm.trans e)
  have hf : o.fan = 2 ∧ o.min ≤ 128 := by
    obtain ⟨o', e', k⟩ := bind_ok (show (do let o ← tree2; return decide (o.fan = 2 ∧ o.min ≤ 128) : M Bool) = .ok true by decide +kernel)
    obtain rfl := Except.ok.inj (h0.symm.trans e')
    exact of_decide_eq_true (Except.ok.inj k)
  refine ⟨o, _, List.replicate 128 1 ++ List.replicate 128 3 ++ List.replicate 128 4, r, h0, by decide, h1, ?_⟩
  rw [← h1]
  exact C66_collision.1 true o f _ _ _ _ (by rw [hf.1, List.length_replicate]) (by rw [hf.1, List.length_replicate]) (by rw [hf.1, List.length_replicate])
    (by rw [List.length_replicate]; exact hf.2) (by rw [List.length_replicate]; decide) _

/-- A case of `C66_offset_ignored`: the tree digest written to an array of 100 bytes at offset 36. -/
example : ∃ o, Obj.newTree (core512 false) 4 512 = .ok o ∧ o.finalize (core512 false) (List.replicate 100 0) 36 = o.finalize (core512 false) (List.replicate 100 0) 0 := by
  obtain ⟨_, _, o, h, f⟩ := tree_fresh
  exact ⟨o, h, C66_offset_ignored false o f.fan _ _ (by rw [List.length_replicate]) (by rw [List.length_replicate]; decide)⟩

end Cex.Blake
