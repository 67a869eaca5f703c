import Verif.Keccak.KmacProps

/-! # C30: reachable cases and reuse after `Finalize` -/

namespace Cex.Keccak
open Cex Cex.IntTools Stream Cex.Mac

variable {P : List Byte → M (List Byte)} {f : List Byte → List Byte} {r tag : Nat}

/-- Every admissible key, customization and message leads to a state as in the theorems. -/
theorem kmac_reach (p : Perm P f) (hm : Mode r tag) (key iv m : List Byte) (hk : 16 ≤ key.length)
    (hv : iv.length = 0 ∨ 4 ≤ iv.length) (hkl : key.length < 2 ^ 61) (hvl : iv.length < 2 ^ 61) (hml : m.length < 2 ^ 64) : ∃ s, Kmac.Run P r tag s (some (key, iv, [], m)) := by
  obtain ⟨h20, hr, h8, _⟩ := hm.facts
  obtain ⟨s, _, h1⟩ := C30_initialize p hm _ _ .new key iv hk hv hkl hvl
  have i := h1.inv p hr h20 h8
  obtain ⟨s2, h2, _⟩ := Kmac.update_inv p (by omega) (by omega) i (i.keyed _ rfl).1 (Window.whole m hml)
  have := Kmac.Run.update _ h1 h2
  rw [Window.whole_bytes] at this
  exact ⟨s2, this⟩

/-- The collision is reached with the real permutation, for a 69 byte message under any key. -/
example (key : List Byte) (hk : 16 ≤ key.length) (hl : key.length < 2 ^ 61) : ∃ s t s' t' d,
    Kmac.Run (permute 24) 72 64 s (some (key, [], [], List.replicate 69 0)) ∧ Kmac.Run (permute 24) 72 64 t (some (key, [], [], List.replicate 69 0 ++ [2, 0])) ∧
    s.finalize (permute 24) (List.replicate 64 0) 0 = .ok (s', d) ∧ t.finalize (permute 24) (List.replicate 64 0) 0 = .ok (t', d) := by
  obtain ⟨s, hs⟩ := kmac_reach perm24 (show Mode 72 64 by simp [Mode]) key [] (List.replicate 69 0) hk (Or.inl rfl) hl (by decide) (by decide)
  obtain ⟨t, ht⟩ := kmac_reach perm24 (show Mode 72 64 by simp [Mode]) key [] (List.replicate 69 0 ++ [2, 0]) hk (Or.inl rfl) hl (by decide) (by decide)
  obtain ⟨s', t', d, h1, h2⟩ := C30_collision perm24 s t key [] [] _ (by decide) hs ht (List.replicate 64 0) (by decide)
  exact ⟨s, t, s', t', d, hs, ht, h1, h2⟩

/-- Key `40 41 … 5F` of the NIST samples. -/
def sampleKey : List Byte := (List.range 32).map fun i => BitVec.ofNat 8 (0x40 + i)

/-- KMAC128 sample 1 of the NIST examples for SP 800-185, computed by the model of the code. -/
theorem kmac128_sample : ((do
    let s ← (Kmac.fresh 168 16).initialize (permute 24) sampleKey [] []
    let r ← s.compute (permute 24) [0, 1, 2, 3] (List.replicate 32 0)
    return r.2) : M (List Byte)) = .ok
      [0xE5, 0x78, 0x0B, 0x0D, 0x3E, 0xA6, 0xF7, 0xD3, 0xA4, 0x29, 0xC5, 0x70, 0x6A, 0xA4, 0x3A, 0x00, 0xFA, 0xDB, 0xD7, 0xD4, 0x96, 0x28, 0x83, 0x9E, 0x31, 0x87,
        0x24, 0x3F, 0x45, 0x6E, 0xE1, 0x4E] := by decide +kernel

/-- C30 is false for a second message without a new `Initialize`: `Finalize` leaves the object initialised but without its key state, and the same message
gets another tag. -/
theorem C30_reuse_false : ∃ s s1 s2 d1 d2,
    (Kmac.fresh 168 16).initialize (permute 24) sampleKey [] [] = .ok s ∧ s.compute (permute 24) [0, 1, 2, 3] (List.replicate 16 0) = .ok (s1, d1) ∧
    s1.init = true ∧ s1.compute (permute 24) [0, 1, 2, 3] (List.replicate 16 0) = .ok (s2, d2) ∧ d1 ≠ d2 := by
  obtain ⟨s, h1, r1⟩ := C30_initialize perm24 (show Mode 168 16 by simp [Mode]) _ _ .new sampleKey [] (by decide) (Or.inl rfl) (by decide) (by decide)
  have i1 := r1.inv perm24 (by decide) (by decide) (by decide)
  obtain ⟨s1, d1, h2, i2, hi2, _, _⟩ := Kmac.compute_inv perm24 (by decide) (by decide) i1 (i1.keyed _ rfl).1 [0, 1, 2, 3] (List.replicate 16 0) (by decide) (by decide) (by decide)
  obtain ⟨s2, d2, h3, _, _, _, _⟩ := Kmac.compute_inv perm24 (by decide) (by decide) i2 hi2 [0, 1, 2, 3] (List.replicate 16 0) (by decide) (by decide) (by decide)
  refine ⟨s, s1, s2, d1, d2, h1, h2, hi2, h3, ?_⟩
  have key : ((do
    let s ← (Kmac.fresh 168 16).initialize (permute 24) sampleKey [] []
    let a ← s.compute (permute 24) [0, 1, 2, 3] (List.replicate 16 0)
    let b ← a.1.compute (permute 24) [0, 1, 2, 3] (List.replicate 16 0)
    return decide (a.2 = b.2)) : M Bool) = .ok false := by decide +kernel
  rw [h1, ok_bind, h2, ok_bind, h3, ok_bind] at key
  intro e
  subst e
  simp at key

end Cex.Keccak
