import Verif.Drbg.BcgProps

/-! # C64: splitting requests, and cases that meet the hypotheses -/

namespace Cex.Drbg.Bcg
open Cex Cex.Mac Cex.Par Cex.IntTools Cex.Keccak Cex.SCipher Cex.SCipher.Spec Cex.Rijndael

/-- 00 01 … 1F. -/
def bcgKey : List Byte := (List.range 32).map (BitVec.ofNat 8)

/-- A processor with two cores and a parallel block of 4 KB. -/
def prof2 : Prof := ⟨⟨true, 4096, 2⟩, 4096⟩

theorem prof2_fair : Fair prof2 := fun _ => by decide

/-- First one task to its end, then the other. -/
def oneByOne (n : Nat) : List Nat := List.replicate n 1 ++ List.replicate n 0

theorem oneByOne_covers (n : Nat) : Covers 2 n (oneByOne n) := by
  refine ⟨?_, ?_⟩
  · intro i hi
    rw [oneByOne, List.mem_append, List.mem_replicate, List.mem_replicate] at hi
    omega
  · intro i hi
    rw [oneByOne, List.count_append, List.count_replicate, List.count_replicate]
    rcases (by omega : i = 0 ∨ i = 1) with rfl | rfl <;> simp

/-- **C64** (refuted): the output depends on how the requests are split. 32 bytes at once are not 16 bytes and then 16 bytes: the rest of a block is thrown away. -/
theorem C64_split_refuted : ∃ (s sa sb sc : Bcg) (a b c : List Byte), (Bcg.new false prof2).initKey (permute 24) bcgKey bcgKey [] = .ok s ∧
    s.generate (permute 24) 0 (fun _ => []) (List.replicate 32 0) 0 32 [] = .ok (sa, a) ∧
    s.generate (permute 24) 0 (fun _ => []) (List.replicate 16 0) 0 16 [] = .ok (sb, b) ∧
    sb.generate (permute 24) 0 (fun _ => []) (List.replicate 16 0) 0 16 [] = .ok (sc, c) ∧ a ≠ b ++ c := by
  have key : ((do
      let s ← (Bcg.new false prof2).initKey (permute 24) bcgKey bcgKey []
      let a ← s.generate (permute 24) 0 (fun _ => []) (List.replicate 32 0) 0 32 []
      let b ← s.generate (permute 24) 0 (fun _ => []) (List.replicate 16 0) 0 16 []
      let c ← b.1.generate (permute 24) 0 (fun _ => []) (List.replicate 16 0) 0 16 []
      return decide (a.2 ≠ b.2 ++ c.2)) : M Bool) = .ok true := by decide +kernel
  obtain ⟨s, e1, key⟩ := bind_ok key
  obtain ⟨a, e2, key⟩ := bind_ok key
  obtain ⟨b, e3, key⟩ := bind_ok key
  obtain ⟨c, e4, key⟩ := bind_ok key
  exact ⟨s, a.1, b.1, c.1, a.2, b.2, c.2, e1, e2, e3, e4, by simpa using Except.ok.inj key⟩

/-- A 1024-bit key under two tasks, AVX2 width: the hypotheses of `C64_generate` and `C64_parallel_refuted` are met. -/
example : ∃ s t s1 s2 x y, Run (permute 24) (Fips202.keccakP 24) 8 s t ∧ s.securityStrength = 1024 ∧
    s.generate (permute 24) 8 (fun _ => oneByOne (turns 32 8 (perTask prof2 * 32))) (List.replicate 4096 0) 0 4096 (List.replicate 32 0) = .ok (s1, x) ∧
    (s.setProfile { prof2 with isParallel := false }).generate (permute 24) 8 (fun _ => oneByOne (turns 32 8 (perTask prof2 * 32))) (List.replicate 4096 0) 0 4096 (List.replicate 32 0) = .ok (s2, y) ∧
    x ≠ y := by
  have hl : LegalKey (List.replicate 128 7) := Or.inr (Or.inr List.length_replicate)
  obtain ⟨s, e, i, hp, _, hf, hi, _⟩ := initKey_eq perm24 (Run.new (P := permute 24) (f := Fips202.keccakP 24) (W := 8) (prov := false) (prof := prof2) |>.inv perm24)
    (key := List.replicate 128 7) (iv := bcgKey) (info := [1, 2, 3]) hl (by decide) (by decide)
  have hr := C64_initialize (W := 8) perm24 (Bcg.new false prof2) .blank .new (List.replicate 128 7) bcgKey [1, 2, 3] hl (by decide) (by decide)
  obtain ⟨s', e', r, hi', hs, _⟩ := hr
  rw [e] at e'
  cases e'
  have hf : s.prof = prof2 := hf
  have hp : s.prov = false := hp
  have hg := C64_parallel_refuted (W := 8) perm24 s _ r hi (by rw [hf]; rfl) (by rw [hf]; exact prof2_fair) (by rw [hf]; decide)
    (fun _ => oneByOne (turns 32 8 (perTask prof2 * 32))) (fun _ => by rw [hf]; exact oneByOne_covers _) (List.replicate 32 0) List.length_replicate (by intro h; rw [hp] at h; cases h)
  rw [hf] at hg
  obtain ⟨s1, s2, x, y, h1, h2, h3⟩ := hg
  exact ⟨s, _, s1, s2, x, y, r, by rw [hs, List.length_replicate], h1, h2, h3⟩

/-- A generator with a provider and a 512-bit key: a request of 100 bytes at a threshold of 100 leaves 256 bits. -/
example : ∃ (s s' : Bcg) (o : List Byte), s.securityStrength = 512 ∧
    s.generate (permute 24) 0 (fun _ => oneByOne (turns 32 0 (perTask prof2 * 32))) (List.replicate 100 0) 0 100 (List.replicate 32 9) = .ok (s', o) ∧ s'.securityStrength = 256 := by
  obtain ⟨s0, e, r, hi, hs, _⟩ := C64_initialize (W := 0) perm24 (Bcg.new true prof2) .blank .new (List.replicate 64 7) bcgKey [] (Or.inr (Or.inl List.length_replicate)) (by decide) (by decide)
  obtain ⟨s1, e1, i, hp, _, hf, _, hm⟩ := initKey_eq perm24 (Run.new (P := permute 24) (f := Fips202.keccakP 24) (W := 0) (prov := true) (prof := prof2) |>.inv perm24)
    (key := List.replicate 64 7) (iv := bcgKey) (info := []) (Or.inr (Or.inl List.length_replicate)) (by decide) (by decide)
  rw [e] at e1
  cases e1
  have r1 := Run.threshold (n := 100) r (by decide)
  have hg := C64_strength_refuted (W := 0) perm24 (s0.setThreshold 100) _ r1 hi (by show Fair s0.prof; rw [hf]; exact prof2_fair)
    (fun _ => oneByOne (turns 32 0 (perTask prof2 * 32))) (fun _ => by show Covers s0.prof.degree (turns 32 0 (perTask s0.prof * 32)) _; rw [hf]; exact oneByOne_covers _)
    (List.replicate 100 0) (by rw [List.length_replicate]; decide) (List.replicate 32 9) List.length_replicate hp
    (by show 100 ≤ _; rw [List.length_replicate]; omega) (by show s0.reseed + 2 ≤ _; rw [hm]; decide)
  obtain ⟨s', o, h1, h2, _⟩ := hg
  rw [List.length_replicate] at h1
  exact ⟨_, s', o, by rw [show (s0.setThreshold 100).securityStrength = s0.securityStrength from rfl, hs, List.length_replicate], h1, h2⟩

end Cex.Drbg.Bcg
