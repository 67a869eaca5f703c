import Verif.Kyber.SampleEval4

/-!
# C60: a seed for which the matrix is wrong, and one for which it is right
-/

namespace Cex.Kyber
open Cex Cex.Lattice Cex.Spec.Lattice Cex.Spec.Kyber

theorem bad_stream : ((do
    let r ← Keccak.xof (Keccak.permute 24) (badSeed ++ [0, 0]) 0 34 (List.replicate 672 0) 0 672 168
    return decide ((accepted r)[254]? = some 2119 ∧ 256 ≤ (accepted r).length)) : M Bool) = .ok true := by
  decide +kernel

theorem shake_eval {x : List Byte} {n : Nat} (hx : x.length < 2 ^ 64) : Keccak.xof (Keccak.permute 24) x 0 x.length (List.replicate n 0) 0 n 168 = .ok (Fips202.shake (Fips202.keccakP 24) 168 x n) := by
  have h := Keccak.C38_xof Keccak.perm24 (r := 168) (by decide) (by decide) (by decide) ⟨x, 0, x.length, by omega, hx⟩ [] (List.replicate n 0) []
  have hb : (⟨x, 0, x.length, by omega, hx⟩ : Window).bytes = x := by
    show (x.drop 0).take x.length = x
    rw [List.drop_zero, List.take_length]
  rw [hb] at h
  simpa only [List.nil_append, List.append_nil, List.length_replicate, List.length_nil] using h

/-- **C60** (refutation): a matrix of the scalar build that is not the one of the specification. -/
theorem C60_matrix_refuted : ∃ (A : List (List (List Int))) (q : List Int) (cs : List Nat),
    genMatrix (Keccak.permute 24) 32 1 (List.replicate 2 (List.replicate 2 (List.replicate 256 0))) badSeed false 2 = .ok A ∧
      (A[0]?.bind (·[0]?)) = some q ∧ Parses (Fips202.keccakP 24) badSeed 0 0 cs ∧ q ≠ cs.map Int.ofNat := by
  have hbl : badSeed.length = 32 := by decide
  have hx : ∀ x y, (badSeed ++ [BitVec.ofNat 8 x, BitVec.ofNat 8 y]).length = 34 := fun x y => by rw [List.length_append, hbl]; rfl
  have hb : (List.replicate 506 (0 : Byte)).length = 506 := List.length_replicate
  have hr : (List.replicate 256 (0 : Int)).length = 256 := List.length_replicate
  have hU : ∀ x y, x < 2 → y < 2 → ∃ cs, uniform (Fips202.keccakP 24) 32 1 (badSeed ++ [BitVec.ofNat 8 x, BitVec.ofNat 8 y]) = .ok cs ∧ (x = 0 ∧ y = 0 → (cs.map Int.ofNat)[254]? = some 2391) := by
    intro x y h1 h2
    obtain ⟨r, e1, e2⟩ : ∃ r, genPoly (Keccak.permute 24) 32 1 (badSeed ++ [BitVec.ofNat 8 x, BitVec.ofNat 8 y]) (List.replicate 506 0) (List.replicate 256 0) = .ok r ∧
        (x = 0 ∧ y = 0 → r.1[254]? = some 2391) := by
      have hx : x = 0 ∨ x = 1 := by omega
      have hy : y = 0 ∨ y = 1 := by omega
      rcases hx with rfl | rfl <;> rcases hy with rfl | rfl
      · obtain ⟨r, e1, e2⟩ := bind_ok bad_poly00
        refine ⟨r, e1, fun _ => ?_⟩
        rw [pure_eq_ok] at e2
        simpa using e2
      · obtain ⟨r, e1, _⟩ := bind_ok bad_poly01
        exact ⟨r, e1, fun h => absurd h.2 (by decide)⟩
      · obtain ⟨r, e1, _⟩ := bind_ok bad_poly10
        exact ⟨r, e1, fun h => absurd h.1 (by decide)⟩
      · obtain ⟨r, e1, _⟩ := bind_ok bad_poly11
        exact ⟨r, e1, fun h => absurd h.1 (by decide)⟩
    obtain ⟨g1, g2⟩ := genPoly_spec Keccak.perm24 (rate := 32) (fuel := 1) (by decide) (hx x y) hb hr
    cases hc : uniform (Fips202.keccakP 24) 32 1 (badSeed ++ [BitVec.ofNat 8 x, BitVec.ofNat 8 y]) with
    | error e => rw [g1 e hc] at e1; cases e1
    | ok cs =>
      obtain ⟨_, buf', g3, _⟩ := g2 cs hc
      rw [g3] at e1
      cases e1
      exact ⟨cs, rfl, e2⟩
  choose! U hU1 hU2 using hU
  have hm := genMatrix_spec Keccak.perm24 (rate := 32) (fuel := 1) (K := 2) (seed := badSeed) (ρ := badSeed) (tr := false) (by decide) ⟨[], [], by simp, rfl⟩ hbl hU1
    (mat := List.replicate 2 (List.replicate 2 (List.replicate 256 0))) List.length_replicate
    (fun row hrow => by
      rw [List.mem_replicate] at hrow
      rw [hrow.2]
      exact ⟨List.length_replicate, fun q hq => by rw [List.mem_replicate] at hq; rw [hq.2]; exact hr⟩)
  obtain ⟨R, e1, e2⟩ := bind_ok bad_stream
  have hsh := shake_eval (x := badSeed ++ [0, 0]) (n := 672) (by decide)
  have hl0 : (badSeed ++ [0, 0]).length = 34 := by decide
  rw [hl0, e1] at hsh
  injection hsh with hsh
  rw [pure_eq_ok] at e2
  injection e2 with e2
  obtain ⟨e3, e4⟩ := of_decide_eq_true e2
  rw [hsh] at e3 e4
  refine ⟨_, (U 0 0).map Int.ofNat, (accepted (Fips202.shake (Fips202.keccakP 24) 168 (badSeed ++ [0, 0]) 672)).take 256, hm, rfl, ⟨224, by rw [List.length_take]; omega, rfl⟩, ?_⟩
  intro he
  have h1 := hU2 0 0 (by decide) (by decide) ⟨rfl, rfl⟩
  rw [he, List.getElem?_map, List.getElem?_take, if_pos (by decide), e3] at h1
  simp at h1

/-- A seed that meets the condition of `C60_matrix_partial` for `K = 2`. -/
theorem good_stream : ∀ x < 2, ∀ y < 2, ((do
    let r ← Keccak.xof (Keccak.permute 24) (List.replicate 32 1 ++ [BitVec.ofNat 8 x, BitVec.ofNat 8 y]) 0 34 (List.replicate 534 0) 0 534 168
    return decide (256 ≤ (accepted r).length)) : M Bool) = .ok true := by
  intro x h1 y h2
  have hx : x = 0 ∨ x = 1 := by omega
  have hy : y = 0 ∨ y = 1 := by omega
  rcases hx with rfl | rfl <;> rcases hy with rfl | rfl
  · exact good_stream00
  · exact good_stream01
  · exact good_stream10
  · exact good_stream11

example : ∀ x y, x < 2 → y < 2 → 256 ≤ (accepted (Fips202.shake (Fips202.keccakP 24) 168 (List.replicate 32 1 ++ [BitVec.ofNat 8 x, BitVec.ofNat 8 y]) 534)).length := by
  intro x y h1 h2
  obtain ⟨R, e1, e2⟩ := bind_ok (good_stream x h1 y h2)
  have hsh := shake_eval (x := List.replicate 32 1 ++ [BitVec.ofNat 8 x, BitVec.ofNat 8 y]) (n := 534) (by rw [List.length_append, List.length_replicate, List.length_cons, List.length_cons, List.length_nil]; decide)
  have hl0 : (List.replicate 32 (1 : Byte) ++ [BitVec.ofNat 8 x, BitVec.ofNat 8 y]).length = 34 := by rw [List.length_append, List.length_replicate]; rfl
  rw [hl0, e1] at hsh
  injection hsh with hsh
  rw [pure_eq_ok] at e2
  injection e2 with e2
  rw [← hsh]
  exact of_decide_eq_true e2

/-- Noise takes both signs. -/
example : cbd2 (List.replicate 256 0) ([0x03, 0x0C] ++ List.replicate 126 0) = .ok (2 :: 0 :: -2 :: List.replicate 253 0) := by decide +kernel

end Cex.Kyber
