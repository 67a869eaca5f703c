import Verif.Dilithium.BallLemmas
import Verif.Dilithium.KeyLemmas

/-!
# C69: sampling in Dilithium

`f` is any function that the permutation `P` computes on 200 bytes; for Keccak this is C37. Loops that wait for accepted bytes end for some amount of fuel when the specification gives a result.
-/

namespace Cex.Dilithium
open Cex Cex.IntTools Cex.Lattice Cex.Spec.Lattice Cex.Spec.Dilithium Cex.Keccak

variable {P : List Byte → M (List Byte)} {f : List Byte → List Byte}

/-! ## The matrix -/

/-- **C69.** `ExpandMat` gives the matrix of the specification: entry `(i, j)` is the first 256 residues below `q` in `SHAKE128` of the seed and `256 i + j`, or the loop goes on. -/
theorem C69_matrix (p : Perm P f) (fuel : Nat) {K L : Nat} (hK : K ≤ 256) (hL : L ≤ 256) {mat : List (List (List Int))} (hm : MatShape K L mat) (rho : List Byte) :
    (∃ A, expandMat P fuel mat rho = .ok (matTab K L A) ∧ ∀ i j, i < K → j < L → IsUniform f rho (256 * i + j) (A i j)) ∨ expandMat P fuel mat rho = .error .diverges :=
  expandMat_spec p fuel hK hL hm rho

/-- **C69.** If the specification gives a matrix, `ExpandMat` finds it. -/
theorem C69_matrix_found (p : Perm P f) {K L : Nat} (hK : K ≤ 256) (hL : L ≤ 256) (rho : List Byte) {A : Nat → Nat → List Nat} (hA : ∀ i j, i < K → j < L → IsUniform f rho (256 * i + j) (A i j)) :
    ∃ F, ∀ fuel, F ≤ fuel → ∀ mat, MatShape K L mat → expandMat P fuel mat rho = .ok (matTab K L A) := expandMat_enough p hK hL rho hA

/-- **C69.** The matrix is determined by the seed, and its coefficients are below `q`. -/
theorem C69_matrix_unique (p : Perm P f) {rho : List Byte} {n : Nat} {cs ds : List Nat} (h : IsUniform f rho n cs) : (∀ v ∈ cs, v < 8380417) ∧ (IsUniform f rho n ds → cs = ds) := by
  refine ⟨fun v hv => ?_, fun h' => ?_⟩
  · obtain ⟨m, _, rfl⟩ := h
    exact residues_lt (List.mem_of_mem_take hv)
  · obtain ⟨m, hm⟩ := (found_uniform p).mp h
    obtain ⟨m', hm'⟩ := (found_uniform p).mp h'
    rw [← (hm (m + m') (by omega)).2, (hm' (m + m') (by omega)).2]

/-! ## The mask -/

theorem mask_range {gamma1 : Nat} (hg : gamma1 = 2 ^ 17 ∨ gamma1 = 2 ^ 19) (rho : List Byte) (n i : Nat) : -gamma1 < mask f gamma1 rho n i ∧ mask f gamma1 rho n i ≤ gamma1 := by
  have h := number_lt (zBits gamma1) (Fips202.shake f 136 (withNonce rho n) (32 * zBits gamma1)) i
  rw [mask, unpackBelow]
  rcases hg with rfl | rfl
  · rw [show zBits (2 ^ 17) = 18 from rfl] at h ⊢; omega
  · rw [show zBits (2 ^ 19) = 20 from rfl] at h ⊢; omega

/-- **C69.** The mask vector: entry `i` is `SHAKE256` of the seed and `L κ + i` (16 bits), read as an encoded polynomial; its coefficients lie in `(-γ₁, γ₁]`. -/
theorem C69_mask (p : Perm P f) {gamma1 : Nat} (hg : gamma1 = 2 ^ 17 ∨ gamma1 = 2 ^ 19) {L : Nat} {v : List (List Int)} (hv : Shape L v) (seed : List Byte) (nonce : Nat) :
    polyVecUniformGamma1M1 P v seed nonce gamma1 = .ok (tabs L fun i => mask f gamma1 seed ((L * nonce + i) % 65536)) ∧
    ∀ i k, -gamma1 < mask f gamma1 seed ((L * nonce + i) % 65536) k ∧ mask f gamma1 seed ((L * nonce + i) % 65536) k ≤ gamma1 := by
  refine ⟨?_, fun i k => mask_range hg _ _ _⟩
  obtain ⟨v', h1, h2⟩ := vecLoop_spec (K := L) (op := fun i p => polyUniformGamma1M1 P p seed ((L * nonce + i) % 65536) gamma1) (P := fun _ (p : List Int) => p.length = 256)
    (Q := fun i p => p = tab (mask f gamma1 seed ((L * nonce + i) % 65536))) (fun i q hi hq => ⟨_, polyUniformGamma1M1_spec p hg hq seed _, rfl⟩) hv
  rw [polyVecUniformGamma1M1, hv.1, h1, each_eq h2]
  rfl

/-! ## The challenge -/

/-- **C69.** `PolyChallenge` gives the polynomial of `SampleInBall`, or its loop goes on. -/
theorem C69_challenge (p : Perm P f) (fuel : Nat) {c : List Int} (hc : c.length = 256) {seed x : List Byte} (hx : Holds seed 0 x) (hl : x.length = 32) {tau : Nat} (ht : tau ≤ 256) :
    (∃ c', polyChallenge P fuel c seed tau = .ok (tab c') ∧ IsChallenge f tau x c') ∨ polyChallenge P fuel c seed tau = .error .diverges := polyChallenge_spec p fuel hc hx hl ht

/-- **C69.** If `SampleInBall` gives a polynomial, `PolyChallenge` finds it. -/
theorem C69_challenge_found (p : Perm P f) {x : List Byte} (hl : x.length = 32) {tau : Nat} (ht : tau ≤ 256) {c' : Nat → Int} (h : IsChallenge f tau x c') :
    ∃ F, ∀ fuel, F ≤ fuel → ∀ c : List Int, c.length = 256 → ∀ seed, Holds seed 0 x → polyChallenge P fuel c seed tau = .ok (tab c') := polyChallenge_enough p hl ht h

/-- **C69.** The challenge is determined by the seed; it has `τ` coefficients `1` or `-1` and the others are `0`. -/
theorem C69_challenge_weight {tau : Nat} (ht : tau ≤ 256) {x : List Byte} {c : Nat → Int} (h : IsChallenge f tau x c) :
    (∀ k, -1 ≤ c k ∧ c k ≤ 1) ∧ count c 256 = tau ∧ ∀ d, IsChallenge f tau x d → d = c :=
  ⟨isChallenge_range h, isChallenge_count ht h, fun _ hd => isChallenge_unique hd h⟩

/-! ## The secret -/

/-- **C69.** `PolyUniformEta` gives the polynomial of the specification when the first blocks have 256 accepted values. Missing: when they have not, the code gives another polynomial (`C69_secret_refuted`). -/
theorem C69_secret_partial (p : Perm P f) {eta : Nat} (he : eta = 2 ∨ eta = 4) (fuel : Nat) {a : List Int} (ha : a.length = 256) (seed : List Byte) (n blocks : Nat)
    (h : 256 ≤ (smalls eta (Fips202.shake f 168 (withNonce seed n) (168 * blocks))).length) :
    ∃ cs, polyUniformEta P fuel a seed n eta blocks = .ok cs ∧ IsSmall f eta seed n cs := by
  refine ⟨_, polyUniformEta_enough p he fuel ha seed n blocks h, 168 * blocks, ?_, rfl⟩
  rw [List.length_take]
  exact Nat.min_eq_left h

/-- **C69.** In all cases the coefficients of the secret lie in `[-η, η]`. -/
theorem C69_secret_range (p : Perm P f) {eta : Nat} (he : eta = 2 ∨ eta = 4) (fuel : Nat) {a : List Int} (ha : Small eta a) (seed : List Byte) (n : Nat) {blocks : Nat} (hb : 0 < blocks) :
    (∃ a', polyUniformEta P fuel a seed n eta blocks = .ok a' ∧ Small eta a') ∨ polyUniformEta P fuel a seed n eta blocks = .error .diverges := by
  rcases polyUniformEta_spec p he fuel ha seed n hb with ⟨a', h1, h2, _⟩ | h
  · exact .inl ⟨a', h1, h2⟩
  · exact .inr h

/-- **C69.** When the first blocks have some accepted values but not 256, the last coefficient is never written: it keeps what the polynomial held before. -/
theorem C69_secret_stale (p : Perm P f) {eta : Nat} (he : eta = 2 ∨ eta = 4) (fuel : Nat) {a : List Int} (ha : Small eta a) (seed : List Byte) (n : Nat) {blocks : Nat} (hb : 0 < blocks)
    (h0 : 0 < (smalls eta (Fips202.shake f 168 (withNonce seed n) (168 * blocks))).length) (h : (smalls eta (Fips202.shake f 168 (withNonce seed n) (168 * blocks))).length < 256) {a' : List Int}
    (hok : polyUniformEta P fuel a seed n eta blocks = .ok a') : a'[255]? = a[255]? := by
  rcases polyUniformEta_spec p he fuel ha seed n hb with ⟨a'', h1, _, h3⟩ | h1
  · rw [hok] at h1
    cases h1
    exact h3 h0 h
  · rw [hok] at h1
    cases h1

/-- A function on states for which one byte in two halves is accepted. -/
def half (_ : List Byte) : List Byte := List.replicate 200 0xF0

theorem half_perm : Perm (fun s => .ok (half s)) half := ⟨fun _ _ => rfl, fun _ _ => List.length_replicate⟩

def halfRun : M Bool := do
  let a ← polyUniformEta (fun s => .ok (half s)) 5 (List.replicate 256 0) (List.replicate 32 0) 0 2 1
  return a.length = 256

theorem halfRun_ok : halfRun = .ok true := by decide +kernel

/-- **C69, refuted.** There are inputs for which `PolyUniformEta` ends with a polynomial that is not that of the specification: `RejEta` ignores its offset (DLTMPolyMath.cpp:1715, 1722, 1730, 1736). -/
theorem C69_secret_refuted : ¬ ∀ (P : List Byte → M (List Byte)) (f : List Byte → List Byte), Perm P f → ∀ (fuel : Nat) (seed : List Byte) (n : Nat) (a' cs : List Int),
    polyUniformEta P fuel (List.replicate 256 0) seed n 2 1 = .ok a' → IsSmall f 2 seed n cs → a' = cs := by
  intro hall
  have hr := halfRun_ok
  rw [halfRun] at hr
  obtain ⟨a', h1, _⟩ := bind_ok hr
  have hs : IsSmall half 2 (List.replicate 32 0) 0 (List.replicate 256 2) := ⟨336, by decide +kernel, by decide +kernel⟩
  have he := hall _ half half_perm 5 _ _ _ _ h1 hs
  have hst := C69_secret_stale half_perm (.inl rfl) 5 (a := List.replicate 256 0) ⟨List.length_replicate, fun v hv => by rw [List.eq_of_mem_replicate hv]; decide⟩ (List.replicate 32 0) 0 (by decide)
    (by decide +kernel) (by decide +kernel) h1
  rw [he] at hst
  exact absurd hst (by decide +kernel)

/-! ## The hypotheses can be met -/

/-- A function on states that depends on the state. -/
def spread (s : List Byte) : List Byte := (List.range 200).map fun i => BitVec.ofNat 8 (37 * i + 11 + (s.foldl (fun n b => n + b.toNat) 0))

theorem spread_perm : Perm (fun s => .ok (spread s)) spread := ⟨fun _ _ => rfl, fun _ _ => by rw [spread, List.length_map, List.length_range]⟩

def challengeRun : M Bool := do
  let c ← polyChallenge (fun s => .ok (spread s)) 600 (List.replicate 256 7) (List.replicate 32 1) 39
  return (c.filter (· ≠ 0)).length = 39

theorem challengeRun_ok : challengeRun = .ok true := by decide +kernel

/-- A challenge of the specification with 39 coefficients. -/
example : ∃ c, IsChallenge spread 39 (List.replicate 32 1) c ∧ count c 256 = 39 := by
  have h := challengeRun_ok
  rw [challengeRun] at h
  obtain ⟨c, h1, _⟩ := bind_ok h
  rcases C69_challenge spread_perm 600 (c := List.replicate 256 7) List.length_replicate (Holds.self (List.replicate 32 1)) List.length_replicate (tau := 39) (by decide) with ⟨c', _, h2⟩ | h2
  · exact ⟨c', h2, (C69_challenge_weight (by decide) h2).2.1⟩
  · rw [h1] at h2
    cases h2

/-- The seed `1 … 1` gives a polynomial of the matrix and a secret at once. -/
example : (found spread (withNonce (List.replicate 32 1) 257) 5).length ≥ 256 ∧ (smalls 2 (Fips202.shake spread 168 (withNonce (List.replicate 32 1) 3) 168)).length ≥ 256 ∧
    (smalls 4 (Fips202.shake spread 168 (withNonce (List.replicate 32 1) 3) (168 * 2))).length ≥ 256 := by decide +kernel

end Cex.Dilithium
