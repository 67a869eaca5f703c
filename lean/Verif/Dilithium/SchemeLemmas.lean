import Verif.Keccak.SpongeProps
import Verif.Dilithium.SampleProps
import Verif.Dilithium.SchemeCorrect

/-!
# The parts of the Dilithium scheme: hashes, matrix, challenge, secrets
-/

namespace Cex.Dilithium
open Cex Cex.Lattice Cex.Spec.Dilithium Cex.Keccak Finset

variable {P : List Byte → M (List Byte)} {f : List Byte → List Byte}

/-- The parameter sets of the code and of the specification. -/
inductive Same : Params → Parameters → Prop
  | l2 : Same params2544 level2
  | l3 : Same params4016 level3
  | l5 : Same params4880 level5

/-- The constants of the code are those of the specification, and the sizes fit. -/
structure Facts (pr : Params) (s : Parameters) : Prop where
  std : Std s
  K : pr.K = s.K
  L : pr.L = s.L
  eta : pr.eta = s.eta
  tau : pr.tau = s.tau
  beta : pr.beta = s.beta
  gamma1 : pr.gamma1 = s.gamma1
  gamma2 : pr.gamma2 = s.gamma2
  omega : pr.omega = s.omega
  zSize : pr.zSize = 32 * zBits s.gamma1
  w1Size : pr.w1Size = 32 * w1Bits s.gamma2
  etaSize : pr.etaSize = 32 * etaBits s.eta
  blocks : 0 < pr.blocks
  pkSize : pr.pkSize = 32 + 320 * s.K
  skSize : pr.skSize = 112 + 32 * etaBits s.eta * s.L + 32 * etaBits s.eta * s.K + 416 * s.K
  sigSize : pr.sigSize = 32 + 32 * zBits s.gamma1 * s.L + (s.omega + s.K)
  pos : 32 + s.L * (32 * zBits s.gamma1) + s.omega ≤ 2420 ∨ 2420 < 32 + s.L * (32 * zBits s.gamma1)
  small : pr.pkSize < 2 ^ 64
  w1Fits : 32 * w1Bits s.gamma2 * s.K ≤ pr.sigSize

theorem Same.facts {pr : Params} {s : Parameters} (h : Same pr s) : Facts pr s := by
  cases h
  · exact ⟨.inl rfl, rfl, rfl, rfl, rfl, rfl, rfl, by decide, rfl, by decide, by decide, by decide, by decide, by decide, by decide, by decide, by decide, by decide, by decide⟩
  · exact ⟨.inr (.inl rfl), rfl, rfl, rfl, rfl, rfl, rfl, by decide, rfl, by decide, by decide, by decide, by decide, by decide, by decide, by decide, by decide, by decide, by decide⟩
  · exact ⟨.inr (.inr rfl), rfl, rfl, rfl, rfl, rfl, rfl, by decide, rfl, by decide, by decide, by decide, by decide, by decide, by decide, by decide, by decide, by decide, by decide⟩

theorem xof_spec (p : Perm P f) {x : List Byte} {n m : Nat} (hn : n = x.length) (hx : x.length < 2 ^ 64) : xof P x 0 n (List.replicate m 0) 0 m 136 = .ok (Fips202.shake f 136 x m) := by
  subst hn
  have h := C38_xof p (r := 136) (by decide) (by decide) (by decide) ⟨x, 0, x.length, by omega, hx⟩ [] (List.replicate m 0) []
  simpa [Window.bytes] using h

theorem hash2_spec (p : Perm P f) {x b y : List Byte} {off len n : Nat} (hx : x.length = 48) (hy : Holds b off y) (hlen : len = y.length) (hn : n ≤ 136) (junk post : List Byte) (hj : junk.length = n) :
    hash2 P x b off len (junk ++ post) n = .ok (Fips202.shake f 136 (x ++ y) n ++ post) := by
  subst hlen
  obtain ⟨st, pos, h1, h2⟩ := incremental_has p (r := 136) (by decide) (by decide) (by decide) (List.length_replicate) (inc_start (f := f) 136 (by decide)) (Holds.self x) (.inl rfl) 0x1F
  have hpos : pos = 48 := by rw [h2.pos, Stream.eager_rest_mod (by decide), List.nil_append, hx]
  subst hpos
  obtain ⟨pos', h3⟩ := incremental_final p (r := 136) (by decide) (by decide) (by decide) h2 hy (.inl rfl)
  have h4 := squeezePartial_after p (r := 136) (by decide) (by decide) (([] ++ x) ++ y) (len := n) (off := 0) hn [] junk post rfl hj
  rw [hx] at h1
  rw [hash2, h1, ok_bind]
  dsimp only
  rw [h3, ok_bind]
  dsimp only
  rw [List.nil_append, List.nil_append, List.nil_append] at h4
  rw [List.nil_append, h4, ok_bind]
  rfl

/-! ## The matrix -/

/-- A list of residues as the transform of a polynomial. -/
def entry (cs : List Nat) (k : Nat) : F := match cs[k]? with | some n => (n : F) | none => 0

theorem entry_rep {K L : Nat} {ρ : List Byte} {A : Nat → Nat → List Nat} (hA : ∀ i j, i < K → j < L → IsUniform f ρ (256 * i + j) (A i j)) {a : Nat → Nat → Nat → F}
    (ha : ∀ i j, i < K → j < L → ∀ (k n : Nat), (A i j)[k]? = some n → Spec.Dilithium.ntt (a i j) k = (n : F)) : MatRep K L (matTab K L A) a := by
  refine each_range fun i hi => each_range fun j hj => ?_
  obtain ⟨m, hl, he⟩ := hA i j hi hj
  refine ⟨by rw [List.length_map, hl], fun k v hv => ?_⟩
  rw [List.getElem?_map] at hv
  obtain ⟨n, hn, rfl⟩ := Option.map_eq_some_iff.mp hv
  have hlt : n < 8380417 := by
    have := List.mem_of_getElem? hn
    rw [he] at this
    exact residues_lt (List.mem_of_mem_take this)
  refine ⟨?_, ?_⟩
  · rw [abs_le]
    simp only [Int.ofNat_eq_natCast]
    omega
  · show ((Int.ofNat n : Int) : F) = Spec.Dilithium.ntt (a i j) k
    rw [ha i j hi hj k n hn]
    simp

theorem zeroMat_shape (K L : Nat) : MatShape K L (List.replicate K (zeroVec L)) := each_replicate fun _ _ => zeroVec_shape L

/-- `ExpandMat` gives the matrix or goes on. -/
theorem expand_or (p : Perm P f) (fuel : Nat) {K L : Nat} (hK : K ≤ 256) (hL : L ≤ 256) (ρ : List Byte) :
    (∃ mat a, expandMat P fuel (List.replicate K (zeroVec L)) ρ = .ok mat ∧ IsMatrix f K L ρ a ∧ MatRep K L mat a) ∨ expandMat P fuel (List.replicate K (zeroVec L)) ρ = .error .diverges := by
  rcases expandMat_spec p fuel hK hL (zeroMat_shape K L) ρ with ⟨A, h1, h2⟩ | h
  · left
    have ha : ∀ i j, i < K → j < L → ∀ (k n : Nat), (A i j)[k]? = some n → Spec.Dilithium.ntt (intt (entry (A i j))) k = (n : F) := by
      intro i j hi hj k n hn
      obtain ⟨_, hl, _⟩ := h2 i j hi hj
      have hk : k < 256 := by rw [← hl]; exact (List.getElem?_eq_some_iff.mp hn).1
      rw [ntt_intt _ hk, entry, hn]
    exact ⟨_, fun i j => intt (entry (A i j)), h1, fun i j hi hj => ⟨A i j, h2 i j hi hj, ha i j hi hj⟩, entry_rep h2 ha⟩
  · exact .inr h

theorem matrix_lists {K L : Nat} {ρ : List Byte} {a : Nat → Nat → Nat → F} (h : IsMatrix f K L ρ a) :
    ∃ A : Nat → Nat → List Nat, ∀ i j, i < K → j < L → IsUniform f ρ (256 * i + j) (A i j) ∧ ∀ (k n : Nat), (A i j)[k]? = some n → Spec.Dilithium.ntt (a i j) k = (n : F) := by
  classical
  refine ⟨fun i j => if hij : i < K ∧ j < L then (h i j hij.1 hij.2).choose else [], fun i j hi hj => ?_⟩
  have e : (if hij : i < K ∧ j < L then (h i j hij.1 hij.2).choose else []) = (h i j hi hj).choose := dif_pos ⟨hi, hj⟩
  show IsUniform f ρ (256 * i + j) (if hij : i < K ∧ j < L then (h i j hij.1 hij.2).choose else []) ∧ _
  simp only [e]
  exact (h i j hi hj).choose_spec

/-- With enough fuel it gives the matrix. -/
theorem expand_enough (p : Perm P f) {K L : Nat} (hK : K ≤ 256) (hL : L ≤ 256) {ρ : List Byte} {a : Nat → Nat → Nat → F} (h : IsMatrix f K L ρ a) :
    ∃ F, ∀ fuel, F ≤ fuel → ∃ mat, expandMat P fuel (List.replicate K (zeroVec L)) ρ = .ok mat ∧ MatRep K L mat a := by
  obtain ⟨A, hA⟩ := matrix_lists h
  obtain ⟨F, hF⟩ := expandMat_enough p hK hL ρ (fun i j hi hj => (hA i j hi hj).1)
  exact ⟨F, fun fuel hf => ⟨_, hF fuel hf _ (zeroMat_shape K L), entry_rep (fun i j hi hj => (hA i j hi hj).1) (fun i j hi hj => (hA i j hi hj).2)⟩⟩

/-! ## The challenge -/

/-- What `PolyChallenge` gives does not depend on the buffers. -/
theorem challenge_or (p : Perm P f) (fuel : Nat) {x : List Byte} (hl : x.length = 32) {tau : Nat} (ht : tau ≤ 256) :
    (∃ c, IsChallenge f tau x c ∧ ∀ (cp : List Int) (seed : List Byte), cp.length = 256 → Holds seed 0 x → polyChallenge P fuel cp seed tau = .ok (tab c)) ∨
    ∀ (cp : List Int) (seed : List Byte), cp.length = 256 → Holds seed 0 x → polyChallenge P fuel cp seed tau = .error .diverges := by
  have key : ∀ (cp : List Int) (seed : List Byte), cp.length = 256 → Holds seed 0 x →
      polyChallenge P fuel cp seed tau = ballLoop P fuel tau (256 - tau) (leVal (Fips202.shake f 136 x 8)) (tab fun _ => 0) (after f 136 x 1) ((after f 136 x 1).take 136) 8 := by
    intro cp seed hcp hs
    obtain ⟨st, buf, hsync, e⟩ := polyChallenge_start p fuel hcp hs hl tau
    rw [e, hsync.st, hsync.buf]
  rcases polyChallenge_spec p fuel (c := List.replicate 256 0) List.length_replicate (Holds.self x) hl ht with ⟨c, e, hc⟩ | e
  · exact .inl ⟨c, hc, fun cp seed hcp hs => by rw [key cp seed hcp hs, ← key _ _ List.length_replicate (Holds.self x), e]⟩
  · exact .inr fun cp seed hcp hs => by rw [key cp seed hcp hs, ← key _ _ List.length_replicate (Holds.self x), e]

/-! ## Masks -/

theorem withNonce_mod (ρ : List Byte) (n : Nat) : withNonce ρ (n % 65536) = withNonce ρ n := by
  unfold withNonce
  congr 2
  · apply BitVec.eq_of_toNat_eq
    simp only [BitVec.toNat_ofNat]
    omega
  · congr 1
    apply BitVec.eq_of_toNat_eq
    simp only [BitVec.toNat_ofNat]
    omega

theorem mask_mod (g : Nat) (ρ : List Byte) (L κ i : Nat) : mask f g ρ ((L * (κ % 65536) + i) % 65536) = mask f g ρ (L * κ + i) := by
  unfold mask
  have e : (L * (κ % 65536) + i) % 65536 = (L * κ + i) % 65536 := by
    rw [Nat.add_mod, Nat.mul_mod, Nat.mod_mod, ← Nat.mul_mod, ← Nat.add_mod]
  rw [e, withNonce_mod]

theorem maskVec_spec (p : Perm P f) {gamma1 : Nat} (hg : gamma1 = 2 ^ 17 ∨ gamma1 = 2 ^ 19) {L : Nat} {v : List (List Int)} (hv : Shape L v) (seed : List Byte) (κ : Nat) :
    polyVecUniformGamma1M1 P v seed (κ % 65536) gamma1 = .ok (tabs L fun i => mask f gamma1 seed (L * κ + i)) := by
  rw [(C69_mask p hg hv seed (κ % 65536)).1, show (fun i => mask f gamma1 seed ((L * (κ % 65536) + i) % 65536)) = fun i => mask f gamma1 seed (L * κ + i) from funext fun i => mask_mod _ _ _ _ _]

end Cex.Dilithium
