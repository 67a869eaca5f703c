import Verif.Keys.GenModel
import Verif.Keccak.ShakeProps

/-!
# C97 SymmetricKeyGenerator

What the generator hands out is cSHAKE of seeds of the entropy source, one seed for each part of a key.
-/

namespace Cex.Keys
open Cex Cex.Keccak Cex.Mac

variable {P : List Byte → M (List Byte)} {f : List Byte → List Byte}

/-- The strength a policy names, in bits. -/
def SecPolicy.bits : SecPolicy → Nat
  | .spl256 | .spl256ae => 256
  | .spl512 | .spl512ae => 512
  | .spl1024 | .spl1024ae => 1024

/-- The source answers, with as many bytes as asked for. -/
def Source.Good (v : Source) (seed : Nat → Nat → List Byte) : Prop := ∀ i n, v.draw i n = .ok (seed i n) ∧ (seed i n).length = n

/-- What one call hands out: cSHAKE of the seed with the names as customization. -/
def handed (f : List Byte → List Byte) (v : Source) (seed : Nat → Nat → List Byte) (pol : SecPolicy) (i len : Nat) : List Byte :=
  Sp800185.cshake f pol.mode.1 (seed i pol.mode.2.2) len [] (str "SymmetricKeyGenerator" ++ v.name ++ pol.mode.2.1)

theorem mode_rate (pol : SecPolicy) : ShakeRate pol.mode.1 := by cases pol <;> simp [SecPolicy.mode, ShakeRate]
theorem mode_name (pol : SecPolicy) : pol.mode.2.1.length = 8 := by cases pol <;> rfl
theorem mode_seed (pol : SecPolicy) : 32 ≤ pol.mode.2.2 := by cases pol <;> decide

/-- The state from which the output is made. -/
theorem started (p : Perm P f) (v : Source) (seed : Nat → Nat → List Byte) (hv : v.Good seed) (hn : v.name.length < 2 ^ 60) (pol : SecPolicy) (i : Nat) :
    ∃ s0 s, Shake.new pol.mode.1 = .ok s0 ∧ s0.initCust P (seed i pol.mode.2.2) (str "SymmetricKeyGenerator" ++ v.name ++ pol.mode.2.1) = .ok s ∧
      Shake.Run P pol.mode.1 s (some (seed i pol.mode.2.2, str "SymmetricKeyGenerator" ++ v.name ++ pol.mode.2.1, [], 0)) ∧ s.ctr = 0 := by
  obtain ⟨h20, hr, h8⟩ := (mode_rate pol).facts
  have hcl : 8 * (str "SymmetricKeyGenerator" ++ v.name ++ pol.mode.2.1).length < 2 ^ 64 := by
    rw [List.length_append, List.length_append, mode_name, show (str "SymmetricKeyGenerator").length = 21 from rfl]; omega
  have hc4 : 4 ≤ (str "SymmetricKeyGenerator" ++ v.name ++ pol.mode.2.1).length := by
    rw [List.length_append, List.length_append, show (str "SymmetricKeyGenerator").length = 21 from rfl]; omega
  have h32 := mode_seed pol
  obtain ⟨s0, e0, i0⟩ := Shake.new_inv (f := f) (r := pol.mode.1)
  obtain ⟨s, e, hrun⟩ := C44_initialize p (mode_rate pol) s0 none (.new e0) (seed i pol.mode.2.2) _ [] (by rw [(hv i _).2]; omega) (.inr hc4) hcl (by decide) (Shake.fits_short h20 hr (by decide) hcl)
  refine ⟨s0, s, e0, by rw [Shake.initCust_all]; exact e, hrun, ?_⟩
  have hs0 : s0.ctr = 0 ∧ s0.init = false := by
    rw [Shake.new, Shake.reset] at e0
    obtain ⟨x, _, e0⟩ := bind_ok e0
    cases e0
    exact ⟨rfl, rfl⟩
  rw [Shake.initAll] at e
  split at e
  · cases e
  split at e
  · cases e
  rw [if_neg (by rw [hs0.2]; decide)] at e
  change (do let s ← (if _ then s0.custom P _ [] else pure s0); _) = _ at e
  rw [if_pos (.inl (by omega))] at e
  obtain ⟨s1, g1, e⟩ := bind_ok e
  obtain ⟨st, _, e⟩ := bind_ok e
  cases e
  rw [Shake.custom] at g1
  obtain ⟨st1, _, g1⟩ := bind_ok g1
  cases g1
  exact hs0.1

/-- **C97.** A call writes cSHAKE of a new seed to the asked window and nothing else. -/
theorem C97_generate (p : Perm P f) (v : Source) (seed : Nat → Nat → List Byte) (hv : v.Good seed) (hn : v.name.length < 2 ^ 60) (pol : SecPolicy) (i : Nat) (pre junk post : List Byte)
    (hl : (pre ++ junk ++ post).length < 2 ^ 64) (h0 : junk ≠ []) (hc : junk.length / pol.mode.1 ≤ 1024000) :
    genAt P v pol i (pre ++ junk ++ post) pre.length junk.length = .ok (pre ++ handed f v seed pol i junk.length ++ post) := by
  obtain ⟨s0, s, e0, e1, hrun, hctr⟩ := started p v seed hv hn pol i
  obtain ⟨⟨s', e2, _⟩, _⟩ := C44_generate p (mode_rate pol) s _ _ [] 0 hrun pre junk post hl (by rw [hctr, Nat.zero_add]; exact hc)
  have hj : junk.length ≠ 0 := fun e => h0 (List.length_eq_zero_iff.mp e)
  rw [genAt, if_neg hj, if_neg (by simp only [List.length_append] at hl ⊢; rw [Nat.mod_eq_of_lt (by omega)]; omega), genWith, (hv i _).1, ok_bind, e0, ok_bind, e1, ok_bind, e2, ok_bind]
  rw [Nat.zero_mul, Nat.zero_add, List.drop_zero]
  rfl

theorem genWith_zeros (p : Perm P f) (v : Source) (seed : Nat → Nat → List Byte) (hv : v.Good seed) (hn : v.name.length < 2 ^ 60) (pol : SecPolicy) (i len : Nat)
    (h0 : len ≠ 0) (hl : len < 2 ^ 64) (hc : len / pol.mode.1 ≤ 1024000) : genWith P v pol i (List.replicate len 0) 0 len = .ok (handed f v seed pol i len) := by
  have := C97_generate p v seed hv hn pol i [] (List.replicate len 0) [] (by simpa using hl) (by intro e; exact h0 (by simpa using congrArg List.length e)) (by simpa using hc)
  simp only [List.nil_append, List.append_nil, List.length_replicate, List.length_nil] at this
  rw [genAt, if_neg h0, if_neg (by rw [List.length_replicate, Nat.zero_add, Nat.mod_eq_of_lt hl]; omega)] at this
  exact this

/-- **C97.** The same for `Generate(Length)`. -/
theorem C97_length (p : Perm P f) (v : Source) (seed : Nat → Nat → List Byte) (hv : v.Good seed) (hn : v.name.length < 2 ^ 60) (pol : SecPolicy) (i len : Nat)
    (h0 : len ≠ 0) (hl : len < 2 ^ 64) (hc : len / pol.mode.1 ≤ 1024000) : genLen P v pol i len = .ok (handed f v seed pol i len) := by
  rw [genLen, if_neg h0]; exact genWith_zeros p v seed hv hn pol i len h0 hl hc

theorem handed_length (p : Perm P f) (v : Source) (seed : Nat → Nat → List Byte) (pol : SecPolicy) (i len : Nat) : (handed f v seed pol i len).length = len := by
  obtain ⟨h20, hr, h8⟩ := (mode_rate pol).facts
  have := Shake.part_len p (by omega) (by omega) (r := pol.mode.1) (seed i pol.mode.2.2) (str "SymmetricKeyGenerator" ++ v.name ++ pol.mode.2.1) [] 0 len
  rw [Shake.part, Nat.zero_mul, Nat.zero_add, List.drop_zero] at this
  exact this

/-- **C97.** The key, the nonce and the info of a generated key have the asked sizes, and each is made from a seed of its own. -/
theorem C97_key (p : Perm P f) (v : Source) (seed : Nat → Nat → List Byte) (hv : v.Good seed) (hn : v.name.length < 2 ^ 60) (pol : SecPolicy) (i : Nat) (ks : KeySize)
    (hk : ks.key ≠ 0) (hi : ks.info ≠ 0 → ks.iv ≠ 0) (c1 : ks.key.toNat / pol.mode.1 ≤ 1024000) (c2 : ks.iv.toNat / pol.mode.1 ≤ 1024000) (c3 : ks.info.toNat / pol.mode.1 ≤ 1024000) :
    ∃ k, getKey P v pol i ks = .ok k ∧ k.key.length = ks.key.toNat ∧ k.iv.length = ks.iv.toNat ∧ k.info.length = ks.info.toNat ∧
      k.key = handed f v seed pol i ks.key.toNat ∧ (ks.iv ≠ 0 → k.iv = handed f v seed pol (i + 1) ks.iv.toNat) ∧ (ks.info ≠ 0 → k.info = handed f v seed pol (i + 2) ks.info.toNat) := by
  have nz : ∀ x : BitVec 32, x ≠ 0 → x.toNat ≠ 0 := fun x h e => h (BitVec.eq_of_toNat_eq e)
  have lt : ∀ x : BitVec 32, x.toNat < 2 ^ 64 := fun x => Nat.lt_trans x.isLt (by decide)
  have lk := handed_length p v seed pol i ks.key.toNat
  have ek := genWith_zeros p v seed hv hn pol i ks.key.toNat (nz _ hk) (lt _) c1
  have hk32 := ks.key.isLt
  have hv32 := ks.iv.isLt
  have hi32 := ks.info.isLt
  have hk0 := nz _ hk
  have zero : ∀ x : BitVec 32, x = 0 → x.toNat = 0 := fun x h => by rw [h]; rfl
  rw [getKey, if_neg hk]
  by_cases h1 : ks.iv = 0
  · have h2 : ks.info = 0 := Classical.byContradiction fun h => hi h h1
    rw [if_neg (fun h => h h1), ek, ok_bind, SymKey.new, if_pos (by rw [lk, List.length_nil]; omega)]
    exact ⟨_, rfl, lk, (zero _ h1).symm, (zero _ h2).symm, rfl, fun h => absurd h1 h, fun h => absurd h2 h⟩
  · have ln := handed_length p v seed pol (i + 1) ks.iv.toNat
    have en := genWith_zeros p v seed hv hn pol (i + 1) ks.iv.toNat (nz _ h1) (lt _) c2
    rw [if_pos h1]
    by_cases h2 : ks.info = 0
    · rw [if_neg (fun h => h h2), ek, ok_bind, en, ok_bind, SymKey.new, if_pos (by rw [lk, ln, List.length_nil, Nat.add_zero, Nat.mod_eq_of_lt (by omega)]; omega)]
      exact ⟨_, rfl, lk, ln, (zero _ h2).symm, rfl, fun _ => rfl, fun h => absurd h2 h⟩
    · have lf := handed_length p v seed pol (i + 2) ks.info.toNat
      have ef := genWith_zeros p v seed hv hn pol (i + 2) ks.info.toNat (nz _ h2) (lt _) c3
      rw [if_pos h2, ek, ok_bind, en, ok_bind, ef, ok_bind, SymKey.new, if_pos (by rw [lk, ln, lf, Nat.mod_eq_of_lt (by omega)]; omega)]
      exact ⟨_, rfl, lk, ln, lf, rfl, fun _ => rfl, fun _ => rfl⟩

/-- **C97.** A key of size zero and an empty request are refused. -/
theorem C97_zero (v : Source) (pol : SecPolicy) (i : Nat) (ks : KeySize) (h : ks.key = 0) (out : List Byte) (off : Nat) :
    getKey P v pol i ks = .error (.throws .invalidSize) ∧ genLen P v pol i 0 = .error (.throws .invalidSize) ∧ genAt P v pol i out off 0 = .error (.throws .invalidSize) := by
  refine ⟨by rw [getKey, if_pos h]; rfl, by rw [genLen, if_pos rfl]; rfl, by rw [genAt, if_pos rfl]; rfl⟩

/-- **C97**, refuted: with a size for the info but none for the nonce the key is made without the info. -/
theorem C97_info_dropped (p : Perm P f) (v : Source) (seed : Nat → Nat → List Byte) (hv : v.Good seed) (hn : v.name.length < 2 ^ 60) (pol : SecPolicy) (i : Nat) (ks : KeySize)
    (hk : ks.key ≠ 0) (h : ks.iv = 0) (c1 : ks.key.toNat / pol.mode.1 ≤ 1024000) : ∃ k, getKey P v pol i ks = .ok k ∧ k.info = [] := by
  obtain ⟨k, h1, _, _, h2, _⟩ := C97_key p v seed hv hn pol i { ks with info := 0 } hk (fun h => absurd rfl h) c1 (by rw [h]; exact Nat.le_trans (Nat.div_le_self 0 _) (by decide))
    (Nat.le_trans (Nat.div_le_self 0 _) (by decide))
  refine ⟨k, ?_, List.length_eq_zero_iff.mp h2⟩
  rw [← h1, getKey, getKey, if_neg hk, if_neg hk, if_neg (fun g => g h), if_neg (fun g => g h)]

/-- The seed has the strength that the policy names, for the policies up to 512 bits. -/
theorem C97_strength_partial (pol : SecPolicy) (h : pol.bits ≠ 1024) : pol.bits ≤ 8 * pol.mode.2.2 ∧ pol.bits ≤ 8 * (200 - pol.mode.1) / 2 := by
  cases pol <;> first | decide | exact absurd rfl h

/-- **C97**, refuted: the two policies of 1024 bits take a seed of 256 bits and SHAKE256, like the weakest policy. What they hand out is what that hands out. -/
theorem C97_strength_false (v : Source) (i : Nat) (out : List Byte) (off len : Nat) (ks : KeySize) : genAt P v .spl1024 i out off len = genAt P v .spl256 i out off len ∧
    genAt P v .spl1024ae i out off len = genAt P v .spl256 i out off len ∧ getKey P v .spl1024 i ks = getKey P v .spl256 i ks ∧ getKey P v .spl1024ae i ks = getKey P v .spl256 i ks ∧
    8 * SecPolicy.spl1024.mode.2.2 = 256 := ⟨rfl, rfl, rfl, rfl, rfl⟩

/-- **C97**, refuted: the sum of offset and length wraps in both size tests, and four bytes at the offset `2 ^ 64 - 4` are written outside of the vector. -/
theorem C97_offset_ub (p : Perm P f) (v : Source) (seed : Nat → Nat → List Byte) (hv : v.Good seed) (hn : v.name.length < 2 ^ 60) (pol : SecPolicy) (i : Nat) (out : List Byte)
    (h : 4 ≤ out.length) (hl : out.length < 2 ^ 64 - 4) : genAt P v pol i out (2 ^ 64 - 4) 4 = .error .ub := by
  obtain ⟨s0, s, e0, e1, hrun, hctr⟩ := started p v seed hv hn pol i
  obtain ⟨h20, hr, h8⟩ := (mode_rate pol).facts
  have inv := hrun.inv p hr h20 h8
  obtain ⟨hi, _⟩ := inv.keyed _ _ _ _ rfl
  have hrate := inv.rate
  have hmod : 4 % pol.mode.1 = 4 := Nat.mod_eq_of_lt (by omega)
  have hdiv : 4 / pol.mode.1 = 0 := Nat.div_eq_of_lt (by omega)
  have he : expand P pol.mode.1 s.st out (2 ^ 64 - 4) 4 = .error .ub := by
    rw [expand, hdiv, hmod, show squeeze P pol.mode.1 0 s.st out (2 ^ 64 - 4) = .ok (s.st, out) from rfl, ok_bind, if_neg (by decide)]
    show (do let st ← P s.st; _) = _
    rw [p.run _ inv.len, ok_bind, copy, if_neg (by decide), slice_ok (by rw [p.len _ inv.len]; decide), ok_bind, blit, if_neg (by show ¬ _ ≤ out.length; omega)]
    rfl
  have hg : s.generateAt P out (2 ^ 64 - 4) 4 = .error .ub := by
    rw [Shake.generateAt, if_neg (by rw [hi]; decide), if_neg (by rw [subU]; omega), if_neg (by rw [hctr, hrate, hdiv]; decide), hrate, he]
    rfl
  rw [genAt, if_neg (by decide), if_neg (by rw [show (2 ^ 64 - 4 + 4) % 2 ^ 64 = 0 from rfl]; omega), genWith, (hv i _).1, ok_bind, e0, ok_bind, e1, ok_bind, hg]
  rfl

/-- A source and a key of 32 bytes with a nonce of 16 under the policy of 512 bits. -/
example : ∃ k, getKey (permute 24) ⟨str "CSP", fun i n => .ok (List.replicate n (BitVec.ofNat 8 i))⟩ .spl512 0 (KeySize.new 32 16 0) = .ok k ∧ k.key.length = 32 ∧ k.iv.length = 16 := by
  obtain ⟨k, h1, h2, h3, _⟩ := C97_key perm24 ⟨str "CSP", fun i n => .ok (List.replicate n (BitVec.ofNat 8 i))⟩ (fun i n => List.replicate n (BitVec.ofNat 8 i)) (fun i n => ⟨rfl, List.length_replicate⟩)
    (by show 3 < _; decide) .spl512 0 (KeySize.new 32 16 0) (by decide) (fun h => absurd rfl h) (by decide) (by decide) (by decide)
  exact ⟨k, h1, h2, h3⟩

/-- Sizes for a key and an info but no nonce: the info is not made. -/
example : ∃ k, getKey (permute 24) ⟨str "CSP", fun i n => .ok (List.replicate n (BitVec.ofNat 8 i))⟩ .spl256 0 (KeySize.new 32 0 16) = .ok k ∧ k.info = [] :=
  C97_info_dropped perm24 _ (fun i n => List.replicate n (BitVec.ofNat 8 i)) (fun i n => ⟨rfl, List.length_replicate⟩) (by show 3 < _; decide) .spl256 0 (KeySize.new 32 0 16) (by decide) rfl (by decide)

end Cex.Keys
