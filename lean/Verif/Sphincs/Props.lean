import Verif.Sphincs.CoreLemmas

/-!
# C77, C78: SPHINCS+

`H := shakeHash f rate` is the hash of the parameter set, over any permutation the engine's Keccak function computes (`Perm P f`; `perm24` is the one of the library).
`ulong` is the number of bits of `unsigned long`: 64 on Linux and macOS, 32 on Windows.
-/

namespace Cex.Sphincs
open Cex Cex.IntTools Cex.Keccak Cex.Spec.Sphincs

variable {P : List Byte → M (List Byte)} {f : List Byte → List Byte} {pr : Params} {s : Parameters}

/-- **C77**: `Generate` delivers the public key of the specification, and the private key holds the seeds and the root. -/
theorem C77_generate (p : Perm P f) (hp : Same pr s) {sks skp pks pk sk : List Byte} (h1 : sks.length = s.n) (h2 : skp.length = s.n) (h3 : pks.length = s.n) (hpk : pk.length = 2 * s.n) (hsk : sk.length = 4 * s.n) :
    generate P pr (sks ++ skp ++ pks) pk sk
      = .ok (publicKey (shakeHash f pr.rate) s sks pks, sks ++ skp ++ pks ++ treeRoot (shakeHash f pr.rate) s sks pks (s.d - 1) 0) :=
  generate_ok p hp.facts h1 h2 h3 hpk hsk

example : ∃ pk sk, generate (permute 24) s1p128 (List.replicate 48 7) (List.replicate 32 0) (List.replicate 64 0) = .ok (pk, sk) ∧ sk.take 48 = List.replicate 48 7 :=
  ⟨_, _, C77_generate (sks := List.replicate 16 7) (skp := List.replicate 16 7) (pks := List.replicate 16 7) perm24 .p128 rfl rfl rfl rfl rfl, by rw [List.take_append_of_le_length (by decide)]; decide⟩

theorem resize_split {old : List Byte} {a b : Nat} : ∃ x y, resize old (a + b) = x ++ y ∧ x.length = b ∧ y.length = a :=
  ⟨(resize old (a + b)).take b, (resize old (a + b)).drop b, (List.take_append_drop _ _).symm,
    by rw [List.length_take, resize, List.length_append, List.length_take, List.length_replicate]; omega,
    by rw [List.length_drop, resize, List.length_append, List.length_take, List.length_replicate]; omega⟩

/-- What `Sign` delivers, on every platform. -/
theorem sign_char (p : Perm P f) (F : Facts pr s) {ulong : Nat} {sks skp pks root optrand msg old : List Byte} (h1 : sks.length = s.n) (h2 : skp.length = s.n) (h3 : pks.length = s.n) (h4 : root.length = s.n) (h5 : optrand.length = s.n)
    (hlen : msg.length < 2 ^ 32) :
    sign P pr ulong old msg (sks ++ skp ++ pks ++ root) optrand
      = .ok (signBody (shakeHash f pr.rate) s ulong sks skp pks root optrand ((resize old (msg.length + sigBytes s)).take (sigBytes s)) msg ++ msg) := by
  obtain ⟨x, y, hxy, hx, hy⟩ := resize_split (old := old) (a := msg.length) (b := sigBytes s)
  have hmod : msg.length % 2 ^ 32 = msg.length := Nat.mod_eq_of_lt hlen
  have hc := copyMessage_ok (msg := msg) (pre := x) (junk := y) (post := []) (len := msg.length) (b := pr.bytes) (by rw [F.bytes, hx]) (Nat.le_refl _) hy
  rw [List.append_nil, List.append_nil, List.take_length] at hc
  rw [hxy, List.take_left' hx]
  refine sign_moved p F h1 h2 h3 h4 h5 hx rfl (by omega) ?_
  rw [hmod, F.size, hxy]
  exact hc

/-- **C77**: `Sign` delivers the signature of the specification followed by the message, whatever the caller's vector held: where the
leaf index is masked as intended. That is on platforms with 32-bit `unsigned long`, and for the two larger parameter sets. -/
theorem C77_sign_partial (p : Perm P f) (hp : Same pr s) {ulong : Nat} (hu : Masked ulong s) {sks skp pks root optrand msg old : List Byte} (h1 : sks.length = s.n) (h2 : skp.length = s.n) (h3 : pks.length = s.n) (h4 : root.length = s.n)
    (h5 : optrand.length = s.n) (hlen : msg.length < 2 ^ 32) :
    sign P pr ulong old msg (sks ++ skp ++ pks ++ root) optrand = .ok (Spec.Sphincs.sign (shakeHash f pr.rate) s sks skp pks root optrand msg ++ msg) := by
  rw [sign_char p hp.facts h1 h2 h3 h4 h5 hlen, signBody_ok hp.facts hu]

/-- **C78**: `Verify` accepts exactly the valid signatures, and then delivers the message; otherwise it delivers zeros. -/
theorem C78_verify_partial (p : Perm P f) (hp : Same pr s) {ulong : Nat} (hu : Masked ulong s) {old pks root sg m : List Byte} (h1 : pks.length = s.n) (h2 : root.length = s.n) (hsg : sg.length = sigBytes s) (hm : m.length < 2 ^ 63) :
    (Valid (shakeHash f pr.rate) s pks root m sg → verify P pr ulong old (sg ++ m) (pks ++ root) = .ok (true, m))
      ∧ (¬ Valid (shakeHash f pr.rate) s pks root m sg → verify P pr ulong old (sg ++ m) (pks ++ root) = .ok (false, List.replicate m.length 0)) := by
  have hc : codeRoot (shakeHash f pr.rate) s ulong pks root sg m = root ↔ Valid (shakeHash f pr.rate) s pks root m sg := by
    rw [codeRoot, hu.leaf hp.facts, Valid]
    exact ⟨fun h => ⟨hsg, h⟩, fun h => h.2⟩
  rw [verify_char p hp.facts h1 h2 hsg hm]
  exact ⟨fun h => by rw [if_pos (hc.mpr h)], fun h => by rw [if_neg (fun e => h (hc.mp e))]⟩

/-- **C77**: keys that `Generate` delivers, a message that `Sign` signs with them, and `Verify` accepts it and returns the message. -/
theorem C77_roundtrip_partial (p : Perm P f) (hp : Same pr s) {ulong : Nat} (hu : Masked ulong s) {stmp pk0 sk0 optrand msg old old' : List Byte} (h1 : stmp.length = 3 * s.n) (hpk : pk0.length = 2 * s.n) (hsk : sk0.length = 4 * s.n) (h5 : optrand.length = s.n)
    (hlen : msg.length < 2 ^ 32) :
    (do let (pk, sk) ← generate P pr stmp pk0 sk0
        let sm ← sign P pr ulong old msg sk optrand
        verify P pr ulong old' sm pk) = .ok (true, msg) := by
  obtain ⟨a, b, c, rfl, ha, hb, hc⟩ : ∃ a b c, stmp = a ++ b ++ c ∧ a.length = s.n ∧ b.length = s.n ∧ c.length = s.n :=
    ⟨stmp.take s.n, (stmp.drop s.n).take s.n, (stmp.drop s.n).drop s.n, by rw [List.append_assoc, List.take_append_drop, List.take_append_drop], by rw [List.length_take]; omega, by rw [List.length_take, List.length_drop]; omega,
      by rw [List.length_drop, List.length_drop]; omega⟩
  have hH := good p hp.facts
  have hr : (treeRoot (shakeHash f pr.rate) s a c (s.d - 1) 0).length = s.n := treeRoot_len hH _ _ _ _
  rw [C77_generate p hp ha hb hc hpk hsk, ok_bind]
  dsimp only
  rw [C77_sign_partial p hp hu ha hb hc hr h5 hlen, ok_bind, publicKey]
  exact (C78_verify_partial p hp hu hc hr (sign_len hH _ _ _ _ _ _) (by omega)).1 (sign_valid hH (by have := hp.facts.d2; omega) _ _ _ _ _)

/-- 64-bit `unsigned long` and the larger parameter sets; 32-bit `unsigned long` and all of them. -/
example {old : List Byte} : (do let (pk, sk) ← generate (permute 24) s5p256 (List.replicate 96 1) (List.replicate 64 0) (List.replicate 128 0)
                                let sm ← sign (permute 24) s5p256 64 old [1, 2, 3] sk (List.replicate 32 9)
                                verify (permute 24) s5p256 64 [] sm pk) = .ok (true, [1, 2, 3]) :=
  C77_roundtrip_partial perm24 .p256 (.inr ⟨rfl, by decide⟩) rfl rfl rfl rfl (by decide)
example {old : List Byte} : (do let (pk, sk) ← generate (permute 24) s1p128 (List.replicate 48 1) (List.replicate 32 0) (List.replicate 64 0)
                                let sm ← sign (permute 24) s1p128 32 old [1, 2, 3] sk (List.replicate 16 9)
                                verify (permute 24) s1p128 32 [] sm pk) = .ok (true, [1, 2, 3]) :=
  C77_roundtrip_partial perm24 .p128 (.inl rfl) rfl rfl rfl rfl (by decide)

/-! ## The mask of the leaf index -/

/-- Where the leaf index of the code is beyond the tree, a part of the signature is what the caller's vector held: two vectors that differ give two signatures. -/
theorem C77_stale (p : Perm P f) (hp : Same pr s) {ulong : Nat} {sks skp pks root optrand msg : List Byte} (h1 : sks.length = s.n) (h2 : skp.length = s.n) (h3 : pks.length = s.n) (h4 : root.length = s.n) (h5 : optrand.length = s.n) (hlen : msg.length < 2 ^ 32)
    (hwild : 2 ^ s.h ≤ codeLeaf ulong s (digest (shakeHash f pr.rate) s ((shakeHash f pr.rate).xof (skp ++ optrand ++ msg) s.n) (pks ++ root) msg)) {x y : Byte} (hxy : x ≠ y) :
    sign P pr ulong (List.replicate (sigBytes s) x) msg (sks ++ skp ++ pks ++ root) optrand ≠ sign P pr ulong (List.replicate (sigBytes s) y) msg (sks ++ skp ++ pks ++ root) optrand := by
  have F := hp.facts
  have hH := good p F
  intro he
  rw [sign_char p F h1 h2 h3 h4 h5 hlen, sign_char p F h1 h2 h3 h4 h5 hlen] at he
  have he := List.append_cancel_right (Except.ok.inj he)
  have hf : ∀ b : Byte, (resize (List.replicate (sigBytes s) b) (msg.length + sigBytes s)).take (sigBytes s) = List.replicate (sigBytes s) b := fun b => by
    rw [resize, List.take_of_length_le (l := List.replicate _ _) (by rw [List.length_replicate]; omega), List.take_left' (List.length_replicate ..)]
  rw [hf, hf, signBody, signBody] at he
  simp only [if_neg (Nat.not_lt.mpr hwild)] at he
  generalize digest (shakeHash f pr.rate) s ((shakeHash f pr.rate).xof (skp ++ optrand ++ msg) s.n) (pks ++ root) msg = dg at he
  have he := List.append_cancel_left he
  rw [List.append_assoc, List.append_assoc] at he
  have he := List.append_cancel_left he
  have hsb : sigBytes s = s.n + forsBytes s + s.d * layerBytes s := rfl
  have hlb : layerBytes s = wlen s * s.n + s.h * s.n := rfl
  have h6 := F.room4.1
  have hpos : 0 < s.h * s.n := Nat.mul_pos F.h0 F.n0
  have hq : ∀ b : Byte, ((List.replicate (sigBytes s) b).drop (s.n + forsBytes s + wlen s * s.n)).take (s.h * s.n) = List.replicate (s.h * s.n) b := fun b => by
    rw [List.drop_replicate, List.take_replicate, Nat.min_eq_left (by omega)]
  rw [hq, hq] at he
  obtain ⟨k, hk⟩ : ∃ k, s.h * s.n = k + 1 := ⟨s.h * s.n - 1, by omega⟩
  rw [hk, List.replicate_succ, List.replicate_succ, List.cons_append, List.cons_append] at he
  exact hxy (List.cons.inj he).1

/-- One hash of the specification, through the model. -/
theorem shake_value {w v : List Byte} (hw : w.length < 2 ^ 64) (h : xof (permute 24) w 0 w.length (List.replicate v.length 0) 0 v.length 136 = .ok v) : Fips202.shake (Fips202.keccakP 24) 136 w v.length = v := by
  have := xof_at perm24 (r := 136) (by decide) (by decide) (by decide) (Holds.self w) rfl hw (pre := []) (junk := List.replicate v.length 0) (post := []) (oo := 0) (n := v.length) rfl (by rw [List.length_replicate])
  rw [List.nil_append, List.append_nil, List.nil_append, List.append_nil, h] at this
  exact (Except.ok.inj this).symm

/-- The randomizer and the digest of the message `[1]` for a private key whose bytes after the secret seed are zero. -/
def wildR128 : List Byte := [211, 89, 62, 111, 196, 14, 8, 252, 76, 166, 207, 107, 82, 160, 158, 87]
def wildD128 : List Byte := [217, 161, 69, 131, 221, 144, 160, 125, 30, 222, 28, 13, 163, 40, 130, 192, 65, 157, 241, 49, 218, 55, 1, 213, 48, 125, 213, 185, 193, 103]
def wildR192 : List Byte := [104, 46, 27, 172, 168, 135, 148, 53, 143, 190, 176, 209, 222, 108, 251, 247, 78, 47, 54, 240, 102, 134, 76, 84]
def wildD192 : List Byte := [139, 102, 247, 242, 118, 96, 14, 47, 187, 58, 51, 194, 173, 124, 36, 7, 163, 11, 196, 16, 213, 198, 129, 228, 248, 174, 88, 70, 240, 139, 159, 172, 80, 249, 225, 78, 177, 27, 228]

theorem wild128 : 2 ^ s128.h ≤ codeLeaf 64 s128 (digest (shakeHash (Fips202.keccakP 24) 136) s128 ((shakeHash (Fips202.keccakP 24) 136).xof (List.replicate 16 0 ++ List.replicate 16 0 ++ [1]) s128.n) (List.replicate 16 0 ++ List.replicate 16 0) [1]) := by
  have h1 : (shakeHash (Fips202.keccakP 24) 136).xof (List.replicate 16 0 ++ List.replicate 16 0 ++ [1]) s128.n = wildR128 := shake_value (v := wildR128) (by decide) (by decide +kernel)
  have h2 : digest (shakeHash (Fips202.keccakP 24) 136) s128 wildR128 (List.replicate 16 0 ++ List.replicate 16 0) [1] = wildD128 :=
    shake_value (w := wildR128 ++ (List.replicate 16 0 ++ List.replicate 16 0) ++ [1]) (v := wildD128) (by decide) (by decide +kernel)
  rw [h1, h2]
  decide +kernel

theorem wild192 : 2 ^ s192.h ≤ codeLeaf 64 s192 (digest (shakeHash (Fips202.keccakP 24) 136) s192 ((shakeHash (Fips202.keccakP 24) 136).xof (List.replicate 24 0 ++ List.replicate 24 0 ++ [1]) s192.n) (List.replicate 24 0 ++ List.replicate 24 0) [1]) := by
  have h1 : (shakeHash (Fips202.keccakP 24) 136).xof (List.replicate 24 0 ++ List.replicate 24 0 ++ [1]) s192.n = wildR192 := shake_value (v := wildR192) (by decide) (by decide +kernel)
  have h2 : digest (shakeHash (Fips202.keccakP 24) 136) s192 wildR192 (List.replicate 24 0 ++ List.replicate 24 0) [1] = wildD192 :=
    shake_value (w := wildR192 ++ (List.replicate 24 0 ++ List.replicate 24 0) ++ [1]) (v := wildD192) (by decide) (by decide +kernel)
  rw [h1, h2]
  decide +kernel

/-- **C77 refuted** for `S1P128` with 64-bit `unsigned long`: with the same key, the same message and the same random bytes, `Sign` into a vector of zeros and `Sign` into a vector of
ones deliver different signatures, whatever the secret seed is. -/
theorem C77_refuted_128 {sks : List Byte} (h : sks.length = 16) :
    sign (permute 24) s1p128 64 (List.replicate (sigBytes s128) 0) [1] (sks ++ List.replicate 16 0 ++ List.replicate 16 0 ++ List.replicate 16 0) (List.replicate 16 0)
      ≠ sign (permute 24) s1p128 64 (List.replicate (sigBytes s128) 1) [1] (sks ++ List.replicate 16 0 ++ List.replicate 16 0 ++ List.replicate 16 0) (List.replicate 16 0) :=
  C77_stale perm24 .p128 (s := s128) h (List.length_replicate ..) (List.length_replicate ..) (List.length_replicate ..) (List.length_replicate ..) (by decide) wild128 (by decide)

/-- **C77 refuted** for `S3P192` likewise. -/
theorem C77_refuted_192 {sks : List Byte} (h : sks.length = 24) :
    sign (permute 24) s3p192 64 (List.replicate (sigBytes s192) 0) [1] (sks ++ List.replicate 24 0 ++ List.replicate 24 0 ++ List.replicate 24 0) (List.replicate 24 0)
      ≠ sign (permute 24) s3p192 64 (List.replicate (sigBytes s192) 1) [1] (sks ++ List.replicate 24 0 ++ List.replicate 24 0 ++ List.replicate 24 0) (List.replicate 24 0) :=
  C77_stale perm24 .p192 (s := s192) h (List.length_replicate ..) (List.length_replicate ..) (List.length_replicate ..) (List.length_replicate ..) (by decide) wild192 (by decide)

/-! ## Long messages -/

/-- **C77 refuted** for messages of 2^32 bytes: the size is cut to 32 bits, nothing is copied, and `Sign` signs and delivers zeros instead of the message. -/
theorem C77_long_refuted (p : Perm P f) (hp : Same pr s) {ulong : Nat} (hu : Masked ulong s) {sks skp pks root optrand msg : List Byte} (h1 : sks.length = s.n) (h2 : skp.length = s.n) (h3 : pks.length = s.n) (h4 : root.length = s.n)
    (h5 : optrand.length = s.n) (hlen : msg.length = 2 ^ 32) :
    sign P pr ulong [] msg (sks ++ skp ++ pks ++ root) optrand
      = .ok (Spec.Sphincs.sign (shakeHash f pr.rate) s sks skp pks root optrand (List.replicate msg.length 0) ++ List.replicate msg.length 0) := by
  rw [← signBody_ok hp.facts hu (front := List.replicate (sigBytes s) 0)]
  refine sign_moved p hp.facts h1 h2 h3 h4 h5 (List.length_replicate ..) (List.length_replicate ..) (by omega) ?_
  rw [show msg.length % 2 ^ 32 = 0 from by omega, loopN, resize, List.take_nil, List.nil_append, List.length_nil, Nat.sub_zero, hp.facts.size, Nat.add_comm, List.replicate_append_replicate]

/-- There are such messages that are not zero. -/
example : ∃ msg : List Byte, msg.length = 2 ^ 32 ∧ msg ≠ List.replicate msg.length 0 :=
  ⟨List.replicate (2 ^ 32) 1, List.length_replicate .., fun h => by
    rw [List.length_replicate] at h
    generalize hN : 2 ^ 32 = N at h
    have h0 : 0 < N := by omega
    obtain ⟨k, rfl⟩ : ∃ k, N = k + 1 := ⟨N - 1, by omega⟩
    rw [List.replicate_succ, List.replicate_succ] at h
    exact absurd (List.cons.inj h).1 (by decide)⟩

/-! ## Short signatures -/

/-- **C78 refuted** for vectors shorter than a signature: `Verify` does not answer `false`, it throws the exception of `std::vector::resize`. -/
theorem C78_short_refuted (hp : Same pr s) {ulong : Nat} {old sm pub : List Byte} (h : sm.length < sigBytes s) : verify P pr ulong old sm pub = .error (.throws .invalidSize) := by
  have hb := hp.facts.bytes
  have hsm := hp.facts.small
  rw [verify, if_neg (by omega), deliver, if_pos (by omega)]
  rfl

example : verify (permute 24) s5p256 64 [] [1, 2, 3] (List.replicate 64 0) = .error (.throws .invalidSize) := C78_short_refuted .p256 (by decide)

/-- Any signature that is long enough gets an answer, on every platform. -/
theorem C78_total (p : Perm P f) (hp : Same pr s) {ulong : Nat} {old sm pub : List Byte} (h : sigBytes s ≤ sm.length) (hm : sm.length < 2 ^ 63) (hpub : pub.length = 2 * s.n) :
    ∃ b, verify P pr ulong old sm pub = .ok (b, if b then sm.drop (sigBytes s) else List.replicate (sm.length - sigBytes s) 0) := by
  have hv := verify_char p hp.facts (ulong := ulong) (old := old) (pks := pub.take s.n) (root := pub.drop s.n) (sg := sm.take (sigBytes s)) (m := sm.drop (sigBytes s)) (by rw [List.length_take]; omega) (by rw [List.length_drop]; omega)
    (by rw [List.length_take]; omega) (by rw [List.length_drop]; omega)
  rw [List.take_append_drop, List.take_append_drop] at hv
  rw [hv]
  split
  · exact ⟨true, by rw [if_pos rfl]⟩
  · exact ⟨false, by rw [if_neg (by decide), List.length_drop]⟩

example : ∃ b, verify (permute 24) s1p128 64 [] (List.replicate 8000 0) (List.replicate 32 0) = .ok (b, if b then (List.replicate 8000 0).drop (sigBytes s128) else List.replicate 144 0) := by
  have h := C78_total perm24 .p128 (ulong := 64) (old := []) (sm := List.replicate 8000 0) (pub := List.replicate 32 0) (by rw [List.length_replicate]; decide) (by rw [List.length_replicate]; decide) (by rw [List.length_replicate]; rfl)
  rwa [List.length_replicate, show 8000 - sigBytes s128 = 144 from by decide] at h

end Cex.Sphincs
