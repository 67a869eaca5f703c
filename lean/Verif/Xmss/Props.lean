import Verif.Xmss.CoreLemmas

/-!
# C80, C81, C82: XMSS

`set` is one of the 44 parameter sets and `set.parameters f` are its constants and its hash, over any permutation the engine's Keccak function computes
(`Perm P f`; `perm24` is the one of the library).
-/

namespace Cex.Xmss
open Cex Cex.IntTools
open Cex.Keccak hiding wr_at rd_at
open Cex.Spec.Sphincs (chunks piece node sibling path climb lengths hexDigits checksum chunks_len chunks_congr chunks_split chunks_at piece_chunks node_len path_len climb_stored lengths_le)
open Cex.Spec.Xmss hiding prf wotsSign wotsPkFromSig sign
open Cex.Sphincs (Addr ullToBytes bytesToUll bytesToUll_ok baseW resize fill loopN_last take_split wr_at rd_at piece_len piece_holds chunks_piece climb_len pair resize_split)

variable {P : List Byte → M (List Byte)} {f : List Byte → List Byte}

theorem size_small {pr : Params} {s : Parameters} (F : Facts pr s) : sigBytes s < 2 ^ 20 := by
  have h1 : layerBytes s ≤ 151 * 64 := by
    rw [layerBytes, wlen, ← Nat.add_mul]
    exact Nat.mul_le_mul (by have := F.nSmall; have := F.hSmall; omega) F.nSmall
  have h2 : s.d * layerBytes s ≤ 12 * (151 * 64) := Nat.mul_le_mul F.dSmall h1
  rw [sigBytes]
  have := F.nSmall
  have := F.ibSmall
  omega

/-! ## Keys -/

/-- **C80**: `Generate` delivers the keys of the specification for the seeds it draws; the index starts at zero. -/
theorem C80_generate (p : Perm P f) (set : Spec.Xmss.Set) {sks skp pks : List Byte} (h1 : sks.length = set.fn.n) (h2 : skp.length = set.fn.n) (h3 : pks.length = set.fn.n) :
    generate P set (sks ++ skp) pks = .ok (publicKey (set.parameters f) set.oid sks pks, secretKey (set.parameters f) set.oid 0 sks skp pks) := by
  obtain ⟨pr, e, F, H⟩ := parse_ok p set
  have hn := F.n
  have hib := F.ib
  rw [generate, toOid_eq, e]
  dsimp only
  rw [keyPair, e]
  dsimp only
  rw [show List.replicate (pr.pkSize + 4) (0 : Byte) = List.replicate 4 0 ++ (List.replicate pr.n 0 ++ List.replicate pr.n 0) from by rw [List.replicate_append_replicate, List.replicate_append_replicate, Params.pkSize]; congr 1; omega,
    show List.replicate (pr.skSize + 4) (0 : Byte) = List.replicate 4 0 ++ List.replicate pr.skSize 0 from by rw [List.replicate_append_replicate]; congr 1; omega,
    putOid_ok (by rw [List.length_replicate]) (oid_lt set), ok_bind, putOid_ok (by rw [List.length_replicate]) (oid_lt set), ok_bind, ← List.append_assoc]
  exact coreKeyPair_ok H F (beEnc_length _ _) (by rw [List.length_replicate, hn]) (by rw [List.length_replicate, hn]) (by rw [List.length_replicate, Params.skSize, hn, hib]) h1 h2 h3

/-- The sizes the interface reports are those of what it delivers. -/
theorem C80_sizes (p : Perm P f) (set : Spec.Xmss.Set) {sks skp pks : List Byte} (h1 : sks.length = set.fn.n) (h2 : skp.length = set.fn.n) (h3 : pks.length = set.fn.n) :
    sizes set = .ok ((publicKey (set.parameters f) set.oid sks pks).length, (secretKey (set.parameters f) set.oid 0 sks skp pks).length, sigBytes (set.parameters f)) := by
  obtain ⟨pr, e, F, H⟩ := parse_ok p set
  have hr : (root (set.parameters f) sks pks).length = set.fn.n := treeRoot_len H.good _ _ _ _
  have hn : pr.n = set.fn.n := F.n
  rw [sizes, toOid_eq, e]
  dsimp only
  rw [F.size, publicKey, secretKey, Params.pkSize, Params.skSize, F.ib, hn]
  simp only [List.length_append, beEnc_length, h1, h2, h3, hr]
  congr 2
  · omega
  · congr 1; omega

example : ∃ pk sk, generate (permute 24) (.mt .shake256 .h60d12) (List.replicate 128 7) (List.replicate 64 9) = .ok (pk, sk) ∧ pk.take 4 = [0, 0, 0, 32] ∧ sk.take 12 = [0, 0, 0, 32, 0, 0, 0, 0, 0, 0, 0, 0] :=
  ⟨_, _, C80_generate (sks := List.replicate 64 7) (skp := List.replicate 64 7) perm24 (.mt .shake256 .h60d12) rfl rfl rfl,
    by rw [publicKey, List.append_assoc, List.take_append_of_le_length (by decide)]; decide,
    by rw [secretKey, List.append_assoc, List.append_assoc, List.append_assoc, List.take_append_of_le_length (by rw [List.length_append, beEnc_length, beEnc_length]; decide)]; decide⟩

/-! ## Verification -/

/-- **C81**: on at least as many bytes as a signature has, `Verify` accepts exactly the valid signatures, and then delivers the message; otherwise it delivers nothing.
Missing from the full claim: shorter vectors (`C81_short_refuted`). -/
theorem C81_verify_partial (p : Perm P f) (set : Spec.Xmss.Set) {old rt pks sg m : List Byte} (h1 : rt.length = set.fn.n) (h2 : pks.length = set.fn.n) (hsg : sg.length = sigBytes (set.parameters f)) (hm : sg.length + m.length < 2 ^ 61) :
    (Valid (set.parameters f) rt pks m sg → verify P set old (sg ++ m) (beEnc 4 set.oid ++ rt ++ pks) = .ok (true, m))
    ∧ (¬ Valid (set.parameters f) rt pks m sg → verify P set old (sg ++ m) (beEnc 4 set.oid ++ rt ++ pks) = .ok (false, [])) := by
  obtain ⟨pr, e, F, H⟩ := parse_ok p set
  obtain ⟨rest, h⟩ := coreOpen_ok H F (ob := beEnc 4 set.oid) (root := rt) (pks := pks) (sg := sg) (m := m) (msg := List.replicate (sg ++ m).length 0) (beEnc_length _ _) h2 h1 hsg (by rw [List.length_replicate, List.length_append, hsg]) (by omega)
  have hv : verify P set old (sg ++ m) (beEnc 4 set.oid ++ rt ++ pks) = (do
      let r ← coreOpen (coreHash P pr.hash) pr (List.replicate (sg ++ m).length 0) (sg ++ m) (beEnc 4 set.oid ++ rt ++ pks)
      let m ← copy r.2.1 0 (resize old r.2.2) 0 r.2.2
      return (r.1, m)) := by
    rw [verify, openKey, List.append_assoc, getOid_ok (oid_lt set), ok_bind, e]
  rw [hv, h, ok_bind]
  constructor
  · intro hval
    rw [if_pos hval.2]
    dsimp only
    have hl : (resize old m.length).length = m.length := by rw [resize, List.length_append, List.length_take, List.length_replicate]; omega
    have := copy_at (src := m ++ rest) (so := 0) (s := m) (a := []) (b := resize old m.length) (c := []) (off := 0) (n := m.length) ⟨[], rest, by simp, rfl⟩ rfl rfl hl
    rw [List.nil_append, List.append_nil, List.nil_append, List.append_nil] at this
    rw [this]
    rfl
  · intro hval
    rw [if_neg (fun h => hval ⟨hsg, h⟩)]
    dsimp only
    rw [copy, if_pos rfl, resize, Nat.zero_sub, List.take_zero, List.replicate_zero]
    rfl

/-- **C81 refuted** for vectors shorter than a signature: `Verify` does not answer `false`, it reads past the end of the vector. -/
theorem C81_short_refuted (set : Spec.Xmss.Set) {old rt pks sm : List Byte} (h1 : rt.length = set.fn.n) (h2 : pks.length = set.fn.n) (h : sm.length < sigBytes (set.parameters f)) :
    verify (permute 24) set old sm (beEnc 4 set.oid ++ rt ++ pks) = .error .ub := by
  obtain ⟨pr, e, F, H⟩ := parse_ok perm24 set
  have hz := size_small F
  rw [verify, openKey, List.append_assoc, getOid_ok (oid_lt set), ok_bind, e]
  dsimp only
  rw [← List.append_assoc, coreOpen_short F (beEnc_length _ _) h2 h1 h (by omega)]
  rfl

example : verify (permute 24) (.xmss .sha256 .h10) [] [0, 0, 0, 0, 1, 2, 3] (beEnc 4 1 ++ List.replicate 32 5 ++ List.replicate 32 6) = .error .ub :=
  C81_short_refuted (f := id) (.xmss .sha256 .h10) rfl rfl (by decide)

/-! ## Signing -/

/-- The number in the first bytes of the vector given for the signature; bytes it does not have count as zero. -/
def held (ib : Nat) (old : List Byte) : Nat := beVal ((old ++ List.replicate ib 0).take ib)

theorem resize_take {old : List Byte} {n ib : Nat} (h : ib ≤ n) : (resize old n).take ib = (old ++ List.replicate ib 0).take ib := by
  rw [resize, List.take_append, List.take_append, List.take_take, Nat.min_eq_left h, List.length_take, List.take_replicate, List.take_replicate]
  congr 2
  omega

/-- What `Sign` delivers for every private key and every vector: the index of the key, but the signature of the one-time key whose number the vector held. -/
theorem C82_sign_partial (p : Perm P f) (set : Spec.Xmss.Set) {old kb sks skp rt pks msg : List Byte} (hkb : kb.length = (set.parameters f).ib) (h1 : sks.length = set.fn.n) (h2 : skp.length = set.fn.n) (h3 : rt.length = set.fn.n) (h4 : pks.length = set.fn.n)
    (hm : sigBytes (set.parameters f) + msg.length < 2 ^ 61) :
    sign P set old msg (beEnc 4 set.oid ++ kb ++ sks ++ skp ++ rt ++ pks)
      = .ok (kb ++ signBody (set.parameters f) sks skp pks rt (held (set.parameters f).ib old) msg ++ msg, sigBytes (set.parameters f) + msg.length) := by
  obtain ⟨pr, e, F, H⟩ := parse_ok p set
  obtain ⟨x, y, hxy, hx, hy⟩ := resize_split (old := old) (a := msg.length) (b := sigBytes (set.parameters f))
  have hsb : sigBytes (set.parameters f) = (set.parameters f).ib + (set.parameters f).n + (set.parameters f).d * layerBytes (set.parameters f) := rfl
  obtain ⟨xb, fr, rfl, hxb, hfr⟩ : ∃ xb fr, x = xb ++ fr ∧ xb.length = (set.parameters f).ib ∧ fr.length = (set.parameters f).n + (set.parameters f).d * layerBytes (set.parameters f) :=
    ⟨x.take (set.parameters f).ib, x.drop (set.parameters f).ib, take_split _ _, by rw [List.length_take]; omega, by rw [List.length_drop]; omega⟩
  have hheld : beVal xb = held (set.parameters f).ib old := by
    rw [held, ← resize_take (n := msg.length + sigBytes (set.parameters f)) (by omega), hxy, List.append_assoc, List.take_append_of_le_length (by omega), List.take_of_length_le (by omega)]
  obtain ⟨sk', h⟩ := coreSign_ok H F (beEnc_length 4 set.oid) hkb h1 h2 h4 h3 hxb hfr hy hm
  rw [sign, toOid_eq, e]
  dsimp only
  rw [signKey, F.size, Nat.add_comm _ msg.length, hxy]
  simp only [List.append_assoc] at h ⊢
  rw [getOid_ok (oid_lt set), ok_bind, e]
  dsimp only
  rw [h, ok_bind, hheld]
  simp only [List.append_assoc]
  rw [Nat.add_comm msg.length]
  rfl

/-- **C82**, where the number in the vector is the index of the key (a fresh vector and the key `Generate` delivered): `Sign` delivers the signature of the specification
and the message, and `Verify` accepts it and gives the message back. Missing from the full claim: other vectors (`C82_vector_refuted`), other keys (`C82_key_refuted`), and that two
signatures have different indices (`C82_reuse_refuted`). -/
theorem C82_roundtrip_partial (p : Perm P f) (set : Spec.Xmss.Set) {idx : Nat} {old old' sks skp pks msg : List Byte} (hi : idx < 2 ^ ((set.parameters f).h * (set.parameters f).d)) (ho : held (set.parameters f).ib old = idx)
    (h1 : sks.length = set.fn.n) (h2 : skp.length = set.fn.n) (h4 : pks.length = set.fn.n) (hm : sigBytes (set.parameters f) + msg.length < 2 ^ 61) :
    sign P set old msg (secretKey (set.parameters f) set.oid idx sks skp pks)
        = .ok (Spec.Xmss.sign (set.parameters f) sks skp pks (root (set.parameters f) sks pks) idx msg ++ msg, sigBytes (set.parameters f) + msg.length)
      ∧ verify P set old' (Spec.Xmss.sign (set.parameters f) sks skp pks (root (set.parameters f) sks pks) idx msg ++ msg) (publicKey (set.parameters f) set.oid sks pks) = .ok (true, msg) := by
  obtain ⟨pr, e, F, H⟩ := parse_ok p set
  have hr : (root (set.parameters f) sks pks).length = set.fn.n := treeRoot_len H.good _ _ _ _
  have hl := sign_len H.good sks skp pks (root (set.parameters f) sks pks) idx msg
  constructor
  · rw [secretKey, C82_sign_partial p set (beEnc_length _ _) h1 h2 hr h4 hm, ho]
    rfl
  · exact (C81_verify_partial p set hr h4 hl (by rw [hl]; exact hm)).1 (sign_valid H.good F.d0 _ _ _ _ hi (Nat.lt_of_lt_of_le hi (index_fits set f)))

theorem held_nil (ib : Nat) : held ib [] = 0 := by
  rw [held, List.nil_append, List.take_of_length_le (by rw [List.length_replicate]), ← beEnc_zero, beVal_beEnc, Nat.zero_mod]

/-- The first message signed with a generated key, into a fresh vector. -/
example : ∃ pk sk sig n, generate (permute 24) (.xmss .shake128 .h10) (List.replicate 64 7) (List.replicate 32 9) = .ok (pk, sk) ∧ sign (permute 24) (.xmss .shake128 .h10) [] [1, 2, 3] sk = .ok (sig, n)
    ∧ verify (permute 24) (.xmss .shake128 .h10) [] sig pk = .ok (true, [1, 2, 3]) := by
  have h := C82_roundtrip_partial perm24 (.xmss .shake128 .h10) (idx := 0) (old := []) (old' := []) (sks := List.replicate 32 7) (skp := List.replicate 32 7) (pks := List.replicate 32 9) (msg := [1, 2, 3]) (Nat.two_pow_pos _) (held_nil _)
    (by rw [List.length_replicate]; rfl) (by rw [List.length_replicate]; rfl) (by rw [List.length_replicate]; rfl) (by decide)
  exact ⟨_, _, _, _, C80_generate (sks := List.replicate 32 7) (skp := List.replicate 32 7) perm24 (.xmss .shake128 .h10) rfl rfl rfl, h.1, h.2⟩

/-- **C82 refuted**: `Sign` leaves the key as it is, so any two messages signed one after the other into fresh vectors carry the same index and are signed with the same one-time key, that of
leaf 0, whatever the index of the key. -/
theorem C82_reuse_refuted (p : Perm P f) (set : Spec.Xmss.Set) {kb sks skp rt pks m1 m2 : List Byte} (hkb : kb.length = (set.parameters f).ib) (h1 : sks.length = set.fn.n) (h2 : skp.length = set.fn.n) (h3 : rt.length = set.fn.n) (h4 : pks.length = set.fn.n)
    (hm1 : sigBytes (set.parameters f) + m1.length < 2 ^ 61) (hm2 : sigBytes (set.parameters f) + m2.length < 2 ^ 61) :
    ∃ s1 s2 n1 n2, sign P set [] m1 (beEnc 4 set.oid ++ kb ++ sks ++ skp ++ rt ++ pks) = .ok (s1, n1) ∧ sign P set [] m2 (beEnc 4 set.oid ++ kb ++ sks ++ skp ++ rt ++ pks) = .ok (s2, n2)
      ∧ s1.take (set.parameters f).ib = s2.take (set.parameters f).ib
      ∧ s1 = kb ++ signBody (set.parameters f) sks skp pks rt 0 m1 ++ m1 ∧ s2 = kb ++ signBody (set.parameters f) sks skp pks rt 0 m2 ++ m2 := by
  have a := C82_sign_partial p set (old := []) hkb h1 h2 h3 h4 hm1
  have b := C82_sign_partial p set (old := []) hkb h1 h2 h3 h4 hm2
  rw [held_nil] at a b
  refine ⟨_, _, _, _, a, b, ?_, rfl, rfl⟩
  rw [List.append_assoc, List.append_assoc, List.take_append_of_le_length (by omega), List.take_append_of_le_length (by omega)]

/-- The one-time key of leaf 0 signs two messages: what `C82_reuse_refuted` says of the first generated key. -/
example : ∃ s1 s2 n1 n2, sign (permute 24) (.mt .sha256 .h20d2) [] [1] (beEnc 4 1 ++ [0, 0, 0] ++ List.replicate 32 1 ++ List.replicate 32 2 ++ List.replicate 32 3 ++ List.replicate 32 4) = .ok (s1, n1)
    ∧ sign (permute 24) (.mt .sha256 .h20d2) [] [2] (beEnc 4 1 ++ [0, 0, 0] ++ List.replicate 32 1 ++ List.replicate 32 2 ++ List.replicate 32 3 ++ List.replicate 32 4) = .ok (s2, n2) ∧ s1.take 3 = s2.take 3 := by
  obtain ⟨s1, s2, n1, n2, a, b, c, _⟩ := C82_reuse_refuted perm24 (.mt .sha256 .h20d2) (kb := [0, 0, 0]) (sks := List.replicate 32 1) (skp := List.replicate 32 2) (rt := List.replicate 32 3) (pks := List.replicate 32 4) (m1 := [1]) (m2 := [2])
    rfl rfl rfl rfl rfl (by decide) (by decide)
  exact ⟨s1, s2, n1, n2, a, b, c⟩

/-! ### The wrong one-time key -/

/-- The randomisations of the indices 0 and 1 for SHAKE128 and a zero key. -/
def random0 : List Byte := [181, 112, 93, 179, 33, 92, 2, 127, 253, 222, 104, 255, 162, 199, 153, 184, 73, 68, 209, 158, 39, 210, 214, 86, 20, 95, 40, 77, 192, 161, 234, 98]
def random1 : List Byte := [48, 29, 72, 10, 99, 29, 43, 141, 45, 220, 252, 243, 99, 151, 134, 94, 48, 133, 238, 204, 136, 62, 67, 47, 62, 43, 182, 181, 112, 15, 77, 142]

theorem shake128_value {w v : List Byte} (hw : w.length < 2 ^ 64) (hv : v.length = 32) (h : xof (permute 24) w 0 w.length (List.replicate 32 0) 0 32 168 = .ok v) : Fips202.shake (Fips202.keccakP 24) 168 w 32 = v := by
  have := xof_part perm24 (r := 168) (by decide) (by decide) (by decide) (Holds.self w) rfl hw (pre := []) (junk := List.replicate 32 0) (post := []) (oo := 0) (n := 32) rfl (by rw [List.length_replicate])
  rw [List.nil_append, List.append_nil, List.nil_append, List.append_nil, h] at this
  exact (Except.ok.inj this).symm

theorem randomizer0 : randomizer ((Set.xmss .shake128 .h10).parameters (Fips202.keccakP 24)) (List.replicate 32 0) 0 = random0 :=
  shake128_value (by decide) (by decide) (by decide +kernel)
theorem randomizer1 : randomizer ((Set.xmss .shake128 .h10).parameters (Fips202.keccakP 24)) (List.replicate 32 0) 1 = random1 :=
  shake128_value (by decide) (by decide) (by decide +kernel)

/-- Bodies made with the one-time keys 0 and 1 differ. -/
theorem bodies_differ (sks pks rt m m' t : List Byte) :
    signBody ((Set.xmss .shake128 .h10).parameters (Fips202.keccakP 24)) sks (List.replicate 32 0) pks rt 0 m ++ t
      ≠ signBody ((Set.xmss .shake128 .h10).parameters (Fips202.keccakP 24)) sks (List.replicate 32 0) pks rt 1 m' ++ t := by
  intro h
  rw [signBody, signBody, randomizer0, randomizer1, List.append_assoc, List.append_assoc] at h
  exact absurd (List.append_inj h (by decide)).1 (by decide)

/-- **C82 refuted** for vectors that are not fresh: a vector that starts with the bytes 0, 0, 0, 1 makes `Sign` use the one-time key 1 for a key whose index is 0. -/
theorem C82_vector_refuted : ¬ ∀ (old sks pks rt msg : List Byte), sks.length = 32 → pks.length = 32 → rt.length = 32 →
    ∃ n, sign (permute 24) (.xmss .shake128 .h10) old msg (beEnc 4 7 ++ beEnc 4 0 ++ sks ++ List.replicate 32 0 ++ rt ++ pks)
      = .ok (Spec.Xmss.sign ((Set.xmss .shake128 .h10).parameters (Fips202.keccakP 24)) sks (List.replicate 32 0) pks rt 0 msg ++ msg, n) := by
  intro h
  obtain ⟨n, h⟩ := h [0, 0, 0, 1] (List.replicate 32 0) (List.replicate 32 0) (List.replicate 32 0) [5] rfl rfl rfl
  have c := C82_sign_partial perm24 (.xmss .shake128 .h10) (old := [0, 0, 0, 1]) (kb := beEnc 4 0) (sks := List.replicate 32 0) (skp := List.replicate 32 0) (rt := List.replicate 32 0) (pks := List.replicate 32 0) (msg := [5])
    rfl rfl rfl rfl rfl (by decide)
  rw [show held ((Set.xmss .shake128 .h10).parameters (Fips202.keccakP 24)).ib [0, 0, 0, 1] = 1 from by decide] at c
  replace c := c.symm.trans h
  have e := (Prod.mk.inj (Except.ok.inj c)).1
  rw [Spec.Xmss.sign, List.append_assoc, List.append_assoc] at e
  exact bodies_differ _ _ _ _ _ _ (List.append_inj e rfl).2.symm

/-- **C82 refuted** for keys whose index is not 0: `Sign` uses the one-time key 0 for a key whose index is 1. -/
theorem C82_key_refuted : ¬ ∀ (sks pks rt msg : List Byte), sks.length = 32 → pks.length = 32 → rt.length = 32 →
    ∃ n, sign (permute 24) (.xmss .shake128 .h10) [] msg (beEnc 4 7 ++ beEnc 4 1 ++ sks ++ List.replicate 32 0 ++ rt ++ pks)
      = .ok (Spec.Xmss.sign ((Set.xmss .shake128 .h10).parameters (Fips202.keccakP 24)) sks (List.replicate 32 0) pks rt 1 msg ++ msg, n) := by
  intro h
  obtain ⟨n, h⟩ := h (List.replicate 32 0) (List.replicate 32 0) (List.replicate 32 0) [5] rfl rfl rfl
  have c := C82_sign_partial perm24 (.xmss .shake128 .h10) (old := []) (kb := beEnc 4 1) (sks := List.replicate 32 0) (skp := List.replicate 32 0) (rt := List.replicate 32 0) (pks := List.replicate 32 0) (msg := [5])
    rfl rfl rfl rfl rfl (by decide)
  rw [held_nil] at c
  replace c := c.symm.trans h
  have e := (Prod.mk.inj (Except.ok.inj c)).1
  rw [Spec.Xmss.sign, List.append_assoc, List.append_assoc] at e
  exact bodies_differ _ _ _ _ _ _ (List.append_inj e rfl).2

end Cex.Xmss
