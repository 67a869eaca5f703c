import Verif.Ed25519.SigStd
import Verif.Ed25519.Props

/-!
# C88: the signatures of ECDSA (Ed25519)

The specification is `Verif.Ed25519.Rfc8032`. `Hash digest H N` says that the digest of the object gives `H` (64 bytes) for every input shorter than `N`; the two digests of the
class are shown to do so at the end.
-/

namespace Cex.Ed25519

open Cex.Ec25519 Cex.IntTools

section
variable {W : Nat} {H : List Byte → List Byte} {N : Nat} {o : Ecdsa}

/-- **C88.** `Generate`: for every seed of 32 bytes the public key is that of RFC 8032 and the private key is the seed followed by the public key; other seeds are refused. -/
theorem C88_generate (hW : W = 32 ∨ W = 64) (hH : Hash o.digest H N) (hN : 32 < N) (seed : List Byte) :
    o.generate W seed = if seed.length = 32 then .ok (Rfc8032.publicKey H seed, seed ++ Rfc8032.publicKey H seed) else throw (.throws .invalidKey) := by
  rw [Ecdsa.generate]
  by_cases h : seed.length = 32
  · rw [if_neg (not_not.mpr h), if_pos h]
    exact generate_ok hW hH hN h
  · rw [if_pos h, if_neg h]
    rfl

/-- `Sign` resizes the caller's vector -/
theorem resize_len (sig : List Byte) (n : Nat) : (sig.take n ++ List.replicate (n - sig.length) 0).length = n := by
  rw [List.length_append, List.length_take, List.length_replicate]; omega

/-- What `Sign` computes for every key and every non-empty message (parameter set S2): no signed overflow, no access out of bounds, and the signature of RFC 8032 with the
reduction of C87 in the place of the residue. -/
theorem C88_sign_exact (hW : W = 32 ∨ W = 64) (hH : Hash o.digest H N) {seed pk msg : List Byte} (hs : seed.length = 32) (hp : pk.length = 32) (h0 : msg ≠ [])
    (hm : msg.length + 64 < N) (sig : List Byte) :
    (o.initSign .s2s (seed ++ pk)).sign W msg sig = .ok (codeSign H seed pk msg ++ msg) := by
  rw [Ecdsa.sign, Ecdsa.initSign]
  dsimp only
  rw [if_neg (by decide), if_neg (by decide), if_neg (fun h => h0 (List.length_eq_zero_iff.mp h))]
  exact sign_ok hW hH hs hp hm (resize_len _ _)

/-- **C88**, the claim for signing, for the messages of which neither hash makes the limb of C87 negative. Missing: the others, for which it is false (`C88_sign_wrong`). -/
theorem C88_sign_partial (hW : W = 32 ∨ W = 64) (hH : Hash o.digest H N) {seed msg : List Byte} (hs : seed.length = 32) (h0 : msg ≠ []) (hm : msg.length + 64 < N) (sig : List Byte)
    (w1 : ¬ Wraps (leVal (H ((H seed).drop 32 ++ msg))))
    (w2 : ¬ Wraps (leVal (H (Rfc8032.encode (Rfc8032.mul (leVal (H ((H seed).drop 32 ++ msg))) Rfc8032.B) ++ Rfc8032.publicKey H seed ++ msg)))) :
    (o.initSign .s2s (seed ++ Rfc8032.publicKey H seed)).sign W msg sig = .ok (Rfc8032.sign H seed msg ++ msg) := by
  rw [C88_sign_exact (pk := Rfc8032.publicKey H seed) hW hH hs (encode_len _) h0 hm, codeSign_iff.mpr ⟨w1, w2⟩]

/-- **C88**, refuted for signing: whenever one of the two hashes makes the limb negative the signature is not that of RFC 8032. -/
theorem C88_sign_wrong (hW : W = 32 ∨ W = 64) (hH : Hash o.digest H N) {seed msg : List Byte} (hs : seed.length = 32) (h0 : msg ≠ []) (hm : msg.length + 64 < N) (sig : List Byte)
    (w : Wraps (leVal (H ((H seed).drop 32 ++ msg))) ∨
      Wraps (leVal (H (Rfc8032.encode (Rfc8032.mul (leVal (H ((H seed).drop 32 ++ msg))) Rfc8032.B) ++ Rfc8032.publicKey H seed ++ msg)))) :
    ∃ s, (o.initSign .s2s (seed ++ Rfc8032.publicKey H seed)).sign W msg sig = .ok (s ++ msg) ∧ s ≠ Rfc8032.sign H seed msg := by
  refine ⟨_, C88_sign_exact (pk := Rfc8032.publicKey H seed) hW hH hs (encode_len _) h0 hm sig, fun e => ?_⟩
  obtain ⟨a, b⟩ := codeSign_iff.mp e
  exact w.elim a b

/-- With the other parameter set `Sign` never succeeds, though `Generate` and `Verify` do. -/
theorem C88_sign_k_refused {sk msg sig : List Byte} : ∃ e, (o.initSign .s1k sk).sign W msg sig = .error e := by
  rw [Ecdsa.sign, Ecdsa.initSign]
  dsimp only
  rw [if_neg (by decide), if_neg (by decide)]
  by_cases h : msg.length = 0
  · rw [if_pos h]; exact ⟨_, rfl⟩
  · rw [if_neg h]; exact ⟨_, rfl⟩

/-- **C88.** What `Verify` decides, for every key of 32 bytes and every signed message of at least 64 bytes: no overflow, no access out of bounds; the message is returned exactly
when the signature is accepted, otherwise the caller's vector is cleared. -/
theorem C88_verify (hW : W = 32 ∨ W = 64) (hH : Hash o.digest H N) {p : Param} {pk sig : List Byte} (hp : pk.length = 32) (hs : 64 ≤ sig.length) (hm : sig.length < N)
    (message : List Byte) :
    (Accepts H pk (sig.drop 64) sig ∧ (o.initVerify p pk).verify W sig message = .ok (true, sig.drop 64)) ∨
    (¬ Accepts H pk (sig.drop 64) sig ∧ (o.initVerify p pk).verify W sig message = .ok (false, List.replicate message.length 0)) := verify_ok hW hH message hp hs hm

/-- **C88**, the claim for verification, for the public keys in the group of the base point and the messages whose hash does not make the limb of C87 negative: accepted exactly
when RFC 8032 calls the signature valid. Missing: the other keys (`C88_forgery`) and the other hashes (C87). -/
theorem C88_verify_partial (hW : W = 32 ∨ W = 64) (hH : Hash o.digest H N) {p : Param} {A : Nat × Nat} {sig : List Byte} (hA : Rfc8032.OnCurve A)
    (hL : Rfc8032.mul Rfc8032.L A = (0, 1)) (hs : 64 ≤ sig.length) (hm : sig.length < N) (message : List Byte)
    (w : ¬ Wraps (leVal (H (sig.take 32 ++ Rfc8032.encode A ++ sig.drop 64)))) :
    ∃ b m, (o.initVerify p (Rfc8032.encode A)).verify W sig message = .ok (b, m) ∧ (b = true ↔ Rfc8032.Valid H (Rfc8032.encode A) (sig.drop 64) (sig.take 64)) := by
  have key : Accepts H (Rfc8032.encode A) (sig.drop 64) sig ↔ Rfc8032.Valid H (Rfc8032.encode A) (sig.drop 64) (sig.take 64) := by
    obtain ⟨T, rA⟩ := Rep.exists hA
    have hT : L • T = 0 := by
      have h1 := rA.mul L
      rw [← L_eq, hL] at h1
      have h2 := h1.unique Rep.zero
      rwa [L_eq] at h2
    have modT : ∀ n : Nat, (n % L) • T = n • T := fun n => by
      conv_rhs => rw [← Nat.div_add_mod n L, add_smul, mul_comm, mul_smul, hT, nsmul_zero, zero_add]
    obtain ⟨g1, g2⟩ := encode_fields rA
    have t1 : (sig.take 64).drop 32 = (sig.drop 32).take 32 := by rw [List.drop_take]
    have t2 : (sig.take 64).take 32 = sig.take 32 := by rw [List.take_take]; rfl
    rw [Accepts, Rfc8032.Valid, t1, t2, red_of w, L_eq, sigS, g1, g2]
    generalize leVal (H (sig.take 32 ++ Rfc8032.encode A ++ sig.drop 64)) = k
    have ek : Rfc8032.mul (k % L) A = Rfc8032.mul k A := by
      refine Rep.inj (rA.mul _) ?_
      rw [modT]
      exact rA.mul _
    constructor
    · rintro ⟨h1, h2, h3, R, A', oR, oA', e1, e2, e3, e4⟩
      refine ⟨by rw [List.length_take]; omega, h1, R, A, oR, hA, e1, rfl, ?_⟩
      obtain ⟨T', rA'⟩ := Rep.exists oA'
      have ex : (A'.1 : Fp) = (A.1 : Fp) := by
        refine x_unique (y := (A.2 : Fp)) (b := A.1 % 2) (rep_onEd hA) (e2 ▸ rep_onEd oA') (.inr (by rw [nat_val hA.1])) ?_
        rcases e3 with h | h
        · exact .inl (by rw [h, Nat.cast_zero])
        · exact .inr (by rw [nat_val oA'.1, h])
      have ex := congrArg ZMod.val ex
      rw [nat_val oA'.1, nat_val hA.1] at ex
      have : A' = A := Prod.ext ex e2
      subst this
      rw [e4, ek]
    · rintro ⟨h0, h1, R, A', oR, oA', e1, e2, e4⟩
      obtain ⟨T', rA'⟩ := Rep.exists oA'
      have := encode_inj rA' rA e2
      subst this
      have : A' = A := rA'.inj rA
      subst this
      obtain ⟨TR, rR⟩ := Rep.exists oR
      refine ⟨h1, ?_, rep_y_ne rA hT, R, A', oR, oA', e1, rfl, .inr rfl, by rw [e4, ek]⟩
      rw [← e1, (encode_fields rR).1]
      refine rep_y_ne rR ?_
      have u := base_mul (leVal ((sig.drop 32).take 32))
      rw [e4] at u
      have u := u.unique (rR.add (rA.mul k))
      have u1 : L • TR + L • (k • T') = 0 := by rw [← nsmul_add, ← u, sub_mul]
      have u2 : L • (k • T') = 0 := by rw [← mul_smul, mul_comm, mul_smul, hT, nsmul_zero]
      rw [u2] at u1
      exact (add_zero _).symm.trans u1
  rcases C88_verify (p := p) hW hH (encode_len A) hs hm message with ⟨a, e⟩ | ⟨a, e⟩
  · exact ⟨_, _, e, fun _ => key.mp a, fun _ => rfl⟩
  · exact ⟨_, _, e, fun h => (Bool.false_ne_true h).elim, fun h => absurd (key.mpr h) a⟩

/-- **C88.** What a signer signs the verifier accepts, and gets the message: for every seed, every non-empty message and any old contents of the vectors — also when the reduction
of C87 is wrong. -/
theorem C88_roundtrip {W' : Nat} (hW : W = 32 ∨ W = 64) (hW' : W' = 32 ∨ W' = 64) (hH : Hash o.digest H N) (hN : 32 < N) {o' : Ecdsa} (hH' : Hash o'.digest H N)
    {seed msg : List Byte} (hs : seed.length = 32) (h0 : msg ≠ []) (hm : msg.length + 64 < N) (sig message : List Byte) (p : Param) :
    ∃ pk sk s, o.generate W seed = .ok (pk, sk) ∧ (o.initSign .s2s sk).sign W msg sig = .ok s ∧ (o'.initVerify p pk).verify W' s message = .ok (true, msg) := by
  refine ⟨Rfc8032.publicKey H seed, _, _, by rw [C88_generate hW hH hN, if_pos hs], C88_sign_exact (pk := Rfc8032.publicKey H seed) hW hH hs (encode_len _) h0 hm sig, ?_⟩
  have hl := codeSign_len H seed (Rfc8032.publicKey H seed) msg
  have hd : (codeSign H seed (Rfc8032.publicKey H seed) msg ++ msg).drop 64 = msg := List.drop_left' hl
  have ha := accepts_own (H := H) (seed := seed) (msg := msg) msg
  rcases C88_verify (p := p) (sig := codeSign H seed (Rfc8032.publicKey H seed) msg ++ msg) hW' hH' (pk := Rfc8032.publicKey H seed) (encode_len _)
    (by rw [List.length_append]; omega) (by rw [List.length_append]; omega) message with ⟨_, e⟩ | ⟨n, _⟩
  · rw [e, hd]
  · rw [hd] at n
    exact absurd ha n

/-- **C88.** A signature cannot be altered by its scalar: of two accepted signatures with the same point, key and message the first 64 bytes are equal. -/
theorem C88_unique {pk msg sig sig' : List Byte} (h : Accepts H pk msg sig) (h' : Accepts H pk msg sig') (hl : 64 ≤ sig.length) (hl' : 64 ≤ sig'.length)
    (e : sig.take 32 = sig'.take 32) : sig.take 64 = sig'.take 64 := by
  obtain ⟨a1, -, -, R, A, oR, oA, eR, h2, h3, eq⟩ := h
  obtain ⟨a1', -, -, R', A', oR', oA', eR', h2', h3', eq'⟩ := h'
  have eA : A = A' := by
    have ex : (A.1 : Fp) = (A'.1 : Fp) := by
      refine x_unique (y := (A'.2 : Fp)) (b := leVal pk / 2 ^ 255) (rep_onEd oA') ?_ ?_ ?_
      · have := rep_onEd oA
        rwa [h2, ← h2'] at this
      · rcases h3' with h | h
        · exact .inl (by rw [h, Nat.cast_zero])
        · exact .inr (by rw [nat_val oA'.1, h])
      · rcases h3 with h | h
        · exact .inl (by rw [h, Nat.cast_zero])
        · exact .inr (by rw [nat_val oA.1, h])
    have ex := congrArg ZMod.val ex
    rw [nat_val oA'.1, nat_val oA.1] at ex
    exact Prod.ext ex (by rw [h2, h2'])
  obtain ⟨T, rR⟩ := Rep.exists oR
  obtain ⟨T', rR'⟩ := Rep.exists oR'
  have := encode_inj rR rR' (by rw [eR, eR', e])
  subst this
  have eRR : R = R' := rR.inj rR'
  rw [eRR, eA, e] at eq
  have es : Rfc8032.mul (sigS sig) Rfc8032.B = Rfc8032.mul (sigS sig') Rfc8032.B := by rw [eq, eq']
  have u := base_mul (sigS sig)
  rw [es] at u
  have u := mul_inj.mp (u.unique (base_mul (sigS sig')))
  rw [Nat.mod_eq_of_lt a1, Nat.mod_eq_of_lt a1', sigS, sigS] at u
  have l1 : ((sig.drop 32).take 32).length = 32 := by rw [List.length_take, List.length_drop]; omega
  have l2 : ((sig'.drop 32).take 32).length = 32 := by rw [List.length_take, List.length_drop]; omega
  have u' : (sig.drop 32).take 32 = (sig'.drop 32).take 32 := by
    rw [← leEnc_leVal ((sig.drop 32).take 32), ← leEnc_leVal ((sig'.drop 32).take 32), l1, l2, u]
  have sp : ∀ l : List Byte, l.take 64 = l.take 32 ++ (l.drop 32).take 32 := fun l => by
    rw [show 64 = 32 + 32 from rfl, List.take_add]
  rw [sp sig, sp sig', e, u']

/-- the bytes of the neutral point -/
def neutral : List Byte := 1 :: List.replicate 31 0
/-- the same with the bit of the sign set, which no point has -/
def neutralNeg : List Byte := leEnc 32 (1 + 2 ^ 255)

/-- the points with `y = 1` -/
theorem accept_neutral {pk : List Byte} (hk : leVal pk % 2 ^ 255 = 1) (msg : List Byte) : Accepts H pk msg (neutral ++ List.replicate 32 0 ++ msg) := by
  have t1 : (neutral ++ List.replicate 32 0 ++ msg).take 32 = neutral := by rw [List.append_assoc]; exact List.take_left' rfl
  have t2 : ((neutral ++ List.replicate 32 0 ++ msg).drop 32).take 32 = List.replicate 32 0 := by
    rw [List.append_assoc, List.drop_left' (show neutral.length = 32 from rfl)]; exact List.take_left' (by rw [List.length_replicate])
  have v1 : leVal neutral % 2 ^ 255 = 1 := by decide
  have v2 : leVal (List.replicate 32 (0 : Byte)) = 0 := by decide
  rw [Accepts, sigS, t1, t2, v1, v2, hk]
  refine ⟨L_pos, by decide, by decide, (0, 1), (0, 1), Rep.zero.curve, Rep.zero.curve, by decide, rfl, .inl rfl, ?_⟩
  refine Rep.inj (S := 0) Rep.zero ?_
  have := Rep.zero.add (Rep.zero.mul (red (leVal (H (neutral ++ pk ++ msg)))))
  rwa [nsmul_zero, add_zero] at this

/-- **C88**, refuted for verification: under the public key 01 00 … 00 (the neutral point, which `Ge25519HasSmallOrder` is there to refuse) the same 64 bytes are accepted as the
signature of every message, whatever the digest. -/
theorem C88_forgery (hW : W = 32 ∨ W = 64) (hH : Hash o.digest H N) (p : Param) (msg message : List Byte) (hm : msg.length + 64 < N) :
    (o.initVerify p neutral).verify W (neutral ++ List.replicate 32 0 ++ msg) message = .ok (true, msg) := by
  have hl : (neutral ++ List.replicate 32 0).length = 64 := by rw [List.length_append, List.length_replicate]; rfl
  have hd : (neutral ++ List.replicate 32 0 ++ msg).drop 64 = msg := List.drop_left' hl
  rcases C88_verify (p := p) (sig := neutral ++ List.replicate 32 0 ++ msg) (pk := neutral) hW hH rfl (by rw [List.length_append]; omega) (by rw [List.length_append]; omega) message with ⟨_, e⟩ | ⟨n, _⟩
  · rw [e, hd]
  · rw [hd] at n
    exact absurd (accept_neutral (by decide) msg) n

/-- **C88**, refuted for the decoding of public keys: 32 bytes that encode no point of the curve (RFC 8032, 5.1.3, step 4) are accepted as a key, with the same signature. -/
theorem C88_bad_key (hW : W = 32 ∨ W = 64) (hH : Hash o.digest H N) (p : Param) (msg message : List Byte) (hm : msg.length + 64 < N) :
    (∀ A, Rfc8032.OnCurve A → Rfc8032.encode A ≠ neutralNeg) ∧
    (o.initVerify p neutralNeg).verify W (neutral ++ List.replicate 32 0 ++ msg) message = .ok (true, msg) := by
  have hl : (neutral ++ List.replicate 32 0).length = 64 := by rw [List.length_append, List.length_replicate]; rfl
  have hd : (neutral ++ List.replicate 32 0 ++ msg).drop 64 = msg := List.drop_left' hl
  have v1 : leVal neutralNeg % 2 ^ 255 = 1 ∧ leVal neutralNeg / 2 ^ 255 = 1 := by decide
  refine ⟨fun A oA e => ?_, ?_⟩
  · obtain ⟨T, rA⟩ := Rep.exists oA
    obtain ⟨g1, g2⟩ := encode_fields rA
    rw [e] at g1 g2
    have h := x_unique (x := 0) (x' := (A.1 : Fp)) (y := (A.2 : Fp)) (b := 1) (by
      rw [OnEd, ← g1, v1.1]; norm_num) (rep_onEd oA) (.inl rfl) (.inr (by rw [nat_val oA.1, ← g2, v1.2]))
    have := (cast_zero_iff oA.1).mp h
    rw [this, v1.2] at g2
    exact absurd g2 (by decide)
  · rcases C88_verify (p := p) (sig := neutral ++ List.replicate 32 0 ++ msg) (pk := neutralNeg) hW hH (leEnc_length _ _) (by rw [List.length_append]; omega) (by rw [List.length_append]; omega)
      message with ⟨_, e⟩ | ⟨n, _⟩
    · rw [e, hd]
    · rw [hd] at n
      exact absurd (accept_neutral v1.1 msg) n

/-- A signed message of fewer than 64 bytes is not refused with a result: the length of the message wraps and the vector throws. -/
theorem C88_verify_short {p : Param} {pk sig message : List Byte} (h : sig.length < 64) : (o.initVerify p pk).verify W sig message = .error (.throws .maxExceeded) := by
  rw [Ecdsa.verify, Ecdsa.initVerify]
  dsimp only
  rw [if_neg (by decide), if_neg (by decide), verify, if_pos h]
  rfl

end

/-! ### The digests of the class -/

theorem sha2_hash {o : Digest.Obj 64} (ho : Digest.Obj.Run (Digest.core512 false) o []) : Hash (sha2Digest o) Digest.Fips.sha512 (2 ^ 61 - 128) := by
  refine ⟨fun s hs => ?_, sha512_len⟩
  have hs' : s.length < 2 ^ 64 := Nat.lt_trans hs (by decide)
  obtain ⟨o1, h1⟩ := ((Digest.C36_sha512_partial false).2 o [] ho).1 ⟨s, 0, s.length, by omega, hs'⟩
  have r := Digest.Obj.Run.update _ ho h1
  obtain ⟨o2, h2⟩ := ((Digest.C36_sha512_partial false).2 o1 _ r).2.2 (Digest.C36_sha512_partial_range _ (by
    show (([] : List Byte) ++ (s.drop 0).take s.length).length < _
    rw [List.nil_append, List.drop_zero, List.take_length]; exact hs)) [] (List.replicate 64 0) [] (by simp) (by simp)
  simp only [List.nil_append, List.append_nil, List.length_nil] at h1 h2
  rw [sha2Digest, Digest.Obj.compute, if_neg (by simp), h1, ok_bind, h2, ok_bind]
  show pure (Digest.Fips.sha512 ((s.drop 0).take s.length)) = _
  rw [List.drop_zero, List.take_length]
  rfl

theorem sha3_hash {o : Keccak.Buffered} (ho : Keccak.Sha3.Run Keccak.permute24U 72 64 o []) : Hash (sha3Digest o) (Fips202.sha3 64) (2 ^ 64) := by
  refine ⟨fun s hs => ?_, fun s => Keccak.Sha3.hashes_512.size s⟩
  obtain ⟨o1, h1⟩ := (Keccak.Sha3.C45_sha3_512.2 o [] ho).2.2.2 s (List.replicate 64 0) hs (by simp) (by simp)
  rw [sha3Digest, h1, ok_bind, List.nil_append, List.drop_eq_nil_of_le (by simp), List.append_nil]
  rfl

/-- the hash of a message of one byte under the seed of zeros makes the limb negative -/
theorem witness_wraps : Wraps (leVal (Digest.Fips.sha512 ((Digest.Fips.sha512 (List.replicate 32 0)).drop 32 ++ [4]))) := by
  have key : ((do
      let o ← Digest.Obj.seq0.reset (Digest.core512 false)
      let a ← sha2Digest o (List.replicate 32 0)
      let b ← sha2Digest o (a.drop 32 ++ [4])
      return decide (Wraps (leVal b))) : M Bool) = .ok true := by decide +kernel
  obtain ⟨o, e0, key⟩ := bind_ok key
  have hh := sha2_hash (Digest.Obj.Run.new e0)
  rw [hh.ok _ (by rw [List.length_replicate]; decide), ok_bind, hh.ok _ (by
    rw [List.length_append, List.length_drop, hh.len]; decide), ok_bind] at key
  exact of_decide_eq_true (Except.ok.inj key)

/-- **C88**, refuted with SHA2-512 by a witness: the seed of 32 zero bytes and the message `04`. The signature is not that of Ed25519. -/
theorem C88_sign_refuted {o : Digest.Obj 64} (ho : Digest.Obj.Run (Digest.core512 false) o []) (p : Param) :
    ∃ pk sk s, (Ecdsa.mk (sha2Digest o) p false false [] []).generate 64 (List.replicate 32 0) = .ok (pk, sk) ∧
      ((Ecdsa.mk (sha2Digest o) p false false [] []).initSign .s2s sk).sign 64 [4] [] = .ok (s ++ [4]) ∧
      s ≠ Rfc8032.sign Digest.Fips.sha512 (List.replicate 32 0) [4] := by
  have hh := sha2_hash ho
  obtain ⟨s, e, n⟩ := C88_sign_wrong (o := Ecdsa.mk (sha2Digest o) p false false [] []) (.inr rfl) hh (seed := List.replicate 32 0) (msg := [4]) List.length_replicate
    (by simp) (by simp) [] (.inl witness_wraps)
  exact ⟨_, _, s, by rw [C88_generate (.inr rfl) hh (by decide), if_pos List.length_replicate], e, n⟩

/-- C88 with the two digests of the class, whatever the digest object did before its last reset: what is signed is accepted. -/
theorem C88_roundtrip_digests {W : Nat} (hW : W = 32 ∨ W = 64) {seed msg : List Byte} (hs : seed.length = 32) (h0 : msg ≠ []) (hm : msg.length + 64 < 2 ^ 61 - 128)
    (sig message : List Byte) (p : Param) :
    (∀ d, Digest.Obj.Run (Digest.core512 false) d [] → ∃ pk sk s, (Ecdsa.mk (sha2Digest d) p false false [] []).generate W seed = .ok (pk, sk) ∧
      ((Ecdsa.mk (sha2Digest d) p false false [] []).initSign .s2s sk).sign W msg sig = .ok s ∧
      ((Ecdsa.mk (sha2Digest d) p false false [] []).initVerify p pk).verify W s message = .ok (true, msg)) ∧
    (∀ d, Keccak.Sha3.Run Keccak.permute24U 72 64 d [] → ∃ pk sk s, (Ecdsa.mk (sha3Digest d) p false false [] []).generate W seed = .ok (pk, sk) ∧
      ((Ecdsa.mk (sha3Digest d) p false false [] []).initSign .s2s sk).sign W msg sig = .ok s ∧
      ((Ecdsa.mk (sha3Digest d) p false false [] []).initVerify p pk).verify W s message = .ok (true, msg)) :=
  ⟨fun _ hd => C88_roundtrip (o := Ecdsa.mk _ p false false [] []) (o' := Ecdsa.mk _ p false false [] []) hW hW (sha2_hash hd) (by decide) (sha2_hash hd) hs h0 hm sig message p,
   fun _ hd => C88_roundtrip (o := Ecdsa.mk _ p false false [] []) (o' := Ecdsa.mk _ p false false [] []) hW hW (sha3_hash hd) (by decide) (sha3_hash hd) hs h0 (by omega) sig message p⟩

/-! ### Cases that meet the hypotheses -/

/-- a hash of 64 bytes that makes no limb negative -/
def small (_ : List Byte) : List Byte := 5 :: List.replicate 63 0

theorem small_hash : Hash (fun s => .ok (small s)) small (2 ^ 64) := ⟨fun _ _ => rfl, fun _ => rfl⟩

/-- C88_sign_partial speaks of something -/
example : ((Ecdsa.mk (fun s => .ok (small s)) .s2s false false [] []).initSign .s2s (List.replicate 32 1 ++ Rfc8032.publicKey small (List.replicate 32 1))).sign 64 [1, 2, 3] [] =
    .ok (Rfc8032.sign small (List.replicate 32 1) [1, 2, 3] ++ [1, 2, 3]) :=
  C88_sign_partial (.inr rfl) small_hash List.length_replicate (by simp) (by simp) [] (by show ¬ Wraps (leVal (small [])); decide +kernel)
    (by show ¬ Wraps (leVal (small [])); decide +kernel)

/-- C88_verify_partial speaks of something: the base point is a public key in the group -/
example : ∃ b m, ((Ecdsa.mk (fun s => .ok (small s)) .s2s false false [] []).initVerify .s2s (Rfc8032.encode Rfc8032.B)).verify 64 (List.replicate 70 3) [] = .ok (b, m) ∧
    (b = true ↔ Rfc8032.Valid small (Rfc8032.encode Rfc8032.B) ((List.replicate 70 3).drop 64) ((List.replicate 70 3).take 64)) :=
  C88_verify_partial (.inr rfl) small_hash Rep.base.curve (by
    refine Rep.inj (S := 0) ?_ Rep.zero
    have := base_mul Rfc8032.L
    rwa [L_eq, order_ok rfl] at this) (by simp) (by simp) [] (by show ¬ Wraps (leVal (small [])); decide +kernel)

/-- C88_unique speaks of something: a signature followed by different messages -/
example : (codeSign small (List.replicate 32 1) (Rfc8032.publicKey small (List.replicate 32 1)) [1] ++ [1]).take 64 =
    (codeSign small (List.replicate 32 1) (Rfc8032.publicKey small (List.replicate 32 1)) [1] ++ [2]).take 64 :=
  C88_unique (accepts_own (H := small) _) (accepts_own _) (by rw [List.length_append, codeSign_len]; simp) (by rw [List.length_append, codeSign_len]; simp)
    (by rw [List.take_append_of_le_length (by rw [codeSign_len]; simp), List.take_append_of_le_length (by rw [codeSign_len]; simp)])

end Cex.Ed25519
