import Verif.Kyber.KemRound
import Verif.Kyber.SampleProps

/-!
# C61: Kyber is the mechanism of the specification, and what is encapsulated is decapsulated

`Samples` says what the code samples for the matrix; it is the matrix of the specification (`IsMatrix`) when 534 bytes of the stream hold all coefficients (C60). The round trip needs `Samples` only:
both sides then use the same matrix.
-/

namespace Cex.Kyber
open Cex Cex.Lattice Cex.Spec.Lattice Cex.Spec.Kyber

variable {P : List Byte → M (List Byte)} {f : List Byte → List Byte}

/-- Every entry of the matrix is complete after 534 bytes of its stream. -/
def Enough (f : List Byte → List Byte) (K : Nat) (ρ : List Byte) : Prop :=
  ∀ x y, x < K → y < K → 256 ≤ (accepted (Fips202.shake f 168 (ρ ++ [BitVec.ofNat 8 x, BitVec.ofNat 8 y]) 534)).length

theorem samples_of_matrix (p : Keccak.Perm P f) {K : Nat} {ρ : List Byte} (he : Enough f K ρ) (fuel : Nat) {A : Nat → Nat → Nat → F} (hA : IsMatrix f K ρ A) : Samples f (fuel + 1) K ρ A := by
  intro i j hi hj
  obtain ⟨cs, h1, h2⟩ := hA i j hi hj
  have h3 : Parses f ρ j i ((accepted (Fips202.shake f 168 (ρ ++ [BitVec.ofNat 8 j, BitVec.ofNat 8 i]) 534)).take 256) :=
    ⟨178, by rw [List.length_take]; have := he j i hj hi; omega, rfl⟩
  rw [C60_parse_unique p h1 h3] at h2
  exact ⟨_, uniform_32 p fuel (he j i hj hi), h2⟩

theorem matrix_of_values {K : Nat} {U : Nat → Nat → List Nat} (hU : ∀ x y, x < K → y < K → (U x y).length = 256) :
    ∃ A : Nat → Nat → Nat → F, ∀ i j, i < K → j < K → ∀ (n c : Nat), (U j i)[n]? = some c → Spec.Kyber.ntt (A i j) n = (c : F) := by
  choose A hA using fun i j => ntt_surj (fun n => (((U j i)[n]?.elim 0 id : Nat) : F))
  refine ⟨A, fun i j hi hj n c hc => ?_⟩
  have hn : n < 256 := by
    have := (List.getElem?_eq_some_iff.mp hc).1
    rw [hU j i hj hi] at this
    exact this
  rw [hA i j n hn, hc]
  rfl

/-- There is a matrix whenever 534 bytes suffice. -/
theorem matrix_exists {K : Nat} {ρ : List Byte} (he : Enough f K ρ) : ∃ A, IsMatrix f K ρ A := by
  have hl : ∀ x y, x < K → y < K → ((accepted (Fips202.shake f 168 (ρ ++ [BitVec.ofNat 8 x, BitVec.ofNat 8 y]) 534)).take 256).length = 256 := fun x y hx hy => by
    rw [List.length_take]; have := he x y hx hy; omega
  obtain ⟨A, hA⟩ := matrix_of_values hl
  exact ⟨A, fun i j hi hj => ⟨_, ⟨178, hl j i hj hi, rfl⟩, hA i j hi hj⟩⟩

/-! ## The keys -/

/-- **C61** (keys): `Generate` returns the keys of the specification for the two draws from the generator. -/
theorem C61_generate_partial (p : Keccak.Perm P f) (o : Obj) (ho : o.par ∈ sets) (fuel : Nat) {d z : List Byte} (hd : d.length = 32) (hz : z.length = 32) (he : Enough f o.par.K ((G f d).take 32))
    {A : Nat → Nat → Nat → F} (hA : IsMatrix f o.par.K ((G f d).take 32) A) :
    o.generate P (fuel + 1) d z = .ok (⟨true, o.par, publicKey f o.par.K o.par.eta1 A d⟩, ⟨false, o.par, privateKey f o.par.K o.par.eta1 A d z⟩) := by
  have h := generate_spec p ho (fuel := fuel + 1) (pk := List.replicate o.par.pkSize 0) (sk := List.replicate o.par.skSize 0) hd hz List.length_replicate List.length_replicate (samples_of_matrix p he fuel hA)
  rw [Obj.generate, h, ok_bind]
  rfl

/-- **C61** (encapsulation): for a public key `w ++ ρ`, where `w` encodes `t`, and the draw `d`, the ciphertext encrypts `H(d)` with the second half of `G(H(d) ‖ H(pk))`, and the secret is
`KDF(K̄ ‖ H(c))` with `K̄` the first half. -/
theorem C61_encapsulate_partial (p : Keccak.Perm P f) (o : Obj) (ho : o.par ∈ sets) (hdom : o.domainKey = []) (fuel : Nat) {w ρ : List Byte} {par : Par} (hk : o.publicKey = some ⟨true, par, w ++ ρ⟩)
    (hw : w.length = 384 * o.par.K) (hρ : ρ.length = 32) {d : List Byte} (hd : d.length = 32) (he : Enough f o.par.K ρ)
    {A : Nat → Nat → Nat → F} (hA : IsMatrix f o.par.K ρ A) {t : Nat → Nat → F} (ht : DecodesTo o.par.K w t) :
    let g := G f (H f d ++ H f (w ++ ρ))
    let c := encrypt f o.par.K o.par.eta1 A t (H f d) (g.drop 32)
    o.encapsulate P (fuel + 1) d = .ok (c, KDF f (g.take 32 ++ H f c) 32) := by
  intro g c
  have h := encapsulate_spec p ho (fuel := fuel + 1) (pkrest := []) (ct := List.replicate o.par.ctSize 0) (ss := List.replicate 32 0) hw hρ (by decide) hd
    (by rw [List.length_replicate, (set_K ho).2.2.2.2.2.2]) (samples_of_matrix p he fuel hA) ht
  simp only [List.append_nil, List.length_replicate] at h
  rw [Obj.encapsulate, hk]
  show (do let (ct, sec) ← Kyber.encapsulate P (fuel + 1) o.par (w ++ ρ) (List.replicate o.par.ctSize 0) (List.replicate 32 0) d; return (ct, ← o.output sec)) = _
  rw [h, ok_bind]
  show (do return (c, ← o.output _)) = _
  rw [Obj.output, hdom, if_neg (by decide)]
  rfl

/-- What `Decapsulate` does, with whatever matrix the code samples. -/
theorem decapsulate_obj (p : Keccak.Perm P f) (o : Obj) (ho : o.par ∈ sets) (hdom : o.domainKey = []) (fuel : Nat) {w w' ρ h z : List Byte} {par : Par}
    (hk : o.privateKey = some ⟨false, par, w ++ (w' ++ ρ ++ (h ++ z))⟩) (hw : w.length = 384 * o.par.K) (hw' : w'.length = 384 * o.par.K) (hρ : ρ.length = 32) (hh : h.length = 32) (hz : z.length = 32)
    {c tail : List Byte} (hc : c.length = cipherLen o.par.K) (htl : tail.length < 2 ^ 63) (ss : List Byte)
    {A : Nat → Nat → Nat → F} (hA : Samples f fuel o.par.K ρ A) {s t : Nat → Nat → F} (hs : DecodesTo o.par.K w s) (ht : DecodesTo o.par.K w' t) :
    let m := decrypt o.par.K s c
    let g := G f (m ++ h)
    (c = encrypt f o.par.K o.par.eta1 A t m (g.drop 32) ∧ tail = List.replicate tail.length 0 → o.decapsulate P fuel (c ++ tail) ss = .ok (true, KDF f (g.take 32 ++ H f (c ++ tail)) 32)) ∧
    (¬ (c = encrypt f o.par.K o.par.eta1 A t m (g.drop 32) ∧ tail = List.replicate tail.length 0) → o.decapsulate P fuel (c ++ tail) ss = .ok (false, ss)) := by
  intro m g
  obtain ⟨b, out, h1, h2, h3⟩ := decapsulate_spec p ho (fuel := fuel) (ss := List.replicate 32 0) hw hw' hρ hh hz hc htl hA hs ht
  simp only [List.length_replicate] at h3
  have key : o.decapsulate P fuel (c ++ tail) ss = if b then .ok (true, out) else .ok (false, ss) := by
    rw [Obj.decapsulate, hk]
    show (do let (res, sec) ← Kyber.decapsulate P fuel o.par (w ++ (w' ++ ρ ++ (h ++ z))) (c ++ tail) (List.replicate 32 0)
             if res then return (true, ← o.output sec) else return (false, ss)) = _
    rw [h1, ok_bind]
    have hout : o.output out = .ok out := by rw [Obj.output, hdom, if_neg (by decide)]; rfl
    cases b
    · rfl
    · show (do return (true, ← o.output out)) = _
      rw [hout]
      rfl
  rw [key]
  constructor
  · intro hb
    have hb := h2.mpr hb
    rw [hb, if_pos rfl, h3 hb]
  · intro hb
    cases b
    · rfl
    · exact absurd (h2.mp rfl) hb

/-- **C61** (decapsulation): for a private key of the layout of the specification and a ciphertext of its length, `Decapsulate` returns true exactly when the ciphertext is the encryption of its own
decryption under the coins derived from it; it then returns `KDF(K̄ ‖ H(c))`, and otherwise leaves the caller's secret as it was. -/
theorem C61_decapsulate_partial (p : Keccak.Perm P f) (o : Obj) (ho : o.par ∈ sets) (hdom : o.domainKey = []) (fuel : Nat) {w w' ρ h z : List Byte} {par : Par}
    (hk : o.privateKey = some ⟨false, par, w ++ (w' ++ ρ ++ (h ++ z))⟩) (hw : w.length = 384 * o.par.K) (hw' : w'.length = 384 * o.par.K) (hρ : ρ.length = 32) (hh : h.length = 32) (hz : z.length = 32)
    {c : List Byte} (hc : c.length = cipherLen o.par.K) (ss : List Byte) (he : Enough f o.par.K ρ) {A : Nat → Nat → Nat → F} (hA : IsMatrix f o.par.K ρ A)
    {s t : Nat → Nat → F} (hs : DecodesTo o.par.K w s) (ht : DecodesTo o.par.K w' t) :
    let m := decrypt o.par.K s c
    let g := G f (m ++ h)
    (c = encrypt f o.par.K o.par.eta1 A t m (g.drop 32) → o.decapsulate P (fuel + 1) c ss = .ok (true, KDF f (g.take 32 ++ H f c) 32)) ∧
    (c ≠ encrypt f o.par.K o.par.eta1 A t m (g.drop 32) → o.decapsulate P (fuel + 1) c ss = .ok (false, ss)) := by
  have := decapsulate_obj p o ho hdom (fuel + 1) hk hw hw' hρ hh hz (tail := []) hc (by decide) ss (samples_of_matrix p he fuel hA) hs ht
  simp only [List.append_nil, List.length_nil, List.replicate_zero, and_true] at this
  exact this

/-! ## The round trip -/

/-- The keys, the ciphertext and what happens to it, for whatever matrix the code samples. -/
theorem roundtrip (p : Keccak.Perm P f) (o alice bob : Obj) (ho : o.par ∈ sets) (hda : alice.domainKey = []) (hdb : bob.domainKey = []) (fuel : Nat) {d z r : List Byte}
    (hd : d.length = 32) (hz : z.length = 32) (hr : r.length = 32) {A : Nat → Nat → Nat → F} (hA : Samples f fuel o.par.K ((G f d).take 32) A)
    (hn : NoFailure f o.par.K o.par.eta1 A ((G f d).drop 32) (H f r) ((G f (H f r ++ H f (publicKey f o.par.K o.par.eta1 A d))).drop 32)) :
    ∃ pk sk ct, o.generate P fuel d z = .ok (pk, sk) ∧ ct.length = cipherLen o.par.K ∧
      (let g := G f (H f r ++ H f pk.bytes);
        (bob.initialize pk).encapsulate P fuel r = .ok (ct, KDF f (g.take 32 ++ H f ct) 32) ∧
        ∀ n < 2 ^ 63, ∀ ss, (alice.initialize sk).decapsulate P fuel (ct ++ List.replicate n 0) ss = .ok (true, KDF f (g.take 32 ++ H f (ct ++ List.replicate n 0)) 32)) := by
  obtain ⟨hK0, hK5, _, _, _, _, hcs⟩ := set_K ho
  have hGl := G_length p d
  have h1 := generate_spec p ho (fuel := fuel) (pk := List.replicate o.par.pkSize 0) (sk := List.replicate o.par.skSize 0) hd hz List.length_replicate List.length_replicate hA
  let s := noiseVec f o.par.eta1 ((G f d).drop 32) 0
  let t := publicVec o.par.K A s (noiseVec f o.par.eta1 ((G f d).drop 32) o.par.K)
  let PK := publicKey f o.par.K o.par.eta1 A d
  let SK := privateKey f o.par.K o.par.eta1 A d z
  have hρ : ((G f d).take 32).length = 32 := by rw [List.length_take, hGl]; rfl
  have h2 := encapsulate_spec p ho (fuel := fuel) (pkrest := []) (ct := List.replicate o.par.ctSize 0) (ss := List.replicate 32 0) (d := r) (encodeVec_length o.par.K t) hρ (by decide) hr
    (by rw [List.length_replicate, hcs]) hA (decodesTo_encode o.par.K t)
  simp only [List.append_nil, List.length_replicate] at h2
  refine ⟨⟨true, o.par, PK⟩, ⟨false, o.par, SK⟩, encrypt f o.par.K o.par.eta1 A t (H f r) ((G f (H f r ++ H f PK)).drop 32), ?_, cipherBytes_length _ _ _, ?_, ?_⟩
  · rw [Obj.generate, h1, ok_bind]; rfl
  · show (do let (ct, sec) ← Kyber.encapsulate P fuel o.par PK (List.replicate o.par.ctSize 0) (List.replicate 32 0) r; return (ct, ← Obj.output (bob.initialize ⟨true, o.par, PK⟩) sec)) = _
    have h2' : Kyber.encapsulate P fuel o.par PK (List.replicate o.par.ctSize 0) (List.replicate 32 0) r = _ := h2
    rw [h2', ok_bind]
    show (do return (_, ← Obj.output (bob.initialize ⟨true, o.par, PK⟩) _)) = _
    rw [Obj.output, show (bob.initialize ⟨true, o.par, PK⟩).domainKey = [] from hdb, if_neg (by decide)]
    rfl
  · intro n hn63 ss
    have hm : decrypt o.par.K s (encrypt f o.par.K o.par.eta1 A t (H f r) ((G f (H f r ++ H f PK)).drop 32)) = H f r := decrypt_encrypt (H_length p _) hn
    have hda' : (alice.initialize ⟨false, o.par, SK⟩).domainKey = [] := hda
    have h3 := decapsulate_obj p (alice.initialize ⟨false, o.par, SK⟩) ho hda' fuel (w := encodeVec o.par.K s) (w' := encodeVec o.par.K t) (ρ := (G f d).take 32) (h := H f PK) (z := z) (par := o.par)
      (by show some (Key.mk false o.par SK) = _; rw [← List.append_assoc, ← List.append_assoc]; rfl) (encodeVec_length _ _) (encodeVec_length _ _) hρ (H_length p _) hz
      (c := encrypt f o.par.K o.par.eta1 A t (H f r) ((G f (H f r ++ H f PK)).drop 32)) (tail := List.replicate n 0) (cipherBytes_length _ _ _) (by rw [List.length_replicate]; exact hn63) ss hA
      (decodesTo_encode _ _) (decodesTo_encode _ _)
    have h4 := h3.1
    have hpar : (alice.initialize ⟨false, o.par, SK⟩).par = o.par := rfl
    rw [hpar, hm] at h4
    exact h4 ⟨rfl, by rw [List.length_replicate]⟩

/-- **C61** (the round trip): two objects without a domain key, keyed with the two halves of a generated pair, end with the same secret of 32 bytes — for every parameter set and every draw for which
sampling ends and decryption does not fail, even where the matrix is not the one of the specification (C60). -/
theorem C61_roundtrip (p : Keccak.Perm P f) (o alice bob : Obj) (ho : o.par ∈ sets) (hda : alice.domainKey = []) (hdb : bob.domainKey = []) (fuel : Nat) {d z r : List Byte}
    (hd : d.length = 32) (hz : z.length = 32) (hr : r.length = 32) {A : Nat → Nat → Nat → F} (hA : Samples f fuel o.par.K ((G f d).take 32) A)
    (hn : NoFailure f o.par.K o.par.eta1 A ((G f d).drop 32) (H f r) ((G f (H f r ++ H f (publicKey f o.par.K o.par.eta1 A d))).drop 32)) :
    ∃ pk sk ct secret, o.generate P fuel d z = .ok (pk, sk) ∧ (bob.initialize pk).encapsulate P fuel r = .ok (ct, secret) ∧ secret.length = 32 ∧
      ∀ ss, (alice.initialize sk).decapsulate P fuel ct ss = .ok (true, secret) := by
  obtain ⟨pk, sk, ct, h1, _, h2, h3⟩ := roundtrip p o alice bob ho hda hdb fuel hd hz hr hA hn
  refine ⟨pk, sk, ct, _, h1, h2, shake_length p (r := 136) (by decide) (by decide) _, fun ss => ?_⟩
  have := h3 0 (by decide) ss
  rw [List.replicate_zero, List.append_nil] at this
  exact this

/-- **C61** (violation, length): `Decapsulate` takes a ciphertext that no encapsulation makes: an honest one with any number of zero bytes behind it, and returns a secret computed from the whole. -/
theorem C61_appended (p : Keccak.Perm P f) (o alice bob : Obj) (ho : o.par ∈ sets) (hda : alice.domainKey = []) (hdb : bob.domainKey = []) (fuel : Nat) {d z r : List Byte}
    (hd : d.length = 32) (hz : z.length = 32) (hr : r.length = 32) {A : Nat → Nat → Nat → F} (hA : Samples f fuel o.par.K ((G f d).take 32) A)
    (hn : NoFailure f o.par.K o.par.eta1 A ((G f d).drop 32) (H f r) ((G f (H f r ++ H f (publicKey f o.par.K o.par.eta1 A d))).drop 32)) {n : Nat} (h63 : n < 2 ^ 63) :
    ∃ pk sk ct key, o.generate P fuel d z = .ok (pk, sk) ∧ key.length = 32 ∧ (bob.initialize pk).encapsulate P fuel r = .ok (ct, KDF f (key ++ H f ct) 32) ∧
      ∀ ss, (alice.initialize sk).decapsulate P fuel (ct ++ List.replicate n 0) ss = .ok (true, KDF f (key ++ H f (ct ++ List.replicate n 0)) 32) := by
  obtain ⟨pk, sk, ct, h1, _, h2, h3⟩ := roundtrip p o alice bob ho hda hdb fuel hd hz hr hA hn
  exact ⟨pk, sk, ct, _, h1, by rw [List.length_take, G_length p]; rfl, h2, h3 n h63⟩

/-- **C61** (rejection): when `Decapsulate` returns false the caller's secret is what it was, whatever key, ciphertext and object. -/
theorem C61_reject (o : Obj) (fuel : Nat) {ct ss ss' : List Byte} (h : o.decapsulate P fuel ct ss = .ok (false, ss')) : ss' = ss := by
  rw [Obj.decapsulate] at h
  split at h
  · cases h
  · obtain ⟨⟨b, sec⟩, _, h⟩ := bind_ok h
    cases b
    · injection h with h
      exact (Prod.mk.inj h).2.symm
    · obtain ⟨x, _, h⟩ := bind_ok h
      injection h with h
      exact Bool.noConfusion (Prod.mk.inj h).1

/-- **C61** (violation, domain key): an object with a domain key never returns a secret. -/
theorem C61_domain_refuted (o : Obj) (hdom : o.domainKey ≠ []) (fuel : Nat) :
    (∀ d r, o.encapsulate P fuel d ≠ .ok r) ∧ ∀ ct ss ss', o.decapsulate P fuel ct ss ≠ .ok (true, ss') := by
  have hout : ∀ sec, o.output sec = .error .ub := fun sec => by rw [Obj.output, if_pos (fun h => hdom (List.length_eq_zero_iff.mp h))]
  constructor
  · intro d r h
    rw [Obj.encapsulate] at h
    split at h
    · cases h
    · obtain ⟨⟨ct, sec⟩, _, h⟩ := bind_ok h
      obtain ⟨x, hx, _⟩ := bind_ok h
      rw [hout] at hx
      cases hx
  · intro ct ss ss' h
    rw [Obj.decapsulate] at h
    split at h
    · cases h
    · obtain ⟨⟨b, sec⟩, _, h⟩ := bind_ok h
      cases b
      · injection h with h
        exact Bool.noConfusion (Prod.mk.inj h).1
      · obtain ⟨x, hx, _⟩ := bind_ok h
        rw [hout] at hx
        cases hx

/-- **C61** (violation, empty ciphertext): the length of the ciphertext is not checked; an empty one is read past its end. -/
theorem C61_empty_refuted (o : Obj) (ho : o.par ∈ sets) {k : Key} (hk : o.privateKey = some k) (hl : k.bytes.length = o.par.skSize) (fuel : Nat) (ss : List Byte) :
    o.decapsulate P fuel [] ss = .error .ub := by
  obtain ⟨hK0, hK5, _, _, _, e2, _⟩ := set_K ho
  rw [e2] at hl
  have h1 : ∀ q ∈ [2, 3, 4, 5], polyVecDecompress (vec0 q) [] = .error .ub := by decide +kernel
  have h2 := h1 o.par.K (set_K ho).2.2.1
  have h3 : copy k.bytes (o.par.K * 384) (List.replicate (k.bytes.length - o.par.K * 384) 0) 0 (k.bytes.length - o.par.K * 384) = .ok (k.bytes.drop (o.par.K * 384)) :=
    copy_whole ⟨k.bytes.take (o.par.K * 384), [], by simp, by rw [List.length_take]; omega⟩ (by rw [List.length_drop]) (by rw [List.length_replicate, List.length_drop])
  rw [Obj.decapsulate, hk]
  show (do let (res, sec) ← Kyber.decapsulate P fuel o.par k.bytes [] (List.replicate 32 0)
           if res then return (true, ← o.output sec) else return (false, ss)) = _
  rw [decapsulate, if_neg (by omega), h3, ok_bind, dec, unpackCiphertext, h2]
  rfl

end Cex.Kyber
