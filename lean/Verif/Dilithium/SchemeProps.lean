import Verif.Dilithium.GenProof
import Verif.Dilithium.ObjModel

/-!
# Properties C70 to C72: keys, signatures and verification in Dilithium

`P` is a permutation of the sponge's state that always succeeds with result `f`; the theorems hold for every one. `s` is the parameter set of the specification.
Each call has its own `fuel`: the outcome `.error .diverges` says that rejection sampling was still running after that many steps.
-/

namespace Cex.Dilithium
open Cex Cex.Lattice Cex.Spec.Dilithium Cex.Keccak Finset

variable {P : List Byte → M (List Byte)} {f : List Byte → List Byte}

/-- The parameter set of the specification for a value of `DilithiumParameters`. -/
def Par.level : Par → Parameters
  | .p2544 => level2
  | .p4016 => level3
  | .p4880 => level5

theorem Par.facts (q : Par) : Facts q.params q.level := by
  cases q
  · exact Same.facts .l2
  · exact Same.facts .l3
  · exact Same.facts .l5

theorem resize_length (v : List Byte) (n : Nat) : (resize v n).length = n := by
  rw [resize, List.length_append, List.length_take, List.length_replicate]
  omega

/-- The object was initialised last with a public key. -/
def Obj.Verifies (o : Obj) (q : Par) (pk : List Byte) : Prop := o.initialized = true ∧ o.signer = false ∧ o.par = some q ∧ ∃ k, o.publicKey = some k ∧ k.bytes = pk

/-- The object was initialised last with a private key. -/
def Obj.Signs (o : Obj) (q : Par) (sk : List Byte) : Prop := o.initialized = true ∧ o.signer = true ∧ o.par = some q ∧ ∃ k, o.privateKey = some k ∧ k.bytes = sk

theorem initialize_verifies (o : Obj) {k : Key} (h : k.isPublic = true) {q : Par} (hq : k.par = some q) : (o.initialize k).Verifies q k.bytes := by
  rw [Obj.initialize, if_pos h]
  exact ⟨rfl, rfl, hq, k, rfl, rfl⟩

theorem initialize_signs (o : Obj) {k : Key} (h : k.isPublic = false) {q : Par} (hq : k.par = some q) : (o.initialize k).Signs q k.bytes := by
  rw [Obj.initialize, if_neg (by rw [h]; simp)]
  exact ⟨rfl, rfl, hq, k, rfl, rfl⟩

theorem objVerify_eq {o : Obj} {q : Par} {pk : List Byte} (h : o.Verifies q pk) (fuel : Nat) {sig : List Byte} (hs : q.params.sigSize ≤ sig.length) (msg : List Byte) :
    o.verify P fuel sig msg = (do return some (← verify P q.params fuel (resize msg (sig.length - q.params.sigSize)) sig pk)) := by
  obtain ⟨h1, h2, h3, k, h4, rfl⟩ := h
  rw [Obj.verify, if_neg (by rw [h1]; simp), if_neg (by rw [h2]; simp), Obj.params, h3]
  simp only [pure_eq_ok, ok_bind]
  rw [if_neg (by omega), h4]

theorem objSign_eq {o : Obj} {q : Par} {sk : List Byte} (h : o.Signs q sk) (fuel : Nat) {msg : List Byte} (hm : msg ≠ []) (sig : List Byte) :
    o.sign P fuel msg sig = sign P q.params fuel (resize sig (q.params.sigSize + msg.length)) msg sk := by
  obtain ⟨h1, h2, h3, k, h4, rfl⟩ := h
  rw [Obj.sign, if_neg (by rw [h1]; simp), if_neg (by rw [h2]; simp), if_neg (fun e => hm (List.eq_nil_of_length_eq_zero e)), Obj.params, h3]
  simp only [pure_eq_ok, ok_bind]
  rw [h4]

theorem skSize_eq (q : Par) {sk : List Byte} (h : sk.length = q.params.skSize) : ∃ x, Reads q.level sk x := reads_any q.facts.std (by rw [h, q.facts.skSize])

/-! ## C70: keys, and messages signed with them -/

/-- **C70.** `Generate` on an object with a valid parameter set gives a public and a private key of that set with the documented lengths, or sampling goes on: nothing else happens.
The private key is `(ρ, K, tr, s₁, s₂, t₀)` with secrets in the range of the set, and the public key is the one that belongs to it. -/
theorem C70_keypair (p : Perm P f) {o : Obj} {q : Par} (ho : o.par = some q) (fuel : Nat) {seed : List Byte} (hs : seed.length = 32) :
    (∃ (pk sk : Key) (x : SecretKey), o.generate P fuel seed = .ok (pk, sk) ∧ pk.isPublic = true ∧ sk.isPublic = false ∧ pk.par = some q ∧ sk.par = some q ∧
      o.publicKeySize = .ok pk.bytes.length ∧ o.privateKeySize = .ok sk.bytes.length ∧ sk.bytes = x.bytes q.level ∧ x.Fits q.level ∧ IsPublic f q.level x pk.bytes) ∨
    o.generate P fuel seed = .error .diverges := by
  have hsz : ∀ x : SecretKey, x.Fits q.level → (x.bytes q.level).length = q.params.skSize := fun x hx => by
    rw [q.facts.skSize, SecretKey.bytes, encSk]
    simp only [List.length_append]
    rw [hx.ρ, hx.key, hx.tr, flatMap_length (L := 32 * etaBits q.level.eta) fun i _ => packBelow_length _ _ _, flatMap_length (L := 32 * etaBits q.level.eta) fun i _ => packBelow_length _ _ _,
      flatMap_length (L := 416) fun i _ => packBelow_length _ _ _]
  rcases generate_or p q.facts fuel (pk := List.replicate q.params.pkSize 0) (sk := List.replicate q.params.skSize 0) List.length_replicate List.length_replicate hs with
    ⟨x, pk', e, hx, hp, hl, _⟩ | ⟨e, _⟩
  · refine .inl ⟨⟨true, some q, pk'⟩, ⟨false, some q, x.bytes q.level⟩, x, ?_, rfl, rfl, rfl, rfl, ?_, ?_, rfl, hx, hp⟩
    · rw [Obj.generate, Obj.params, ho]
      simp only [pure_eq_ok, ok_bind]
      rw [e, ok_bind]
    · rw [Obj.publicKeySize, Obj.params, ho]
      simp only [pure_eq_ok, ok_bind]
      rw [hl]
    · rw [Obj.privateKeySize, Obj.params, ho]
      simp only [pure_eq_ok, ok_bind]
      rw [hsz x hx]
  · right
    rw [Obj.generate, Obj.params, ho]
    simp only [pure_eq_ok, ok_bind]
    rw [e]
    rfl

/-- What the specification asks of the keys for a seed: `(ρ, ρ', K) = H(seed)`, the secrets are sampled from `ρ'`, and the public key belongs to the private one. -/
def IsKeyPair (f : List Byte → List Byte) (s : Parameters) (seed : List Byte) (x : SecretKey) (pk : List Byte) : Prop :=
  x.Fits s ∧ IsPublic f s x pk ∧ ∃ ρ', ρ'.length = 32 ∧ Fips202.shake f 136 seed 96 = x.ρ ++ ρ' ++ x.key ∧
    (∀ i, i < s.L → IsSmall f s.eta ρ' i (tab (x.s1 i))) ∧ ∀ i, i < s.K → IsSmall f s.eta ρ' (s.L + i) (tab (x.s2 i))

/-- **C70, in part.** `Generate` gives the keys of the specification when the first blocks of each `SHAKE128` output have enough values for the secrets.
Missing: for other seeds the secrets are not those of the specification (`C69_secret_refuted`), although keys and signatures still fit together (`C70_roundtrip`). -/
theorem C70_generate_partial (p : Perm P f) {o : Obj} {q : Par} (ho : o.par = some q) {seed ρ ρ' key : List Byte} (hs : seed.length = 32) (hsplit : Fips202.shake f 136 seed 96 = ρ ++ ρ' ++ key)
    (hl : ρ.length = 32) (hl' : ρ'.length = 32) (he : ∀ i, i < q.level.L + q.level.K → Enough f q.params ρ' i) :
    (∀ fuel pk sk, o.generate P fuel seed = .ok (pk, sk) → ∃ x, sk.bytes = x.bytes q.level ∧ IsKeyPair f q.level seed x pk.bytes) ∧
    ((∃ a, IsMatrix f q.level.K q.level.L ρ a) → ∃ F, ∀ fuel, F ≤ fuel → ∃ r, o.generate P fuel seed = .ok r) := by
  constructor
  · intro fuel pk sk h
    rw [Obj.generate, Obj.params, ho] at h
    simp only [pure_eq_ok, ok_bind] at h
    rcases generate_or p q.facts fuel (pk := List.replicate q.params.pkSize 0) (sk := List.replicate q.params.skSize 0) List.length_replicate List.length_replicate hs with
      ⟨x, pk', e, hx, hp, _, ρ1, h1, l1, hs1, hs2⟩ | ⟨e, _⟩
    · rw [e, ok_bind] at h
      cases h
      have h1' := h1
      rw [hsplit, List.append_assoc, List.append_assoc] at h1'
      obtain ⟨_, h2⟩ := List.append_inj h1' (by rw [hl, hx.ρ])
      obtain ⟨rfl, _⟩ := List.append_inj h2 (by rw [hl', l1])
      exact ⟨x, rfl, hx, hp, ρ', l1, h1, fun i hi => hs1 i hi (he _ (by omega)), fun i hi => hs2 i hi (he _ (by omega))⟩
    · rw [e] at h
      cases h
  · rintro ⟨a, ha⟩
    obtain ⟨F, hF⟩ := generate_found p q.facts hs hsplit hl hl' ha he
    refine ⟨F, fun fuel h => ?_⟩
    obtain ⟨⟨pk, sk⟩, e⟩ := hF fuel h (List.replicate q.params.pkSize 0) (List.replicate q.params.skSize 0) List.length_replicate List.length_replicate
    refine ⟨(⟨true, some q, pk⟩, ⟨false, some q, sk⟩), ?_⟩
    rw [Obj.generate, Obj.params, ho]
    simp only [pure_eq_ok, ok_bind]
    rw [e, ok_bind]

/-- **C70.** Keys that `Generate` gave work together: whatever state the objects were in and whatever the buffers held, an object initialised with the private key signs every message that is not empty
(or sampling goes on), the result is the documented number of bytes followed by the message, and an object initialised with the public key accepts it and gives the message back. -/
theorem C70_roundtrip (p : Perm P f) {o : Obj} {q : Par} (ho : o.par = some q) {fuel : Nat} {seed : List Byte} (hs : seed.length = 32) {pk sk : Key} (hg : o.generate P fuel seed = .ok (pk, sk))
    (os ov : Obj) {msg : List Byte} (hm : msg ≠ []) (fuel' : Nat) (buf : List Byte) :
    (∃ sig, (os.initialize sk).sign P fuel' msg buf = .ok (sig ++ msg) ∧ (os.initialize sk).signatureSize = .ok sig.length ∧
      (∃ F, ∀ fuel'', F ≤ fuel'' → ∀ buf', (ov.initialize pk).verify P fuel'' (sig ++ msg) buf' = .ok (some (true, msg))) ∧
      ∀ fuel'' buf', (ov.initialize pk).verify P fuel'' (sig ++ msg) buf' = .ok (some (true, msg)) ∨ (ov.initialize pk).verify P fuel'' (sig ++ msg) buf' = .error .diverges) ∨
    (os.initialize sk).sign P fuel' msg buf = .error .diverges := by
  rcases C70_keypair p ho fuel hs with ⟨pk', sk', x, e, hp1, hp2, hq1, hq2, hlen, _, hsk, hx, hpub⟩ | e
  · rw [hg] at e
    cases e
    have hpk : pk.bytes.length = q.params.pkSize := by
      rw [Obj.publicKeySize, Obj.params, ho] at hlen
      simp only [pure_eq_ok, ok_bind] at hlen
      exact (Except.ok.inj hlen).symm
    have hS := initialize_signs os hp2 hq2
    have hV := initialize_verifies ov hp1 hq1
    have hr : Reads q.level sk.bytes x := by rw [hsk]; exact reads_bytes q.facts.std hx
    rw [objSign_eq hS fuel' hm buf]
    rcases sign_or p q.facts hr fuel' (buf := resize buf (q.params.sigSize + msg.length)) (msg := msg) (resize_length _ _) with ⟨sig, e, hl, hsig⟩ | e
    · left
      have hval := signature_valid p q.facts.std hx hpub (hsig hx.s2)
      have hsub : (sig ++ msg).length - q.params.sigSize = msg.length := by rw [List.length_append, hl]; omega
      have hge : q.params.sigSize ≤ (sig ++ msg).length := by rw [List.length_append, hl]; omega
      refine ⟨sig, e, ?_, ?_, fun fuel'' buf' => ?_⟩
      · rw [Obj.signatureSize, Obj.params, hS.2.2.1]
        simp only [pure_eq_ok, ok_bind]
        rw [hl]
      · obtain ⟨F, hF⟩ := verify_found p q.facts hpk hl hval
        refine ⟨F, fun fuel'' h buf' => ?_⟩
        rw [objVerify_eq hV fuel'' hge, hsub, hF fuel'' h _ (resize_length _ _)]
        rfl
      · rw [objVerify_eq hV fuel'' hge, hsub]
        rcases verify_or p q.facts fuel'' hpk hl (m := msg) (buf := resize buf' msg.length) (resize_length _ _) with ⟨e, _⟩ | ⟨_, hn⟩ | e
        · left; rw [e]; rfl
        · exact absurd hval hn
        · right; rw [e]; rfl
    · exact .inr e
  · rw [hg] at e
    cases e

/-! ## C71: verification -/

/-- **C71.** For every public key of the right length, every signature and every message, `Verify` returns true and the message if the signature is valid by the specification, and
returns false if it is not; or sampling goes on. After false, `Message` holds only its own old bytes and zeros. -/
theorem C71_verify (p : Perm P f) {o : Obj} {q : Par} {pk : List Byte} (h : o.Verifies q pk) (hpk : pk.length = q.params.pkSize) (fuel : Nat) {sg : List Byte} (hsg : sg.length = q.params.sigSize) (m buf : List Byte) :
    (o.verify P fuel (sg ++ m) buf = .ok (some (true, m)) ∧ Valid f q.level pk m sg) ∨
    (o.verify P fuel (sg ++ m) buf = .ok (some (false, resize buf m.length)) ∧ ¬ Valid f q.level pk m sg) ∨ o.verify P fuel (sg ++ m) buf = .error .diverges := by
  have hsub : (sg ++ m).length - q.params.sigSize = m.length := by rw [List.length_append, hsg]; omega
  have hge : q.params.sigSize ≤ (sg ++ m).length := by rw [List.length_append, hsg]; omega
  rw [objVerify_eq h fuel hge, hsub]
  rcases verify_or p q.facts fuel hpk hsg (m := m) (buf := resize buf m.length) (resize_length _ _) with ⟨e, hv⟩ | ⟨e, hv⟩ | e
  · rw [e]; exact .inl ⟨rfl, hv⟩
  · rw [e]; exact .inr (.inl ⟨rfl, hv⟩)
  · rw [e]; exact .inr (.inr rfl)

/-- **C71.** A valid signature is accepted: verification ends. -/
theorem C71_accepts (p : Perm P f) {o : Obj} {q : Par} {pk : List Byte} (h : o.Verifies q pk) (hpk : pk.length = q.params.pkSize) {sg m : List Byte} (hsg : sg.length = q.params.sigSize)
    (hv : Valid f q.level pk m sg) : ∃ F, ∀ fuel, F ≤ fuel → ∀ buf, o.verify P fuel (sg ++ m) buf = .ok (some (true, m)) := by
  have hsub : (sg ++ m).length - q.params.sigSize = m.length := by rw [List.length_append, hsg]; omega
  have hge : q.params.sigSize ≤ (sg ++ m).length := by rw [List.length_append, hsg]; omega
  obtain ⟨F, hF⟩ := verify_found p q.facts hpk hsg hv
  refine ⟨F, fun fuel hf buf => ?_⟩
  rw [objVerify_eq h fuel hge, hsub, hF fuel hf _ (resize_length _ _)]
  rfl

/-- **C71.** A signature that is too short is not answered with false: `Verify` leaves with `std::length_error` before it looks at the length. -/
theorem C71_short {o : Obj} {q : Par} {pk : List Byte} (h : o.Verifies q pk) (fuel : Nat) {sig : List Byte} (hs : sig.length < q.params.sigSize) (buf : List Byte) : o.verify P fuel sig buf = .ok none := by
  obtain ⟨h1, h2, h3, k, h4, rfl⟩ := h
  rw [Obj.verify, if_neg (by rw [h1]; simp), if_neg (by rw [h2]; simp), Obj.params, h3]
  simp only [pure_eq_ok, ok_bind]
  rw [if_pos hs]

/-- **C71, refuted.** `Verify` does not answer every byte string with true or false: the empty signature makes it leave with an exception of the standard library. -/
theorem C71_short_refuted : ¬ ∀ (P : List Byte → M (List Byte)) (o : Obj) (q : Par) (pk : List Byte), o.Verifies q pk → pk.length = q.params.pkSize → ∀ (fuel : Nat) (sig buf : List Byte),
    (∃ r, o.verify P fuel sig buf = .ok (some r)) ∨ o.verify P fuel sig buf = .error .diverges := by
  intro hall
  have hV := initialize_verifies (Obj.new .p2544) (k := ⟨true, some .p2544, List.replicate 1312 0⟩) rfl rfl
  have h := C71_short (P := fun x => .ok x) hV 0 (sig := []) (by decide) []
  rcases hall (fun x => .ok x) _ _ _ hV List.length_replicate 0 [] [] with ⟨r, e⟩ | e <;> rw [h] at e <;> cases e

/-! ## C72: signing -/

/-- **C72.** For every private key of the right length, whatever its bytes, and every message that is not empty, `Sign` gives the documented number of bytes followed by the message, or goes on. If the second
secret vector is in the range of the parameter set, the bytes are those of the specification: the first attempt that passes its four tests. -/
theorem C72_sign (p : Perm P f) {o : Obj} {q : Par} {sk : List Byte} (h : o.Signs q sk) {x : SecretKey} (hx : Reads q.level sk x) (fuel : Nat) {msg : List Byte} (hm : msg ≠ []) (buf : List Byte) :
    (∃ sig, o.sign P fuel msg buf = .ok (sig ++ msg) ∧ sig.length = q.params.sigSize ∧ (Between q.level.K (-q.level.eta) q.level.eta x.s2 → IsSignature f q.level x msg sig)) ∨
    o.sign P fuel msg buf = .error .diverges := by
  rw [objSign_eq h fuel hm buf]
  exact sign_or p q.facts hx fuel (resize_length _ _)

/-- **C72.** If the specification gives a signature, `Sign` finds it, whatever the buffer held. -/
theorem C72_sign_found (p : Perm P f) {o : Obj} {q : Par} {sk : List Byte} (h : o.Signs q sk) {x : SecretKey} (hx : Reads q.level sk x) (hs : Between q.level.K (-q.level.eta) q.level.eta x.s2) {msg sig : List Byte}
    (hm : msg ≠ []) (hi : IsSignature f q.level x msg sig) : ∃ F, ∀ fuel, F ≤ fuel → ∀ buf, o.sign P fuel msg buf = .ok (sig ++ msg) := by
  obtain ⟨F, hF⟩ := sign_found p q.facts hx hs hi
  exact ⟨F, fun fuel hf buf => by rw [objSign_eq h fuel hm buf]; exact hF fuel hf _ (resize_length _ _)⟩

/-- **C72.** The specification gives one signature for a key and a message, and so does `Sign`: two runs that end agree, on any objects with that key. -/
theorem C72_deterministic (p : Perm P f) {o o' : Obj} {q : Par} {sk : List Byte} (h : o.Signs q sk) (h' : o'.Signs q sk) {x : SecretKey} (hx : Reads q.level sk x) (hs : Between q.level.K (-q.level.eta) q.level.eta x.s2)
    {msg out out' : List Byte} (hm : msg ≠ []) {fuel fuel' : Nat} {buf buf' : List Byte} (h1 : o.sign P fuel msg buf = .ok out) (h2 : o'.sign P fuel' msg buf' = .ok out') : out = out' := by
  rcases C72_sign p h hx fuel hm buf with ⟨sig, e, _, hi⟩ | e
  · rw [h1] at e
    cases e
    rcases C72_sign p h' hx fuel' hm buf' with ⟨sig', e, _, hi'⟩ | e
    · rw [h2] at e
      cases e
      obtain ⟨F, hF⟩ := C72_sign_found p h hx hs hm (hi hs)
      obtain ⟨F', hF'⟩ := C72_sign_found p h hx hs hm (hi' hs)
      exact Except.ok.inj ((hF (F + F') (by omega) []).symm.trans (hF' (F + F') (by omega) []))
    · rw [h2] at e
      cases e
  · rw [h1] at e
    cases e

/-- The object after a sequence of calls. -/
def Obj.run (o : Obj) (cs : List Call) : Obj := cs.foldl Obj.after o

/-- The keys passed to `Initialize` have the length that their parameters ask for. -/
def Call.Sized : Call → Prop
  | .init k => ∀ q, k.par = some q → k.bytes.length = if k.isPublic then q.params.pkSize else q.params.skSize
  | _ => True

/-- Between calls: an object in use has the key its role needs. -/
def Obj.Inv (o : Obj) : Prop := o.initialized = true → ∃ k : Key, o.par = k.par ∧ (∀ q, k.par = some q → k.bytes.length = if k.isPublic then q.params.pkSize else q.params.skSize) ∧
  (if o.signer then o.privateKey = some k ∧ k.isPublic = false else o.publicKey = some k ∧ k.isPublic = true)

theorem run_inv (q : Par) : ∀ cs : List Call, (∀ c ∈ cs, c.Sized) → ((Obj.new q).run cs).Inv := by
  suffices h : ∀ (cs : List Call) (o : Obj), o.Inv → (∀ c ∈ cs, c.Sized) → (o.run cs).Inv from fun cs hc => h cs _ (fun h => by simp [Obj.new] at h) hc
  intro cs
  induction cs with
  | nil => intro o ho _; exact ho
  | cons c t ih =>
    intro o ho hc
    rw [Obj.run, List.foldl_cons]
    refine ih _ ?_ fun c hc' => hc c (List.mem_cons_of_mem _ hc')
    cases c with
    | init k =>
      have hk := hc _ List.mem_cons_self
      rw [Obj.after, Obj.initialize]
      by_cases hp : k.isPublic = true
      · rw [if_pos hp]
        exact fun _ => ⟨k, rfl, hk, by rw [if_neg (by simp)]; exact ⟨rfl, hp⟩⟩
      · rw [if_neg hp]
        exact fun _ => ⟨k, rfl, hk, by rw [if_pos rfl]; exact ⟨rfl, by simpa using hp⟩⟩
    | generate => exact ho
    | sign => exact ho
    | verify => exact ho

/-- **C72.** An object never runs into undefined behaviour: after any sequence of calls on a new object, with keys of the lengths that their parameters ask for, `Sign` and `Verify` give a result, leave with
one of the documented errors, leave with `std::length_error` (a short signature) or go on; messages, signatures and buffers are arbitrary. -/
theorem C72_safe (p : Perm P f) (q : Par) {cs : List Call} (hc : ∀ c ∈ cs, c.Sized) (fuel : Nat) (a b : List Byte) :
    ((Obj.new q).run cs).sign P fuel a b ≠ .error .ub ∧ ((Obj.new q).run cs).verify P fuel a b ≠ .error .ub := by
  have hi := run_inv q cs hc
  generalize (Obj.new q).run cs = o at hi
  by_cases h0 : o.initialized = true
  · obtain ⟨k, hp, hl, hk⟩ := hi h0
    cases hpar : k.par with
    | none =>
      rw [hpar] at hp
      constructor
      · rw [Obj.sign, if_neg (by rw [h0]; simp), Obj.params, hp]
        split
        · simp
        · split <;> simp [bind, Except.bind]
      · rw [Obj.verify, if_neg (by rw [h0]; simp), Obj.params, hp]
        split <;> simp [bind, Except.bind]
    | some r =>
      rw [hpar] at hp
      have hlen := hl r hpar
      by_cases hs : o.signer = true
      · rw [if_pos hs] at hk
        rw [hk.2, if_neg (by simp)] at hlen
        refine ⟨?_, by rw [Obj.verify, if_neg (by rw [h0]; simp), if_pos hs]; simp⟩
        by_cases hm : a = []
        · subst hm
          rw [Obj.sign, if_neg (by rw [h0]; simp), if_neg (by rw [hs]; simp), if_pos List.length_nil]
          simp
        · have hS : o.Signs r k.bytes := ⟨h0, hs, hp, k, hk.1, rfl⟩
          obtain ⟨x, hx⟩ := skSize_eq r hlen
          rcases C72_sign p hS hx fuel hm b with ⟨sig, e, _⟩ | e <;> rw [e] <;> simp
      · rw [if_neg hs] at hk
        rw [hk.2, if_pos rfl] at hlen
        refine ⟨by rw [Obj.sign, if_neg (by rw [h0]; simp), if_pos (by simpa using hs)]; simp, ?_⟩
        have hV : o.Verifies r k.bytes := ⟨h0, by simpa using hs, hp, k, hk.1, rfl⟩
        by_cases hn : a.length < r.params.sigSize
        · rw [C71_short hV fuel hn]; simp
        · have e : a = a.take r.params.sigSize ++ a.drop r.params.sigSize := (List.take_append_drop _ _).symm
          rw [e]
          rcases C71_verify p hV hlen fuel (sg := a.take r.params.sigSize) (by rw [List.length_take]; omega) (a.drop r.params.sigSize) b with ⟨e, _⟩ | ⟨e, _⟩ | e <;> rw [e] <;> simp
  · constructor
    · rw [Obj.sign, if_pos (by simpa using h0)]; simp
    · rw [Obj.verify, if_pos (by simpa using h0)]; simp

/-- **C72.** The errors: no key, the other role, an empty message, unknown parameters. -/
theorem C72_errors (o : Obj) (fuel : Nat) (a b : List Byte) :
    (o.initialized = false → o.sign P fuel a b = .error (.throws .illegalOperation) ∧ o.verify P fuel a b = .error (.throws .illegalOperation)) ∧
    (o.initialized = true → (o.signer = false → o.sign P fuel a b = .error (.throws .notInitialized)) ∧ (o.signer = true → o.verify P fuel a b = .error (.throws .notInitialized)) ∧
      (o.signer = true → o.sign P fuel [] b = .error (.throws .invalidParam)) ∧
      (o.par = none → (o.signer = true → o.sign P fuel a b = .error (.throws .invalidParam)) ∧ (o.signer = false → o.verify P fuel a b = .error (.throws .invalidParam)))) := by
  refine ⟨fun h => ⟨by rw [Obj.sign, h]; rfl, by rw [Obj.verify, h]; rfl⟩, fun h => ⟨fun h1 => by rw [Obj.sign, h, h1]; rfl, fun h1 => by rw [Obj.verify, h, h1]; rfl, fun h1 => by rw [Obj.sign, h, h1]; rfl,
    fun hp => ⟨fun h1 => ?_, fun h1 => ?_⟩⟩⟩
  · rw [Obj.sign, h, h1, Obj.params, hp]
    simp [bind, Except.bind]
  · rw [Obj.verify, h, h1, Obj.params, hp]
    simp [bind, Except.bind]

/-- **C72.** An object reports that it is `SphincsPlus`. -/
theorem C72_enumeral_refuted : ¬ ∀ o : Obj, o.enumeral = "Dilithium" := fun h => by
  have := h (Obj.new .p2544)
  simp [Obj.enumeral] at this

end Cex.Dilithium
