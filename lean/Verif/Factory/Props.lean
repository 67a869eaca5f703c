import Verif.Factory.Model

/-!
# C100 The factories make what is asked for

The tables below say what each name means; they are written from the names, not from the code. An enumeration value is any number below 256.
-/

namespace Cex.Factory

/-! ## Block ciphers and key derivation functions -/

/-- The base cipher and the key schedule that a name of a block cipher stands for. -/
def blockSpec : List (Nat × Block) :=
  [(1, .rhx none), (2, .shx none), (39, .rhx (some (.hkdf 5))), (40, .rhx (some (.hkdf 6))), (41, .rhx (some (.shake 9))), (42, .rhx (some (.shake 10))),
   (45, .shx (some (.hkdf 5))), (46, .shx (some (.hkdf 6))), (47, .shx (some (.shake 9))), (48, .shx (some (.shake 10)))]

/-- **C100.** Every block cipher of the enumeration can be made, is the named one and reports its name; no other value makes an object. -/
theorem C100_block (n : Nat) (hn : n < 256) :
    (∀ b, blockGet n = .ok b ↔ (n, b) ∈ blockSpec) ∧ (∀ b, blockGet n = .ok b → b.enumeral = n) := by
  have key : ∀ m < 256, (match blockGet m with | .ok b => decide ((m, b) ∈ blockSpec ∧ b.enumeral = m) | .error _ => decide (m ∉ blockSpec.map (·.1))) = true := by decide +kernel
  have k := key n hn
  cases h : blockGet n with
  | error e =>
    rw [h] at k
    have k := of_decide_eq_true k
    exact ⟨fun b => ⟨fun e => (by cases e), fun e => absurd (List.mem_map.mpr ⟨_, e, rfl⟩) k⟩, fun b e => by cases e⟩
  | ok b =>
    rw [h] at k
    have k := of_decide_eq_true k
    have uniq : ∀ x ∈ blockSpec, ∀ y ∈ blockSpec, x.1 = y.1 → x = y := by decide +kernel
    refine ⟨fun c => ⟨fun e => by cases e; exact k.1, fun e => ?_⟩, fun c e => by cases e; exact k.2⟩
    cases uniq _ k.1 _ e rfl
    rfl

/-- The function and the digest or mode that a name of a key derivation function stands for, as far as there is a class. -/
def kdfSpec : List (Nat × Kdf) :=
  [(2, .hkdf 5), (3, .hkdf 6), (4, .kdf2 5), (5, .kdf2 6), (6, .pbkdf2 5), (7, .pbkdf2 6), (8, .shake 8), (9, .shake 9), (10, .shake 10), (13, .scbkdf 8), (14, .scbkdf 9), (15, .scbkdf 10)]

/-- **C100.** The same for the key derivation functions; `HKDS128`, `HKDS256`, `HKDS512` and `SCBKDF1024` have names but cannot be made. -/
theorem C100_kdf (n : Nat) (hn : n < 256) :
    (∀ k, kdfGet n = .ok k ↔ (n, k) ∈ kdfSpec) ∧ (∀ k, kdfGet n = .ok k → k.enumeral = n) := by
  have key : ∀ m < 256, (match kdfGet m with | .ok b => decide ((m, b) ∈ kdfSpec ∧ b.enumeral = m) | .error _ => decide (m ∉ kdfSpec.map (·.1))) = true := by decide +kernel
  have k := key n hn
  cases h : kdfGet n with
  | error e =>
    rw [h] at k
    have k := of_decide_eq_true k
    exact ⟨fun b => ⟨fun e => (by cases e), fun e => absurd (List.mem_map.mpr ⟨_, e, rfl⟩) k⟩, fun b e => by cases e⟩
  | ok b =>
    rw [h] at k
    have k := of_decide_eq_true k
    have uniq : ∀ x ∈ kdfSpec, ∀ y ∈ kdfSpec, x.1 = y.1 → x = y := by decide +kernel
    refine ⟨fun c => ⟨fun e => by cases e; exact k.1, fun e => ?_⟩, fun c e => by cases e; exact k.2⟩
    cases uniq _ k.1 _ e rfl
    rfl

example : blockGet SC.SHXS512 = .ok (.shx (some (.shake DG.SHAKE512))) := by decide
example : kdfGet KD.SCBKDF512 = .ok (.scbkdf DG.SHAKE512) := by decide

/-! ## Message authentication codes -/

/-- What a name of a message authentication code stands for. -/
def macSpec : List (Nat × Mac) :=
  [(1, .cmac 1), (2, .cmac 39), (3, .cmac 40), (4, .cmac 41), (5, .cmac 42), (6, .gmac 1), (7, .gmac 39), (8, .gmac 40), (9, .gmac 41), (10, .gmac 42), (11, .hmac 5), (12, .hmac 6),
   (13, .kpa 13), (14, .kpa 14), (15, .kpa 15), (16, .kmac 16), (17, .kmac 17), (18, .kmac 18), (19, .poly1305)]

/-- **C100.** The made code is the named one for every name but `KMAC128`, and it reports its name unless it is a CMAC or GMAC with an extended cipher. -/
theorem C100_mac_partial (n : Nat) (hn : n < 256) (hk : n ≠ MC.KMAC128) :
    (∀ m, macGet n = .ok m ↔ (n, m) ∈ macSpec) ∧ (∀ m, macGet n = .ok m → n ∉ [2, 3, 4, 5, 7, 8, 9, 10] → m.enumeral = n) := by
  have key : ∀ x < 256, x ≠ 16 → (match macGet x with | .ok b => decide ((x, b) ∈ macSpec ∧ (x ∉ [2, 3, 4, 5, 7, 8, 9, 10] → b.enumeral = x)) | .error _ => decide (x ∉ macSpec.map (·.1))) = true := by decide +kernel
  have k := key n hn hk
  cases h : macGet n with
  | error e =>
    rw [h] at k
    have k := of_decide_eq_true k
    exact ⟨fun b => ⟨fun e => (by cases e), fun e => absurd (List.mem_map.mpr ⟨_, e, rfl⟩) k⟩, fun b e => by cases e⟩
  | ok b =>
    rw [h] at k
    have k := of_decide_eq_true k
    have uniq : ∀ x ∈ macSpec, ∀ y ∈ macSpec, x.1 = y.1 → x = y := by decide +kernel
    refine ⟨fun c => ⟨fun e => by cases e; exact k.1, fun e => ?_⟩, fun c e hx => by cases e; exact k.2 hx⟩
    cases uniq _ k.1 _ e rfl
    rfl

/-- **C100**, refuted: `KMAC128` cannot be made although the class supports it, and every CMAC and GMAC with an extended cipher reports the name of the one with AES, so the name that an object reports makes another object. -/
theorem C100_mac_false : macGet MC.KMAC128 = .error (.plain .unknown) ∧
    (∀ n ∈ [MC.CMACRHXH256, MC.CMACRHXH512, MC.CMACRHXS256, MC.CMACRHXS512, MC.GMACRHXH256, MC.GMACRHXH512, MC.GMACRHXS256, MC.GMACRHXS512],
      ∃ m m', macGet n = .ok m ∧ macGet m.enumeral = .ok m' ∧ m ≠ m') := by
  refine ⟨by decide, fun n hn => ?_⟩
  simp only [List.mem_cons, List.not_mem_nil, or_false] at hn
  rcases hn with rfl | rfl | rfl | rfl | rfl | rfl | rfl | rfl <;> exact ⟨_, _, rfl, rfl, by decide⟩

/-- **C100**, refuted: `MacStream` refuses GMAC, but the constructor by name refuses it only with AES, whereas the constructor by object refuses the same objects. -/
theorem C100_macStream_gmac_false : ∀ n ∈ [MC.GMACRHXH256, MC.GMACRHXH512, MC.GMACRHXS256, MC.GMACRHXS512],
    ∃ c, macStreamNew n = .ok (.gmac c) ∧ macStreamOf (.gmac c) = .error (.derived .illegalOperation) := by
  intro n hn
  simp only [List.mem_cons, List.not_mem_nil, or_false] at hn
  rcases hn with rfl | rfl | rfl | rfl <;> exact ⟨_, rfl, rfl⟩

/-! ## Random generators -/

def prngSpec : List (Nat × Prng) := [(1, .bcr), (6, .csr 9), (7, .csr 10), (9, .hcr 5), (10, .hcr 6)]

/-- **C100.** The generators are the named ones, but for `HCRS512`; `CSRC1024` has a name but cannot be made. -/
theorem C100_prng_partial (n : Nat) (hn : n < 256) (h1 : n ≠ PR.HCRS512) (p : Prng) : prngGet n = .ok p ↔ (n, p) ∈ prngSpec := by
  have key : ∀ x < 256, x ≠ 10 → (match prngGet x with | .ok b => decide ((x, b) ∈ prngSpec) | .error _ => decide (x ∉ prngSpec.map (·.1))) = true := by decide +kernel
  have k := key n hn h1
  cases h : prngGet n with
  | error e =>
    rw [h] at k
    have k := of_decide_eq_true k
    exact ⟨fun e => (by cases e), fun e => absurd (List.mem_map.mpr ⟨_, e, rfl⟩) k⟩
  | ok b =>
    rw [h] at k
    have k := of_decide_eq_true k
    have uniq : ∀ x ∈ prngSpec, ∀ y ∈ prngSpec, x.1 = y.1 → x = y := by decide +kernel
    refine ⟨fun e => by cases e; exact k, fun e => ?_⟩
    cases uniq _ k _ e rfl
    rfl

/-- **C100**, refuted: the generator named after SHA2-512 is the one with SHA2-256. -/
theorem C100_prng_false : prngGet PR.HCRS512 = prngGet PR.HCR ∧ (10, Prng.hcr DG.SHA2512) ∈ prngSpec ∧ prngGet PR.HCRS512 = .ok (.hcr DG.SHA2256) := by decide

/-! ## Stream ciphers -/

/-- The class and the authentication that a name of a stream cipher stands for. -/
def streamSpec : List (Nat × Family × Bool) :=
  [(96, .chacha, false), (97, .chacha, true), (98, .csx512, false), (99, .csx512, true), (128, .tsx256, false), (129, .tsx256, true), (130, .tsx512, false), (131, .tsx512, true),
   (132, .tsx1024, false), (133, .tsx1024, true), (160, .rcs, false), (161, .rcs, true), (162, .rcs, true), (163, .rcs, true), (170, .rws, false), (171, .rws, true), (172, .rws, true), (173, .rws, true)]

/-- **C100.** The stream ciphers are the named ones, but for `CSX512` and `CSXR80K512`; they authenticate if and only if the name says so. -/
theorem C100_stream_partial (n : Nat) (hn : n < 256) (h1 : n ≠ SC.CSX512) (h2 : n ≠ SC.CSXR80K512) (s : Strm) : streamGet n = .ok s ↔ (n, s.family, s.auth) ∈ streamSpec ∧ s.mac = none := by
  have key : ∀ x < 256, x ≠ 98 → x ≠ 99 → (match streamGet x with | .ok b => decide ((x, b.family, b.auth) ∈ streamSpec ∧ b.mac = none) | .error _ => decide (x ∉ streamSpec.map (·.1))) = true := by decide +kernel
  have k := key n hn h1 h2
  cases h : streamGet n with
  | error e =>
    rw [h] at k
    have k := of_decide_eq_true k
    exact ⟨fun e => (by cases e), fun e => absurd (List.mem_map.mpr ⟨_, e.1, rfl⟩) k⟩
  | ok b =>
    rw [h] at k
    have k := of_decide_eq_true k
    have uniq : ∀ x ∈ streamSpec, ∀ y ∈ streamSpec, x.1 = y.1 → x = y := by decide +kernel
    refine ⟨fun e => by cases e; exact k, fun e => ?_⟩
    have u := uniq _ k.1 _ e.1 rfl
    obtain ⟨a1, a2, a3⟩ := b
    obtain ⟨b1, b2, b3⟩ := s
    simp only [Prod.mk.injEq, true_and] at u
    rw [u.1, u.2, show a3 = none from k.2, show b3 = none from e.2]

/-- **C100**, refuted: who asks for the cipher with the key of 512 bits gets ChaCha20 with the key of 256 bits. -/
theorem C100_stream_false : streamGet SC.CSX512 = streamGet SC.ChaChaP20 ∧ streamGet SC.CSXR80K512 = streamGet SC.CSXR20K256 ∧ streamGet SC.CSX512 = .ok ⟨.chacha, false, none⟩ := by decide

/-- **C100.** A made stream cipher reports its name for ChaCha20, TSX256 and the ciphers RCS and RWS without authentication; the latter report it with authentication when `Initialize` has made the code of
the named strength. -/
theorem C100_stream_name_partial : (∀ n ∈ [SC.ChaChaP20, SC.CSXR20K256, SC.RCS, SC.RWS, SC.TSX256, SC.TSXR72K256], ∃ s, streamGet n = .ok s ∧ s.enumeral = n) ∧
    (∀ n m, (n, m) ∈ [(SC.RCSK256, MC.KMAC256), (SC.RCSK512, MC.KMAC512), (SC.RWSK256, MC.KMAC256), (SC.RWSK512, MC.KMAC512)] → ∃ s, streamGet n = .ok s ∧ { s with mac := some m }.enumeral = n) := by
  refine ⟨fun n hn => ?_, fun n m hn => ?_⟩
  · simp only [List.mem_cons, List.not_mem_nil, or_false] at hn
    rcases hn with rfl | rfl | rfl | rfl | rfl | rfl <;> exact ⟨_, rfl, rfl⟩
  · simp only [List.mem_cons, List.not_mem_nil, or_false, Prod.mk.injEq] at hn
    rcases hn with ⟨rfl, rfl⟩ | ⟨rfl, rfl⟩ | ⟨rfl, rfl⟩ | ⟨rfl, rfl⟩ <;> exact ⟨_, rfl, rfl⟩

/-- **C100**, refuted: TSX512 and TSX1024 report the name of TSX256 without authentication, whether they authenticate or not; RCS and RWS with authentication report a cipher without it before `Initialize`. -/
theorem C100_stream_name_false : (∀ n ∈ [SC.TSX512, SC.TSXR96K512, SC.TSX1024, SC.TSXR120K512], ∃ s, streamGet n = .ok s ∧ s.enumeral = SC.TSX256) ∧
    (∃ s, streamGet SC.RCSK512 = .ok s ∧ s.enumeral = SC.RCS) ∧ (∃ s, streamGet SC.RWSK512 = .ok s ∧ s.enumeral = SC.RWS) := by
  refine ⟨fun n hn => ?_, ⟨_, rfl, rfl⟩, ⟨_, rfl, rfl⟩⟩
  simp only [List.mem_cons, List.not_mem_nil, or_false] at hn
  rcases hn with rfl | rfl | rfl | rfl <;> exact ⟨_, rfl, rfl⟩

/-! ## The error code -/

/-- **C100**, refuted: the code `InvalidParam` for a value that is not supported never reaches the caller, because the exception is caught by the handler for `std::exception` of the same function; the caller
always sees `UnKnown`. -/
theorem C100_code_false (n : Nat) :
    (∀ e, kdfGet n = .error e → kdfSwitch n = .error (.plain .invalidParam) ∧ e = .plain .unknown) ∧ (∀ e, macGet n = .error e → macSwitch n = .error (.plain .invalidParam) ∧ e = .plain .unknown) ∧
    (∀ e, prngGet n = .error e → prngSwitch n = .error (.plain .invalidParam) ∧ e = .plain .unknown) ∧ (∀ e, streamGet n = .error e → streamSwitch n = .error (.plain .invalidParam) ∧ e = .plain .unknown) := by
  refine ⟨fun e h => ?_, fun e h => ?_, fun e h => ?_, fun e h => ?_⟩
  · unfold kdfGet at h; unfold kdfSwitch at h ⊢; split at h <;> first | (cases h; exact ⟨rfl, rfl⟩) | cases h
  · unfold macGet at h; unfold macSwitch at h ⊢; split at h <;> first | (cases h; exact ⟨rfl, rfl⟩) | cases h
  · unfold prngGet at h; unfold prngSwitch at h ⊢; split at h <;> first | (cases h; exact ⟨rfl, rfl⟩) | cases h
  · unfold streamGet at h; unfold streamSwitch at h ⊢; split at h <;> first | (cases h; exact ⟨rfl, rfl⟩) | cases h

/-- Zero, which is `None`, is not supported. -/
example : kdfGet 0 = .error (.plain .unknown) ∧ streamGet 0 = .error (.plain .unknown) := by decide

end Cex.Factory
