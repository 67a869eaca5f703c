import Verif.SCipher.AuthProps

/-!
# The authenticated stream ciphers: tags, and what they do not cover (C52)
-/

namespace Cex.SCipher
open Cex Cex.IntTools Cex.Mac Cex.Modes Cex.Keccak Stream SCipher.Spec

variable {P : List Byte → M (List Byte)} {f : List Byte → List Byte} {A : MacOps} {κ : Type} {F : Fmt κ} {K : Chain A}

/-! ## The authenticated text -/

/-- The text whose KMAC is the tag of the first message of ChaChaP20: associated data, block counter,
ciphertext, length. -/
def chachaText (aads : List (List Byte)) (ct : List Byte) : List Byte := aads.flatten ++ leEnc 8 0 ++ ct ++ leEnc 8 ct.length

/-- Associated data of CSX512: each string is followed by its length. -/
def csxAad (aads : List (List Byte)) : List Byte := (aads.map fun a => a ++ leEnc 4 a.length).flatten

/-- The text for CSX512. -/
def csxText (aads : List (List Byte)) (nonce ct : List Byte) : List Byte := csxAad aads ++ nonce ++ ct ++ leEnc 8 ct.length

theorem leEnc_inj {k a b : Nat} (ha : a < 256 ^ k) (hb : b < 256 ^ k) (h : leEnc k a = leEnc k b) : a = b := by
  have := congrArg leVal h
  rwa [leVal_leEnc, leVal_leEnc, Nat.mod_eq_of_lt ha, Nat.mod_eq_of_lt hb] at this

/-- Different ciphertexts or different concatenations of associated data give different texts. -/
theorem C52_chacha_text {aads aads' : List (List Byte)} {ct ct' : List Byte} (h1 : ct.length < 2 ^ 64) (h2 : ct'.length < 2 ^ 64)
    (h : chachaText aads ct = chachaText aads' ct') : aads.flatten = aads'.flatten ∧ ct = ct' := by
  rw [chachaText, chachaText] at h
  obtain ⟨h, hl⟩ := List.append_inj' h (by rw [leEnc_length, leEnc_length])
  have := leEnc_inj (k := 8) (by omega) (by omega) hl
  obtain ⟨h, hc⟩ := List.append_inj' h this
  exact ⟨(List.append_inj' h rfl).1, hc⟩

theorem csxAad_snoc (xs : List (List Byte)) (a : List Byte) : csxAad (xs ++ [a]) = csxAad xs ++ (a ++ leEnc 4 a.length) := by simp [csxAad]

theorem csxAad_inj : ∀ (xs ys : List (List Byte)), (∀ x ∈ xs, x.length < 2 ^ 32) → (∀ y ∈ ys, y.length < 2 ^ 32) → csxAad xs = csxAad ys → xs = ys := by
  intro xs
  induction xs using List.reverseRecOn with
  | nil =>
    intro ys _ _ h
    rcases ys.eq_nil_or_concat with rfl | ⟨l, b, rfl⟩
    · rfl
    · have := congrArg List.length h
      rw [List.concat_eq_append, csxAad_snoc] at this
      simp [csxAad, leEnc_length] at this
  | append_singleton xs a ih =>
    intro ys hx hy h
    rcases ys.eq_nil_or_concat with rfl | ⟨l, b, rfl⟩
    · have := congrArg List.length h
      rw [csxAad_snoc] at this
      simp [csxAad, leEnc_length] at this
    · rw [List.concat_eq_append] at *
      rw [csxAad_snoc, csxAad_snoc, ← List.append_assoc, ← List.append_assoc] at h
      obtain ⟨h, hl⟩ := List.append_inj' h (by rw [leEnc_length, leEnc_length])
      have ha := hx a (by simp)
      have hb := hy b (by simp)
      have := leEnc_inj (k := 4) (by omega) (by omega) hl
      obtain ⟨h', e⟩ := List.append_inj' h this
      rw [e, ih l (fun x m => hx x (by simp [m])) (fun x m => hy x (by simp [m])) h']

/-- CSX512: different lists of associated data, nonces or ciphertexts give different texts. -/
theorem C52_csx_text {aads aads' : List (List Byte)} {n n' ct ct' : List Byte} (ha : ∀ x ∈ aads, x.length < 2 ^ 32) (ha' : ∀ x ∈ aads', x.length < 2 ^ 32)
    (hn : n.length = 16) (hn' : n'.length = 16) (h1 : ct.length < 2 ^ 64) (h2 : ct'.length < 2 ^ 64)
    (h : csxText aads n ct = csxText aads' n' ct') : aads = aads' ∧ n = n' ∧ ct = ct' := by
  rw [csxText, csxText] at h
  obtain ⟨h, hl⟩ := List.append_inj' h (by rw [leEnc_length, leEnc_length])
  have := leEnc_inj (k := 8) (by omega) (by omega) hl
  obtain ⟨h, hc⟩ := List.append_inj' h this
  obtain ⟨h, hn⟩ := List.append_inj' h (by omega)
  exact ⟨csxAad_inj _ _ ha ha' h, hn, hc⟩

/-- The bound is needed: the length field has 32 bits. -/
theorem C52_aad_collision (a b : List Byte) (ha : a.length + 4 = 2 ^ 32) : csxAad [a ++ leEnc 4 a.length ++ b] = csxAad [a, b] := by
  have e : leEnc 4 (a ++ leEnc 4 a.length ++ b).length = leEnc 4 b.length := by
    rw [List.length_append, List.length_append, leEnc_length, ha, ← leEnc_mod 4 b.length, ← leEnc_mod 4 (2 ^ 32 + b.length)]
    congr 1
    omega
  simp only [csxAad, List.map_cons, List.map_nil, e]
  simp

/-! ## Associated data -/

/-- Consecutive `SetAssociatedData` calls. -/
def aadAll (F : Fmt κ) (s : Auth A κ) (ws : List Window) : M (Auth A κ) := ws.foldlM (fun s w => Auth.setAad F s w.buf w.off w.len) s

theorem aadAll_ok (g : K.Good) : ∀ (ws : List Window) {s : Auth A κ} {c : κ} {t : K.τ} {n : BitVec 64}, Auth.Is K s c t n → (F.coded = true → ∀ w ∈ ws, w.len ≠ 0) →
    ∃ s', aadAll F s ws = .ok s' ∧ Auth.Is K s' c (K.put t (ws.map fun w => w.bytes ++ if F.coded then leRep 4 (BitVec.ofNat 32 w.len) else []).flatten) n
  | [], s, c, t, n, h, _ => ⟨s, rfl, by simpa [g.nil] using h⟩
  | w :: ws, s, c, t, n, h, hw => by
    obtain ⟨s1, h1, h2⟩ := Auth.setAad_ok (F := F) g h w (fun e => hw e w List.mem_cons_self)
    obtain ⟨s2, h3, h4⟩ := aadAll_ok g ws h2 (fun e v hv => hw e v (List.mem_cons_of_mem _ hv))
    rw [g.append] at h4
    refine ⟨s2, ?_, by simpa using h4⟩
    rw [aadAll, List.foldlM_cons, h1, ok_bind]
    exact h3

theorem aad_text_chacha (ws : List Window) :
    (ws.map fun w => w.bytes ++ if chachaFmt.coded then leRep 4 (BitVec.ofNat 32 w.len) else []).flatten = (ws.map Window.bytes).flatten := by
  simp [chachaFmt]

theorem aad_text_csx (ws : List Window) :
    (ws.map fun w => w.bytes ++ if csxFmt.coded then leRep 4 (BitVec.ofNat 32 w.len) else []).flatten = csxAad (ws.map Window.bytes) := by
  rw [csxAad, List.map_map]
  congr 2
  funext w
  have : leEnc 4 (BitVec.ofNat 32 w.len).toNat = leEnc 4 w.len := by
    rw [BitVec.toNat_ofNat]; exact leEnc_mod 4 w.len
  rw [if_pos (show csxFmt.coded = true from rfl), leRep_eq, this]
  simp [w.bytes_length]

/-! ## The tag -/

theorem tag_kmac (P : List Byte → M (List Byte)) {r tag : Nat} (hm : Mode r tag) (mk text m : List Byte) (hroom : (text ++ m).length % r + 3 < r) {F : Fmt κ} {c : κ} {n : BitVec 64} {ct : List Byte}
    (hm' : (F.pos c).flatten ++ ct ++ F.fin (n + BitVec.ofNat 64 ct.length) = m) :
    Auth.tagOf F (kmacChain P f r tag) (keyState f r mk [] [], text) c n ct = Sp800185.kmac f r mk (text ++ m) tag [] := by
  have hf := hm.facts
  have := codeTag_spec (f := f) (r := r) (by omega) mk [] [] (text ++ m) tag (C30_room (by omega) _ hroom)
  rw [← hm'] at this ⊢
  exact this

theorem chacha_pos (ct : List Byte) : (chachaFmt.pos (pairOf 32 0)).flatten ++ ct ++ chachaFmt.fin (0 + BitVec.ofNat 64 ct.length) =
    leEnc 8 0 ++ ct ++ leEnc 8 ct.length := by
  have h1 : (chachaFmt.pos (pairOf 32 0)).flatten = leEnc 8 0 := by decide
  have h2 : chachaFmt.fin (0 + BitVec.ofNat 64 ct.length) = leEnc 8 ct.length := by
    show leRep 8 _ = _
    rw [leRep_eq, show (0 : BitVec 64) + BitVec.ofNat 64 ct.length = BitVec.ofNat 64 ct.length from BitVec.zero_add _, BitVec.toNat_ofNat]
    exact leEnc_mod 8 _
  rw [h1, h2]

theorem csx_pos {nonce : List Byte} (hn : nonce.length = 16) {c : BitVec 64 × BitVec 64} (hc : pairVal c = leVal nonce) (ct : List Byte) :
    (csxFmt.pos c).flatten ++ ct ++ csxFmt.fin (0 + BitVec.ofNat 64 ct.length) = nonce ++ ct ++ leEnc 8 ct.length := by
  have h1 : (csxFmt.pos c).flatten = nonce := by
    have := leEnc_pair (k := 8) c
    have e := leEnc_leVal nonce
    rw [hn] at e
    rw [hc, e] at this
    simp [csxFmt, this]
  have h2 : csxFmt.fin (0 + BitVec.ofNat 64 ct.length) = leEnc 8 ct.length := by
    show leRep 8 _ = _
    rw [leRep_eq, show (0 : BitVec 64) + BitVec.ofNat 64 ct.length = BitVec.ofNat 64 ct.length from BitVec.zero_add _, BitVec.toNat_ofNat]
    exact leEnc_mod 8 _
  rw [h1, h2]

/-- The first message of ChaChaP20: the tag is the KMAC256 of `chachaText` under the second derived key, and
the receiver accepts exactly the ciphertexts with this tag. Full property: for every message. Missing: later
messages (the MAC goes on from the squeezed state, `C30_reuse_false`); texts leaving less than 4 bytes of
the last block, for which the code's KMAC is not KMAC (`C30_collision`, `C30_lengths`). -/
theorem C52_chacha_tag_partial (p : Perm P f) {key nonce info : List Byte} (hk : key.length = 32) (hn : nonce.length = 8) (hi : info = [] ∨ info.length = 16) :
    ∃ st s0, chachaAuthInit P key nonce info = .ok (st, s0) ∧ ∀ ws : List Window, ∃ s, aadAll chachaFmt s0 ws = .ok s ∧
    (∀ (E : Engine (BitVec 32 × BitVec 32)) (inp msg : List Byte) (io oo : Nat) (pre junk tjunk post ct : List Byte), ChachaOk st E s.nonce oo msg.length → Holds inp io msg →
      pre.length = oo → junk.length = msg.length → tjunk.length = 32 → (pre ++ junk ++ tjunk ++ post).length < 2 ^ 64 →
      ct = xorBytes (chachaStream (subKeys f 136 32 key chachaName).1 nonce info 0 msg.length) msg →
      (chachaText (ws.map Window.bytes) ct).length % 136 + 3 < 136 →
    ∃ s', Auth.encrypt chachaFmt E s inp io (pre ++ junk ++ tjunk ++ post) oo msg.length =
      .ok (s', pre ++ ct ++ Sp800185.kmac f 136 (subKeys f 136 32 key chachaName).2 (chachaText (ws.map Window.bytes) ct) 32 [] ++ post)) ∧
    (∀ (D : Engine (BitVec 32 × BitVec 32)) (inp ct tg : List Byte) (io oo : Nat) (pre junk post : List Byte), ChachaOk st D s.nonce oo ct.length →
      Holds inp io (ct ++ tg) → tg.length = 32 → inp.length < 2 ^ 64 → pre.length = oo → junk.length = ct.length →
      (chachaText (ws.map Window.bytes) ct).length % 136 + 3 < 136 →
    ∃ s', Auth.decrypt chachaFmt D s inp io (pre ++ junk ++ post) oo ct.length =
      .ok (s', if tg = Sp800185.kmac f 136 (subKeys f 136 32 key chachaName).2 (chachaText (ws.map Window.bytes) ct) 32 []
        then some (pre ++ xorBytes (chachaStream (subKeys f 136 32 key chachaName).1 nonce info 0 ct.length) ct ++ post) else none)) := by
  obtain ⟨st, s0, h1, h2, h3⟩ := chachaAuthInit_ok p hk hn hi
  have hl := (deriveKeys_ok p (r := 136) (n := 32) (by omega) (by omega) (by omega) (by omega) (by omega) (by omega : 4 ≤ key.length) chacha_fits (by decide)).2.1
  have hm : Mode 136 32 := by simp [Mode]
  have g := kmacChain_good p hm
  refine ⟨st, s0, h1, fun ws => ?_⟩
  obtain ⟨s, h4, h5⟩ := aadAll_ok (F := chachaFmt) g ws h3 (by intro e; cases e)
  rw [aad_text_chacha] at h5
  have h5' : Auth.Is (kmacChain P f 136 32) s (pairOf 32 0) (keyState f 136 (subKeys f 136 32 key chachaName).2 [] [], (ws.map Window.bytes).flatten) 0 := h5
  have hz : pairVal (pairOf 32 0) = 0 := by decide
  have htag : ∀ ct : List Byte, (chachaText (ws.map Window.bytes) ct).length % 136 + 3 < 136 →
      Auth.tagOf chachaFmt (kmacChain P f 136 32) (keyState f 136 (subKeys f 136 32 key chachaName).2 [] [], (ws.map Window.bytes).flatten) (pairOf 32 0) 0 ct =
        Sp800185.kmac f 136 (subKeys f 136 32 key chachaName).2 (chachaText (ws.map Window.bytes) ct) 32 [] := fun ct hr => by
    have e : chachaText (ws.map Window.bytes) ct = (ws.map Window.bytes).flatten ++ (leEnc 8 0 ++ ct ++ leEnc 8 ct.length) := by simp [chachaText]
    rw [e] at hr ⊢
    exact tag_kmac P hm _ _ _ hr (chacha_pos ct)
  refine ⟨s, h4, ?_, ?_⟩
  · intro E inp msg io oo pre junk tjunk post ct a1 a2 a3 a4 a5 a6 a7 a8
    have dE := chacha_does hl hn hi h2 E s.nonce oo msg.length a1
    rw [h5'.nonce, hz] at dE
    obtain ⟨s1, g1, _⟩ := Auth.encrypt_ok g chachaFmt_fits h5' dE a2 pre junk tjunk post a3 a4 a5 a6
    rw [← a7, htag ct a8] at g1
    exact ⟨s1, g1⟩
  · intro D inp ct tg io oo pre junk post a1 a2 a3 a4 a5 a6 a7
    have dD := chacha_does hl hn hi h2 D s.nonce oo ct.length a1
    rw [h5'.nonce, hz] at dD
    obtain ⟨d1, d2⟩ := Auth.decrypt_ok (E := D) g chachaFmt_fits h5' a2 a3 a4 (pre ++ junk ++ post) oo
    rw [htag ct a7] at d1 d2
    by_cases ht : tg = Sp800185.kmac f 136 (subKeys f 136 32 key chachaName).2 (chachaText (ws.map Window.bytes) ct) 32 []
    · obtain ⟨s1, g1, _⟩ := d2 ht _ _ dD pre junk post rfl a5 a6
      exact ⟨s1, by rw [g1, if_pos ht]⟩
    · obtain ⟨s1, g1, _⟩ := d1 ht
      exact ⟨s1, by rw [g1, if_neg ht]⟩

/-- The first message of CSX512, likewise with KMAC512 and `csxText`, which contains the nonce. -/
theorem C52_csx_tag_partial (p : Perm P f) (rd : Nat) {key nonce info : List Byte} (hk : key.length = 64) (hn : nonce.length = 16) :
    ∃ st s0, csxAuthInit P key nonce info = .ok (st, s0) ∧ ∀ ws : List Window, (∀ w ∈ ws, w.len ≠ 0) → ∃ s, aadAll csxFmt s0 ws = .ok s ∧
    (∀ (E : Engine (BitVec 64 × BitVec 64)) (inp msg : List Byte) (io oo : Nat) (pre junk tjunk post ct : List Byte), CsxOk rd st E s.nonce oo msg.length → Holds inp io msg →
      pre.length = oo → junk.length = msg.length → tjunk.length = 64 → (pre ++ junk ++ tjunk ++ post).length < 2 ^ 64 →
      ct = xorBytes (csxStream rd (subKeys f 72 64 key csxName).1 info (leVal nonce) msg.length) msg →
      (csxText (ws.map Window.bytes) nonce ct).length % 72 + 3 < 72 →
    ∃ s', Auth.encrypt csxFmt E s inp io (pre ++ junk ++ tjunk ++ post) oo msg.length =
      .ok (s', pre ++ ct ++ Sp800185.kmac f 72 (subKeys f 72 64 key csxName).2 (csxText (ws.map Window.bytes) nonce ct) 64 [] ++ post)) ∧
    (∀ (D : Engine (BitVec 64 × BitVec 64)) (inp ct tg : List Byte) (io oo : Nat) (pre junk post : List Byte), CsxOk rd st D s.nonce oo ct.length →
      Holds inp io (ct ++ tg) → tg.length = 64 → inp.length < 2 ^ 64 → pre.length = oo → junk.length = ct.length →
      (csxText (ws.map Window.bytes) nonce ct).length % 72 + 3 < 72 →
    ∃ s', Auth.decrypt csxFmt D s inp io (pre ++ junk ++ post) oo ct.length =
      .ok (s', if tg = Sp800185.kmac f 72 (subKeys f 72 64 key csxName).2 (csxText (ws.map Window.bytes) nonce ct) 64 []
        then some (pre ++ xorBytes (csxStream rd (subKeys f 72 64 key csxName).1 info (leVal nonce) ct.length) ct ++ post) else none)) := by
  obtain ⟨st, c0, s0, h1, h2, h3⟩ := csxAuthInit_ok p (info := info) hk hn
  have hl := (deriveKeys_ok p (r := 72) (n := 64) (by omega) (by omega) (by omega) (by omega) (by omega) (by omega : 4 ≤ key.length) csx_fits (by decide)).2.1
  have hz : pairVal c0 = leVal nonce := by
    obtain ⟨st', c', e1, e2, _⟩ := csxInit_ok info hl hn
    rw [h2] at e1
    have : c0 = c' := congrArg Prod.snd (Except.ok.inj e1)
    rw [this]; exact e2
  have hm : Mode 72 64 := by simp [Mode]
  have g := kmacChain_good p hm
  refine ⟨st, s0, h1, fun ws hws => ?_⟩
  obtain ⟨s, h4, h5⟩ := aadAll_ok (F := csxFmt) g ws h3 (fun _ => hws)
  rw [aad_text_csx] at h5
  have h5' : Auth.Is (kmacChain P f 72 64) s c0 (keyState f 72 (subKeys f 72 64 key csxName).2 [] [], csxAad (ws.map Window.bytes)) 0 := h5
  have htag : ∀ ct : List Byte, (csxText (ws.map Window.bytes) nonce ct).length % 72 + 3 < 72 →
      Auth.tagOf csxFmt (kmacChain P f 72 64) (keyState f 72 (subKeys f 72 64 key csxName).2 [] [], csxAad (ws.map Window.bytes)) c0 0 ct =
        Sp800185.kmac f 72 (subKeys f 72 64 key csxName).2 (csxText (ws.map Window.bytes) nonce ct) 64 [] := fun ct hr => by
    have e : csxText (ws.map Window.bytes) nonce ct = csxAad (ws.map Window.bytes) ++ (nonce ++ ct ++ leEnc 8 ct.length) := by simp [csxText]
    rw [e] at hr ⊢
    exact tag_kmac P hm _ _ _ hr (csx_pos hn hz ct)
  refine ⟨s, h4, ?_, ?_⟩
  · intro E inp msg io oo pre junk tjunk post ct a1 a2 a3 a4 a5 a6 a7 a8
    have dE := csx_does rd hl hn h2 E s.nonce oo msg.length a1
    rw [h5'.nonce, hz] at dE
    obtain ⟨s1, g1, _⟩ := Auth.encrypt_ok g csxFmt_fits h5' dE a2 pre junk tjunk post a3 a4 a5 a6
    rw [← a7, htag ct a8] at g1
    exact ⟨s1, g1⟩
  · intro D inp ct tg io oo pre junk post a1 a2 a3 a4 a5 a6 a7
    have dD := csx_does rd hl hn h2 D s.nonce oo ct.length a1
    rw [h5'.nonce, hz] at dD
    obtain ⟨d1, d2⟩ := Auth.decrypt_ok (E := D) g csxFmt_fits h5' a2 a3 a4 (pre ++ junk ++ post) oo
    rw [htag ct a7] at d1 d2
    by_cases ht : tg = Sp800185.kmac f 72 (subKeys f 72 64 key csxName).2 (csxText (ws.map Window.bytes) nonce ct) 64 []
    · obtain ⟨s1, g1, _⟩ := d2 ht _ _ dD pre junk post rfl a5 a6
      exact ⟨s1, by rw [g1, if_pos ht]⟩
    · obtain ⟨s1, g1, _⟩ := d1 ht
      exact ⟨s1, by rw [g1, if_neg ht]⟩

/-! ## What the tag does not cover -/

/-- C52 is false for ChaChaP20's nonce and code: neither is authenticated. For every key and any two nonces
and codes, the receiver with the wrong nonce or code accepts the ciphertext, and outputs the message XOR both
keystreams. -/
theorem C52_nonce_false (p : Perm P f) {key n1 n2 i1 i2 : List Byte} (hk : key.length = 32) (h1 : n1.length = 8) (h2 : n2.length = 8)
    (hi1 : i1 = [] ∨ i1.length = 16) (hi2 : i2 = [] ∨ i2.length = 16) :
    ∃ st1 st2 s0, chachaAuthInit P key n1 i1 = .ok (st1, s0) ∧ chachaAuthInit P key n2 i2 = .ok (st2, s0) ∧
    ∀ (E D : Engine (BitVec 32 × BitVec 32)) (msg junk junk' : List Byte), ChachaOk st1 E s0.nonce 0 msg.length → ChachaOk st2 D s0.nonce 0 msg.length →
      junk.length = msg.length + 32 → junk'.length = msg.length → msg.length < 2 ^ 60 →
    ∃ s' r' out, Auth.encrypt chachaFmt E s0 msg 0 junk 0 msg.length = .ok (s', out) ∧
      Auth.decrypt chachaFmt D s0 out 0 junk' 0 msg.length = .ok (r', some (xorBytes (chachaStream (subKeys f 136 32 key chachaName).1 n2 i2 0 msg.length)
        (xorBytes (chachaStream (subKeys f 136 32 key chachaName).1 n1 i1 0 msg.length) msg))) := by
  obtain ⟨st1, s1, a1, a2, a3⟩ := chachaAuthInit_ok p hk h1 hi1
  obtain ⟨st2, s2, b1, b2, b3⟩ := chachaAuthInit_ok p hk h2 hi2
  have hs : s2 = s1 := by
    rw [chachaAuthInit, if_neg (by omega), if_neg (by omega)] at a1 b1
    simp only [] at a1 b1
    split at a1
    · cases a1
    split at b1
    · cases b1
    obtain ⟨_, _, a1⟩ := bind_ok a1
    obtain ⟨k, e1, a1⟩ := bind_ok a1
    obtain ⟨_, _, a1⟩ := bind_ok a1
    obtain ⟨m, e2, a1⟩ := bind_ok a1
    obtain ⟨_, _, b1⟩ := bind_ok b1
    obtain ⟨k', e1', b1⟩ := bind_ok b1
    obtain ⟨_, _, b1⟩ := bind_ok b1
    obtain ⟨m', e2', b1⟩ := bind_ok b1
    rw [e1] at e1'
    cases e1'
    rw [e2] at e2'
    cases e2'
    have g1 := congrArg Prod.snd (Except.ok.inj a1)
    have g2 := congrArg Prod.snd (Except.ok.inj b1)
    exact g2.symm.trans g1
  subst hs
  have hl := (deriveKeys_ok p (r := 136) (n := 32) (by omega) (by omega) (by omega) (by omega) (by omega) (by omega : 4 ≤ key.length) chacha_fits (by decide)).2.1
  refine ⟨st1, st2, s2, a1, b1, ?_⟩
  intro E D msg junk junk' hE hD hj hj' hml
  have g := kmacChain_good p (show Mode 136 32 by simp [Mode])
  have dE := chacha_does hl h1 hi1 a2 E _ 0 msg.length hE
  have dD := chacha_does hl h2 hi2 b2 D _ 0 msg.length hD
  rw [a3.nonce, show pairVal (pairOf 32 0) = 0 from by decide] at dE dD
  have hsp : junk = [] ++ junk.take msg.length ++ junk.drop msg.length ++ [] := by simp
  obtain ⟨s', g1, _⟩ := Auth.encrypt_ok g chachaFmt_fits a3 dE (Holds.self msg) [] (junk.take msg.length) (junk.drop msg.length) [] rfl
    (by rw [List.length_take]; omega) (by rw [List.length_drop]; show _ = 32; omega) (by rw [← hsp]; omega)
  rw [← hsp, List.nil_append, List.append_nil] at g1
  generalize hks : chachaStream (subKeys f 136 32 key chachaName).1 n1 i1 0 msg.length = ks at *
  have hcl : (xorBytes ks msg).length = msg.length := by rw [xorBytes_length, dE.1, Nat.min_self]
  have htl := Auth.tagOf_len g chachaFmt_fits a3 (xorBytes ks msg) (by omega)
  obtain ⟨_, d2⟩ := Auth.decrypt_ok (E := D) g chachaFmt_fits a3 (Holds.self (xorBytes ks msg ++ Auth.tagOf chachaFmt (kmacChain P f 136 32)
    (keyState f 136 (subKeys f 136 32 key chachaName).2 [] [], []) (pairOf 32 0) 0 (xorBytes ks msg))) htl
    (by rw [List.length_append, htl, hcl, kmacOps_tag]; omega) junk' 0
  rw [hcl] at d2
  obtain ⟨r', g2, _⟩ := d2 rfl _ _ dD [] junk' [] (by simp) rfl hj'
  rw [List.nil_append, List.append_nil] at g2
  exact ⟨s', r', _, g1, g2⟩

/-- An input that ends before the tag is read out of range: the size is not checked. -/
theorem C52_short_ub (p : Perm P f) {key nonce info : List Byte} (hk : key.length = 32) (hn : nonce.length = 8) (hi : info = [] ∨ info.length = 16) :
    ∃ st s0, chachaAuthInit P key nonce info = .ok (st, s0) ∧ ∀ (D : Engine (BitVec 32 × BitVec 32)) (inp out : List Byte) (oo n : Nat), n ≤ inp.length →
      inp.length < n + 32 → inp.length < 2 ^ 64 → Auth.decrypt chachaFmt D s0 inp 0 out oo n = .error .ub := by
  obtain ⟨st, s0, h1, h2, h3⟩ := chachaAuthInit_ok p hk hn hi
  refine ⟨st, s0, h1, ?_⟩
  intro D inp out oo n hn h32 hl
  have hin : Holds inp 0 (inp.take n) := ⟨[], inp.drop n, by simp, rfl⟩
  have := Auth.decrypt_short (E := D) (kmacChain_good p (show Mode 136 32 by simp [Mode])) chachaFmt_fits h3 hin hl (by show 0 < 32; omega)
    (by rw [List.length_take, kmacOps_tag]; omega) out oo
  rwa [List.length_take, Nat.min_eq_left hn] at this

end Cex.SCipher
