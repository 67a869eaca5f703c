import Verif.Hba.Props
import Verif.Kdf.HkdfProps

/-!
# HBA: concrete instances, and where C24 fails
-/

namespace Cex.Hba
open Cex Cex.IntTools Cex.Modes Cex.Modes.Spec Cex.Mac Cex.Gcm Stream Spec Cex.Digest Cex.Kdf

/-! ## A small instance -/

/-- Tag: the key (eight bytes) and the length of the text. -/
def toyTag (k m : List Byte) : List Byte := vresize k 8 ++ leEnc 8 m.length

/-- A MAC that shows key and text length, a key derivation function that shows the name, the identity as block cipher. -/
def toyEnv : Env where
  mac := idealMac toyTag 16
  gen _ _ _ s lens := .ok (lens.map (vresize s))
  cip _ _ b := b
  name := [65]
  ckLen n := n
  mkLen _ := 8
  rkLen _ := 8
  legal n := n == 16
  engLegal n := n == 16

theorem toy_good : toyEnv.Good toyTag (fun _ => True) (fun _ => True) (fun s x => s = x) (2 ^ 63) where
  mac := ideal_macs (fun k m => by simp [toyTag, vresize_length]) (by decide)
  cip _ _ _ h := h
  gen2 n k c s _ _ _ _ := ⟨vresize s n, vresize s 8, rfl, vresize_length _ _, vresize_length _ _⟩
  gen1 n k c s _ _ _ _ := ⟨vresize s 8, rfl, vresize_length _ _⟩
  eng n h := h
  mkey _ _ := trivial

/-- The values after `Initialize` with a zero key, nonce and no info. -/
def toyStart : Sess := ⟨16, vresize (kdfName 1 16 [65]) 16, [], leEnc 8 1, List.replicate 16 0, 1⟩

theorem toy_start : toyEnv.Start (List.replicate 16 0) (List.replicate 16 0) [] toyStart :=
  ⟨rfl, rfl, rfl, rfl, rfl, rfl, rfl⟩

/-- The next MAC key is the counter. -/
theorem toy_next (s : Sess) (hn : s.n = 16) (len : Nat) : toyEnv.Next s len (leEnc 8 ((s.cnt + len) % 2 ^ 64)) := by
  refine ⟨?_, by simp [toyEnv]⟩
  have h : vresize (kdfName ((s.cnt + len) % 2 ^ 64) s.n [65]) 8 = leEnc 8 ((s.cnt + len) % 2 ^ 64) := by
    rw [kdfName, vresize]
    simp
  rw [← h]
  rfl

/-- Abbreviation: reachable states of the small instance. -/
abbrev ToyReach (st : Hba toyEnv) : Prop := st.Reach (fun _ => True) (fun s x => s = x) (2 ^ 63)

/-- The hypotheses of `C24_sequence_partial`, `C25_tag` and `C26_forgery` are met: by a constructed instance, by initialised ones with pending associated data, and by one that was used before
for a message. -/
example : ToyReach (.fresh none) ∧ (∃ st, ToyReach st ∧ st.init = true ∧ st.enc = false) ∧ ∃ st, ToyReach st ∧ st.init = true ∧ st.enc = true ∧ st.counter = 4 ∧
    st.mac = some (leEnc 8 4, [2, 3] ++ leEnc 4 2) := by
  have r0 : ToyReach (.fresh none) := .fresh rfl
  obtain ⟨b, e0, h0⟩ := initialize_ok toy_good (r0.wf toy_good) false (List.replicate 16 0) (List.replicate 16 0) [] rfl rfl (by decide) toy_start
  obtain ⟨a, e1, h1⟩ := initialize_ok toy_good (r0.wf toy_good) true (List.replicate 16 0) (List.replicate 16 0) [] rfl rfl (by decide) toy_start
  have r1 : ToyReach a := .init r0 (by decide) e1
  obtain ⟨ks, n', hs⟩ := stream_any id (fun _ h => h) seqProfile_valid (List.replicate 16 0) (by simp) 3
  obtain ⟨a2, e2, h2⟩ := seal_ok toy_good h1 [7, 8, 9] hs 0 (fun _ => []) (fair_seq _ _ _) [7, 8, 9] 0 (Holds.self _) [] (List.replicate 19 0) [] rfl (by decide) trivial (toy_next toyStart rfl _)
  have r2 : ToyReach a2 := .transform r1 seqProfile_valid (fair_seq _ _ _) (by rw [h1.mode]; decide) (by decide) (by decide) (by decide) (fun _ _ _ => trivial) e2
  obtain ⟨a3, e3, h3⟩ := aad_ok toy_good h2 ⟨[1, 2, 3], 1, 2, by decide, by decide⟩ (by decide : (1 : Nat) ≤ 2)
  refine ⟨r0, ⟨b, .init r0 (by decide) e0, h0.init, h0.mode⟩, a3, .aad _ r2 e3, h3.init, h3.mode, h3.counter, h3.mac⟩

/-- **C24 is false after a rejected forgery**: sealer and opener have the same parameters; one forged message (a zero byte with a zero tag) is rejected; from then on the opener, which is
still initialised, rejects the sealer's genuine message. The opener's MAC key has moved on. -/
theorem C24_after_forgery_false : ∃ (a b b1 : Hba toyEnv), ToyReach a ∧ ToyReach b ∧ ToyReach b1 ∧ (∀ n, Agree (fun _ => True) seqProfile seqProfile n a b) ∧
    b.transform 0 seqProfile (fun _ => []) (List.replicate 17 0) 0 [0] 0 1 = .ok (some .authenticationFailure, b1, [0]) ∧ b1.init = true ∧
    ∃ res a', a.transform 0 seqProfile (fun _ => []) [5, 6] 0 (List.replicate 18 0) 0 2 = .ok (none, a', res) ∧
      ∃ b2, b1.transform 0 seqProfile (fun _ => []) res 0 [0, 0] 0 2 = .ok (some .authenticationFailure, b2, [0, 0]) := by
  have r0 : ToyReach (.fresh none) := .fresh rfl
  obtain ⟨a, e1, h1⟩ := initialize_ok toy_good (r0.wf toy_good) true (List.replicate 16 0) (List.replicate 16 0) [] rfl rfl (by decide) toy_start
  obtain ⟨b, e2, h2⟩ := initialize_ok toy_good (r0.wf toy_good) false (List.replicate 16 0) (List.replicate 16 0) [] rfl rfl (by decide) toy_start
  obtain ⟨ks, n', hs⟩ := stream_any id (fun _ h => h) seqProfile_valid (List.replicate 16 0) (by simp) 1
  obtain ⟨b1, e3, h3⟩ := open_ok toy_good h2 [0] (List.replicate 16 0) rfl hs 0 (fun _ => []) (fair_seq _ _ _) (List.replicate 17 0) 0 (Holds.self _) (by decide) [] [0] [] rfl (by decide) trivial
    (toy_next toyStart rfl _)
  have hne : ¬ toyTag toyStart.key (toyStart.text [] [0]) = List.replicate 16 0 := by decide
  rw [if_neg hne] at e3 h3
  obtain ⟨kt, n2, ht⟩ := stream_any id (fun _ h => h) seqProfile_valid (List.replicate 16 0) (by simp) 2
  obtain ⟨a', e4, _⟩ := seal_ok toy_good h1 [5, 6] ht 0 (fun _ => []) (fair_seq _ _ _) [5, 6] 0 (Holds.self _) [] (List.replicate 18 0) [] rfl (by decide) trivial (toy_next toyStart rfl _)
  have hl : (xorBytes kt [5, 6]).length = 2 := by rw [xorBytes_length, ht.1]; rfl
  generalize xorBytes kt [5, 6] = c at e4 hl
  have hs1 : KeyStream (toyEnv.cip toyStart.ck toyStart.info) seqProfile (toyStart.next 1 (List.replicate 16 0) (leEnc 8 ((1 + 1) % 2 ^ 64))).nonce c.length kt n2 := by rw [hl]; exact ht
  obtain ⟨b2, e5, _⟩ := open_ok toy_good h3 c (toyTag toyStart.key (toyStart.text [] c)) (by simp [toyTag, vresize_length, toyEnv, idealMac]) hs1 0 (fun _ => []) (fair_seq _ _ _)
    (c ++ toyTag toyStart.key (toyStart.text [] c)) 0 (Holds.self _) (by simp [toyTag, vresize_length, hl]) [] [0, 0] [] hl.symm (by decide) trivial
    (toy_next (toyStart.next 1 (List.replicate 16 0) (leEnc 8 ((1 + 1) % 2 ^ 64))) rfl _)
  rw [if_neg] at e5
  · have h6 : ToyReach a := .init r0 (by decide) e1
    have h7 : ToyReach b := .init r0 (by decide) e2
    refine ⟨a, b, b1, h6, h7, .transform h7 seqProfile_valid (fair_seq _ _ _) (by rw [h2.mode]; decide) (by decide) (by decide) (by decide) (fun _ _ _ => trivial) e3,
      fun n => agree_ready toy_good ⟨seqProfile_valid, seqProfile_valid, .inl rfl⟩ n _ a b h1 h2, e3, h3.init, _, a', e4, b2, ?_⟩
    rw [hl] at e5
    simpa using e5
  · intro h
    have := congrArg (List.take 8) h
    rw [toyTag, toyTag, List.take_append_of_le_length (by rw [vresize_length]), List.take_append_of_le_length (by rw [vresize_length])] at this
    revert this
    decide

/-- **C24 is false after a sealing call that throws**: the output array of the first call is too small; the call throws `InvalidSize` before encrypting anything, but the nonce was given to
the MAC already. The message sealed by the next call, with a large enough array, is rejected by the opener. -/
theorem C24_after_exception_false : ∃ (a b a1 : Hba toyEnv), ToyReach a ∧ ToyReach b ∧ (∀ n, Agree (fun _ => True) seqProfile seqProfile n a b) ∧
    a.transform 0 seqProfile (fun _ => []) [5, 6] 0 [0, 0] 0 2 = .ok (some .invalidSize, a1, [0, 0]) ∧
    ∃ res a2, a1.transform 0 seqProfile (fun _ => []) [5, 6] 0 (List.replicate 18 0) 0 2 = .ok (none, a2, res) ∧
      ∃ b1, b.transform 0 seqProfile (fun _ => []) res 0 [0, 0] 0 2 = .ok (some .authenticationFailure, b1, [0, 0]) := by
  have r0 : ToyReach (.fresh none) := .fresh rfl
  obtain ⟨a, e1, h1⟩ := initialize_ok toy_good (r0.wf toy_good) true (List.replicate 16 0) (List.replicate 16 0) [] rfl rfl (by decide) toy_start
  obtain ⟨b, e2, h2⟩ := initialize_ok toy_good (r0.wf toy_good) false (List.replicate 16 0) (List.replicate 16 0) [] rfl rfl (by decide) toy_start
  obtain ⟨m1, e3, i3⟩ := toy_good.mac.update_all h1.mac toyStart.nonce (by decide)
  have h3 : Hba.Ready (e := toyEnv) (fun s x => s = x) (2 ^ 63) toyStart ([] ++ toyStart.nonce) true { a with mac := m1 } := { h1 with mac := i3 }
  rw [← h1.nonce] at e3
  have e4 : a.transform 0 seqProfile (fun _ => []) [5, 6] 0 [0, 0] 0 2 = .ok (some .invalidSize, { a with mac := m1 }, [0, 0]) := by
    rw [Hba.transform, if_neg (by simp [h1.init]), e3, ok_bind]
    simp only []
    rw [if_pos h1.mode, if_pos (by decide)]
    rfl
  obtain ⟨kt, n2, ht⟩ := stream_any id (fun _ h => h) seqProfile_valid (List.replicate 16 0) (by simp) 2
  obtain ⟨a', e5, _⟩ := seal_ok toy_good h3 [5, 6] ht 0 (fun _ => []) (fair_seq _ _ _) [5, 6] 0 (Holds.self _) [] (List.replicate 18 0) [] rfl (by decide) trivial (toy_next toyStart rfl _)
  have hl : (xorBytes kt [5, 6]).length = 2 := by rw [xorBytes_length, ht.1]; rfl
  generalize xorBytes kt [5, 6] = c at e5 hl
  have hs1 : KeyStream (toyEnv.cip toyStart.ck toyStart.info) seqProfile toyStart.nonce c.length kt n2 := by rw [hl]; exact ht
  obtain ⟨b2, e6, _⟩ := open_ok toy_good h2 c (toyTag toyStart.key (toyStart.text ([] ++ toyStart.nonce) c)) (by simp [toyTag, vresize_length, toyEnv, idealMac]) hs1 0 (fun _ => [])
    (fair_seq _ _ _) (c ++ toyTag toyStart.key (toyStart.text ([] ++ toyStart.nonce) c)) 0 (Holds.self _) (by simp [toyTag, vresize_length, hl]) [] [0, 0] [] hl.symm (by decide) trivial
    (toy_next toyStart rfl _)
  rw [if_neg] at e6
  · refine ⟨a, b, _, .init r0 (by decide) e1, .init r0 (by decide) e2, fun n => agree_ready toy_good ⟨seqProfile_valid, seqProfile_valid, .inl rfl⟩ n _ a b h1 h2, e4, _, a', e5, b2, ?_⟩
    rw [hl] at e6
    simpa using e6
  · intro h
    have := congrArg leVal (congrArg (List.drop 8) h)
    rw [toyTag, toyTag, List.drop_append_of_le_length (by rw [vresize_length]), List.drop_append_of_le_length (by rw [vresize_length]),
      List.drop_of_length_le (by rw [vresize_length]), List.nil_append, List.nil_append, leVal_leEnc, leVal_leEnc] at this
    simp only [Sess.text, List.length_append, hl, leEnc_length, toyStart, List.length_replicate, List.length_nil] at this
    revert this
    decide

/-! ## HBA with HMAC -/

/-- HKDF as used by HBA (HBA.cpp:299-316, 488-499): extract with the name as salt, expand with the customisation; each output has the size of the digest. -/
def hkdfGen (D : DigestOps) (hk : Nat → Bool) (s : D.σ) (key custom name : List Byte) (lens : List Nat) : M (List (List Byte)) := do
  let r ← Hkdf.extract hk (.fresh s) key name (List.replicate D.size 0)
  let g ← ({ Hkdf.fresh s with mac := r.1 } : Hkdf D).initialize hk r.2 [] custom
  let o ← lens.foldlM (fun (p : Hkdf D × List (List Byte)) len => do
    let q ← p.1.generateAll (List.replicate len 0)
    return (q.1, p.2 ++ [q.2])) (g, [])
  return o.2

/-- What is needed of the digest inside HKDF: messages of less than `N` bytes are hashed right. -/
structure KdfDigest (D : DigestOps) (H : List Byte → List Byte) (ok : Nat → Prop) (Has : D.σ → List Byte → Prop) (s : D.σ) (N : Nat) : Prop where
  hashes : D.Hashes H ok Has
  start : Has s []
  ok : ∀ n, n < N → ok n
  le : N ≤ 2 ^ 64
  size : 16 ≤ D.size

theorem hkdfGen_ok {D : DigestOps} {H : List Byte → List Byte} {okD : Nat → Prop} {HasD : D.σ → List Byte → Prop} {s : D.σ} {N : Nat} (g : KdfDigest D H okD HasD s N) (hk : Nat → Bool)
    (hkk : ∀ n, 8 ≤ n → hk n = true) (key custom name : List Byte) (h1 : 8 ≤ name.length) (h2 : D.block + 2 * D.size + key.length + name.length + custom.length + 1 < N) :
    (∃ a, hkdfGen D hk s key custom name [D.size] = .ok [a] ∧ a.length = D.size) ∧
    ∃ a b, hkdfGen D hk s key custom name [D.size, D.size] = .ok [a, b] ∧ a.length = D.size ∧ b.length = D.size := by
  have hle := g.le
  have hsz := g.size
  have hsl := g.hashes.size_le
  have i0 : (Hmac.fresh s : Hmac D).Inv H HasD none := ⟨by simp [Hmac.fresh], by simp [Hmac.fresh], fun _ => ⟨rfl, g.start⟩, fun _ _ e => by cases e⟩
  obtain ⟨m1, e1, i1⟩ := hmac_init_inv g.hashes (keyOk := hk) i0 (k := name) (by omega) (g.ok _ (by omega)) (hkk _ h1)
  obtain ⟨m2, e2, i2⟩ := hmac_update_inv g.hashes i1 (Window.whole key (by omega))
  rw [Window.whole_bytes, List.nil_append] at i2
  obtain ⟨m3, e3, i3⟩ := hmac_secure_inv g.hashes i2 (g.ok _ (by omega)) (g.ok _ (by omega)) [] (List.replicate D.size 0) [] (by simp)
  simp only [List.nil_append, List.append_nil, List.length_nil] at e3
  have hl := hmac_length g.hashes name key
  have hx : Hkdf.extract hk (.fresh s) key name (List.replicate D.size 0) = .ok (m3, Rfc2104.hmac H D.block name key) := by
    rw [Hkdf.extract, if_pos (by omega), e1, ok_bind, show m1.update key 0 key.length = .ok m2 from e2, ok_bind, e3]
  have hr : ({ Hkdf.fresh s with mac := m3 } : Hkdf D).Ready H HasD := ⟨⟨_, i3⟩, by simp [Hkdf.fresh], fun _ => rfl⟩
  obtain ⟨st, e4, h4⟩ := hkdf_init g.hashes (keyOk := hk) g.ok hle hr (Rfc2104.hmac H D.block name key) [] custom (by rw [hl]; simp; omega) (by omega) (hkk _ (by omega))
    (fun h => absurd rfl h) (.inr rfl)
  have hb : blocksFor D.size D.size = 1 := by
    rw [blocksFor, show D.size + D.size - 1 = (D.size - 1) + D.size by omega, Nat.add_div_right _ (by omega), Nat.div_eq_of_lt (by omega)]
  have hgen : ∀ (c : Nat) (t : Hkdf D) (prk : List Byte), c ≤ 1 → t.Keyed H HasD N prk custom c → ∃ t' o, t.generateAll (List.replicate D.size 0) = .ok (t', o) ∧ o.length = D.size ∧
      t'.Keyed H HasD N prk custom (c + 1) := by
    intro c t prk hc hkd
    obtain ⟨t', e5, h5⟩ := hkdf_expand g.hashes g.ok hle (by omega) hkd [] (List.replicate D.size 0) [] (by rw [List.length_replicate, hb]; omega)
    rw [List.length_replicate, hb, Nat.mod_eq_of_lt (by omega)] at h5
    simp only [List.nil_append, List.append_nil, List.length_nil, List.length_replicate, hb] at e5
    obtain ⟨u, hst, hu, _⟩ := hkd.state
    refine ⟨t', (Rfc5869.blocks (Rfc2104.hmac H D.block) prk custom c 1).take D.size, ?_, ?_, h5⟩
    · rw [Hkdf.generateAll, if_neg (by rw [hkd.init]; decide), if_neg (by omega), hst, rd_last hu, ok_bind, if_neg, List.length_replicate]
      · exact e5
      · rw [List.length_replicate, Nat.div_self (by omega), BitVec.toNat_ofNat, Nat.mod_eq_of_lt (by omega)]; omega
    · rw [List.length_take, Rfc5869.blocks]
      simp [Rfc5869.T, hmac_length g.hashes]
  obtain ⟨t1, o1, e5, l5, h5⟩ := hgen 0 st _ (by omega) h4
  obtain ⟨t2, o2, e6, l6, _⟩ := hgen 1 t1 _ (by omega) h5
  constructor
  · refine ⟨o1, ?_, l5⟩
    rw [hkdfGen, hx, ok_bind]
    simp only []
    rw [e4, ok_bind, List.foldlM_cons, e5]
    rfl
  · refine ⟨o1, o2, ?_, l5, l6⟩
    rw [hkdfGen, hx, ok_bind]
    simp only []
    rw [e4, ok_bind, List.foldlM_cons, e5, ok_bind, pure_eq_ok, ok_bind, List.foldlM_cons]
    simp only []
    rw [e6]
    rfl

/-- `LegalKeySizes` of RHX (RHX.cpp:852-901): the standard cipher, or one with an extended key schedule. -/
def rhxLegal (ext : Bool) (n : Nat) : Bool := if ext then n == 32 || n == 64 || n == 128 else n == 16 || n == 24 || n == 32

/-- HBA with an HMAC authenticator over the digest `D`; `s256` and `s512` are newly constructed SHA2 objects. -/
def hmacEnv (D : DigestOps) (hk : Nat → Bool) (compact ext : Bool) (s256 : Obj 32) (s512 : Obj 64) (cip : List Byte → List Byte → List Byte → List Byte) (name : List Byte) : Env where
  mac := hmacOps D hk
  gen n := if n = 64 then hkdfGen (sha2Ops (core512 compact)) hk s512 else hkdfGen (sha2Ops (core256 compact)) hk s256
  cip := cip
  name := name
  ckLen n := if n = 64 then 64 else 32
  mkLen n := if n = 64 then 64 else 32
  rkLen n := if n = 64 then 64 else 32
  legal := rhxLegal ext
  engLegal := rhxLegal ext

/-- The assumptions of the HBA theorems hold with HMAC over any digest that satisfies the digest interface, and HKDF over the SHA2 model. -/
theorem hmacEnv_good {D : DigestOps} {H : List Byte → List Byte} {okD : Nat → Prop} {HasD : D.σ → List Byte → Prop} (g : D.Hashes H okD HasD) (h2k : okD (D.block + D.size))
    (hsz : D.size < 2 ^ 63) (h32 : okD 32) (h64 : okD 64) (hk : Nat → Bool) (hkk : ∀ n, 8 ≤ n → hk n = true) (compact ext : Bool) {s256 : Obj 32} {s512 : Obj 64}
    (r256 : Obj.Run (core256 compact) s256 []) (r512 : Obj.Run (core512 compact) s512 []) {cip : List Byte → List Byte → List Byte → List Byte}
    (hc : ∀ k i b, b.length = 16 → (cip k i b).length = 16) (name : List Byte) (hn : name.length ≤ 2 ^ 59) :
    (hmacEnv D hk compact ext s256 s512 cip name).Good (Rfc2104.hmac H D.block) (fun n => okD (D.block + n)) (fun n => n < 2 ^ 64 ∧ okD n ∧ hk n = true) (Hmac.Inv H HasD) (2 ^ 60) := by
  have k256 : KdfDigest (sha2Ops (core256 compact)) Fips.sha256 (fun _ => True) (Obj.Run (core256 compact)) s256 (2 ^ 61 - 128) :=
    ⟨sha2_hashes (core256_good compact) (by decide), r256, fun _ _ => trivial, by decide, (by decide : 16 ≤ 32)⟩
  have k512 : KdfDigest (sha2Ops (core512 compact)) Fips.sha512 ok512 (Obj.Run (core512 compact)) s512 (2 ^ 61 - 128) :=
    ⟨sha2_hashes (core512_good compact) (by decide), r512, fun n h => C36_sha512_partial_range n h, by decide, (by decide : 16 ≤ 64)⟩
  have hleg : ∀ n, rhxLegal ext n = true → n ≤ 128 := by
    intro n h
    rw [rhxLegal] at h
    split at h <;> simp at h <;> omega
  have hlen : ∀ n, (hmacEnv D hk compact ext s256 s512 cip name).mkLen n = if n = 64 then 64 else 32 := fun _ => rfl
  refine ⟨hmac_macs g h2k hsz hk, hc, ?_, ?_, ?_, ?_⟩
  · intro n k c s hl hkl hcl hs
    have := hleg n hl
    have hs : s.length = 10 + name.length := hs
    by_cases h6 : n = 64
    · obtain ⟨a, b, e1, l1, l2⟩ := (hkdfGen_ok k512 hk hkk k c s (by omega) (by simp only [sha2Ops]; omega)).2
      refine ⟨a, b, ?_, ?_, ?_⟩
      · simp only [hmacEnv, if_pos h6]; exact e1
      · simp only [hmacEnv, if_pos h6]; exact l1
      · simp only [hmacEnv, if_pos h6]; exact l2
    · obtain ⟨a, b, e1, l1, l2⟩ := (hkdfGen_ok k256 hk hkk k c s (by omega) (by simp only [sha2Ops]; omega)).2
      refine ⟨a, b, ?_, ?_, ?_⟩
      · simp only [hmacEnv, if_neg h6]; exact e1
      · simp only [hmacEnv, if_neg h6]; exact l1
      · simp only [hmacEnv, if_neg h6]; exact l2
  · intro n k c s hl hkl hcl hs
    have := hleg n hl
    have hs : s.length = 10 + name.length := hs
    rw [hlen] at hkl
    by_cases h6 : n = 64
    · rw [if_pos h6] at hkl
      obtain ⟨a, e1, l1⟩ := (hkdfGen_ok k512 hk hkk k c s (by omega) (by simp only [sha2Ops]; omega)).1
      refine ⟨a, ?_, ?_⟩
      · simp only [hmacEnv, if_pos h6]; exact e1
      · simp only [hmacEnv, if_pos h6]; exact l1
    · rw [if_neg h6] at hkl
      obtain ⟨a, e1, l1⟩ := (hkdfGen_ok k256 hk hkk k c s (by omega) (by simp only [sha2Ops]; omega)).1
      refine ⟨a, ?_, ?_⟩
      · simp only [hmacEnv, if_neg h6]; exact e1
      · simp only [hmacEnv, if_neg h6]; exact l1
  · intro n hl
    have hl : rhxLegal ext n = true := hl
    show rhxLegal ext (if n = 64 then 64 else 32) = true
    split
    · rename_i h6; rw [h6] at hl; exact hl
    · rw [rhxLegal]; split <;> rfl
  · intro n hl
    rw [hlen]
    split
    · exact ⟨by decide, h64, hkk _ (by decide)⟩
    · exact ⟨by decide, h32, hkk _ (by decide)⟩

/-- C24 with HMAC-SHA2-256, HKDF over SHA2 and any block cipher: messages whose MAC input is any length. -/
theorem C24_hmac_sha256_partial (compact ext : Bool) (s256 : Obj 32) (s512 : Obj 64) (r256 : Obj.Run (core256 compact) s256 []) (r512 : Obj.Run (core512 compact) s512 [])
    (cip : List Byte → List Byte → List Byte → List Byte) (hc : ∀ k i b, b.length = 16 → (cip k i b).length = 16) (name : List Byte) (hn : name.length ≤ 2 ^ 59) {p q : Profile}
    (hpq : Compatible p q) (a b : Hba (hmacEnv (sha2Ops (core256 compact)) (fun n => decide (8 ≤ n)) compact ext s256 s512 cip name))
    (ha : a.Reach (fun _ => True) (Hmac.Inv Fips.sha256 (Obj.Run (core256 compact))) (2 ^ 60)) (hb : b.Reach (fun _ => True) (Hmac.Inv Fips.sha256 (Obj.Run (core256 compact))) (2 ^ 60))
    (key iv info : List Byte) (hk : rhxLegal ext key.length = true) (hiv : iv.length = 16) (hi : info.length ≤ 2 ^ 60) :
    ∃ a' b', a.initialize true key iv info none = .ok (none, a') ∧ b.initialize false key iv info none = .ok (none, b') ∧ ∀ n, Agree (fun _ => True) p q n a' b' :=
  C24_sequence_partial (hmacEnv_good (sha2_hashes (core256_good compact) (by decide)) trivial (by decide : 32 < 2 ^ 63) trivial trivial _ (fun n h => by simpa using h) compact ext r256 r512 hc name hn)
    hpq a b ha hb key iv info hk hiv hi

/-- There is such an instance: newly constructed. -/
example : ∃ (s256 : Obj 32) (s512 : Obj 64) (a : Hba (hmacEnv (sha2Ops (core256 true)) (fun n => decide (8 ≤ n)) true true s256 s512 (fun _ _ b => b) [82])),
    Obj.Run (core256 true) s256 [] ∧ Obj.Run (core512 true) s512 [] ∧ a.Reach (fun _ => True) (Hmac.Inv Fips.sha256 (Obj.Run (core256 true))) (2 ^ 60) := by
  obtain ⟨o, h0⟩ := (C36_sha256 true).1
  obtain ⟨o5, h5⟩ := (C36_sha512_partial true).1
  refine ⟨o, o5, .fresh (.fresh o), .new h0, .new h5, .fresh (x := none) ?_⟩
  exact ⟨by simp [Hmac.fresh], by simp [Hmac.fresh], fun _ => ⟨rfl, .new h0⟩, fun _ _ e => by cases e⟩

end Cex.Hba
