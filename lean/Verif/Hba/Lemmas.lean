import Verif.Hba.Model
import Verif.Hba.Spec
import Verif.Gcm.GcmLemmas
import Verif.Modes.CtrAny

/-!
# HBA: what every function does
-/

namespace Cex.Hba
open Cex Cex.IntTools Cex.Modes Cex.Modes.Spec Cex.Mac Cex.Gcm Stream Spec

/-- What is assumed of the parts: the MAC is the keyed function `F`, block encryption keeps the block size, the key derivation function gives outputs of the
sizes asked for (customisations up to `cmax` bytes), and the derived keys are accepted. -/
structure Env.Good (e : Env) (F : List Byte → List Byte → List Byte) (ok keyOk : Nat → Prop) (Has : e.mac.σ → Option (List Byte × List Byte) → Prop) (cmax : Nat) : Prop where
  mac : e.mac.Macs F ok keyOk Has
  cip : ∀ k i b, b.length = 16 → (e.cip k i b).length = 16
  gen2 : ∀ n k c s, e.legal n = true → k.length = n → c.length ≤ cmax → s.length = 10 + e.name.length →
    ∃ a b, e.gen n k c s [e.ckLen n, e.mkLen n] = .ok [a, b] ∧ a.length = e.ckLen n ∧ b.length = e.mkLen n
  gen1 : ∀ n k c s, e.legal n = true → k.length = e.mkLen n → c.length ≤ cmax → s.length = 10 + e.name.length →
    ∃ b, e.gen n k c s [e.rkLen n] = .ok [b] ∧ b.length = e.mkLen n
  eng : ∀ n, e.legal n = true → e.engLegal (e.ckLen n) = true
  mkey : ∀ n, e.legal n = true → keyOk (e.mkLen n)

/-- The values two parties share: size of the user's key, cipher key, info string, MAC key, nonce, counter. -/
structure Sess where
  n : Nat
  ck : List Byte
  info : List Byte
  key : List Byte
  nonce : List Byte
  cnt : Nat

variable {e : Env} {F : List Byte → List Byte → List Byte} {ok keyOk : Nat → Prop} {Has : e.mac.σ → Option (List Byte × List Byte) → Prop} {cmax : Nat}

/-- The instance is initialised, holds the values `s`, and has given `pend` to the MAC. -/
structure Hba.Ready (Has : e.mac.σ → Option (List Byte × List Byte) → Prop) (cmax : Nat) (s : Sess) (pend : List Byte) (enc : Bool) (st : Hba e) : Prop where
  init : st.init = true
  mode : st.enc = enc
  custom : st.custom = s.info
  infoLe : s.info.length ≤ cmax
  macKey : st.macKey = s.key
  keyLen : s.key.length = e.mkLen s.n
  macTag : st.macTag.length = e.mac.tag
  name : ∃ a, st.name = a ++ leEnc 2 (s.n * 8) ++ e.name ∧ a.length = 8
  counter : st.counter = s.cnt
  cntLt : s.cnt < 2 ^ 64
  ksize : st.ksize = s.n
  legal : e.legal s.n = true
  mac : Has st.mac (some (s.key, pend))
  nonce : st.nonce = s.nonce
  nonceLen : s.nonce.length = 16
  eng : st.eng = some (s.ck, s.info)

theorem write_le64 (v : BitVec 64) (pre win post : List Byte) (h : win.length = 8) :
    le64ToBytes v (pre ++ win ++ post) pre.length = .ok (pre ++ leEnc 8 v.toNat ++ post) := by
  obtain ⟨win', h1, h2, h3⟩ := (C01_le64_write v).1 pre win post h
  rw [h1, eq_leEnc h2 (h3.trans (Nat.mod_eq_of_lt v.isLt).symm)]

theorem write_le32 (v : BitVec 32) (pre win post : List Byte) (h : win.length = 4) :
    le32ToBytes v (pre ++ win ++ post) pre.length = .ok (pre ++ leEnc 4 v.toNat ++ post) := by
  obtain ⟨win', h1, h2, h3⟩ := (C01_le32_write v).1 pre win post h
  rw [h1, eq_leEnc h2 (h3.trans (Nat.mod_eq_of_lt v.isLt).symm)]

theorem write_le16 (v : BitVec 16) (pre win post : List Byte) (h : win.length = 2) :
    le16ToBytes v (pre ++ win ++ post) pre.length = .ok (pre ++ leEnc 2 v.toNat ++ post) := by
  obtain ⟨win', h1, h2, h3⟩ := (C01_le16_write v).1 pre win post h
  rw [h1, eq_leEnc h2 (h3.trans (Nat.mod_eq_of_lt v.isLt).symm)]

theorem leEnc_ofNat (n w v : Nat) (h : 2 ^ w = 256 ^ n) : leEnc n (BitVec.ofNat w v).toNat = leEnc n v := by
  rw [BitVec.toNat_ofNat, h, leEnc_mod]

theorem vresize_length (v : List Byte) (n : Nat) : (vresize v n).length = n := by
  rw [vresize, List.length_append, List.length_take, List.length_replicate]; omega

/-! ## Associated data -/

/-- A window `SetAssociatedData` does not refuse by mistake. -/
def AadOk (w : Window) : Prop := w.off ≤ w.len

theorem aad_ok (g : e.Good F ok keyOk Has cmax) {s : Sess} {pend enc} {st : Hba e} (h : st.Ready Has cmax s pend enc) (w : Window) (hw : AadOk w) :
    ∃ st', st.setAssociatedData w.buf w.off w.len = .ok (none, st') ∧ st'.Ready Has cmax s (pend ++ adText [w.bytes]) enc := by
  have hle := w.le
  have hsz := w.size
  have hl := w.bytes_length
  rw [Hba.setAssociatedData, if_neg (by simp [h.init]), if_neg (by rw [subU_le hw (by omega)]; omega)]
  by_cases h0 : w.len = 0
  · have hb : w.bytes = [] := List.eq_nil_of_length_eq_zero (by omega)
    rw [if_neg (by simp [h0])]
    exact ⟨st, rfl, by rw [adText, hb]; simpa using h⟩
  · have hb : w.bytes ≠ [] := fun hb => h0 (by rw [← hl, hb]; rfl)
    rw [if_pos h0]
    obtain ⟨m1, e1, i1⟩ := g.mac.update h.mac w
    have e2 := write_le32 (BitVec.ofNat 32 w.len) [] (List.replicate 4 0) [] (by simp)
    rw [leEnc_ofNat 4 32 _ (by decide)] at e2
    simp only [List.nil_append, List.append_nil, List.length_nil] at e2
    obtain ⟨m2, e3, i3⟩ := g.mac.update_all i1 (leEnc 4 w.len) (by simp)
    rw [e1, ok_bind, e2, ok_bind, e3, ok_bind]
    refine ⟨_, rfl, { h with mac := ?_ }⟩
    have : adText [w.bytes] = w.bytes ++ leEnc 4 w.len := by rw [adText, List.flatMap_singleton, if_neg hb, hl]
    rw [this, ← List.append_assoc]
    exact i3

theorem adText_cons (a : List Byte) (as : List (List Byte)) : adText (a :: as) = adText [a] ++ adText as := by simp [adText]

theorem feed_ok (g : e.Good F ok keyOk Has cmax) {s : Sess} {enc} : ∀ (ws : List Window) (pend : List Byte) (st : Hba e), st.Ready Has cmax s pend enc → (∀ w ∈ ws, AadOk w) →
    ∃ st', st.feed ws = .ok (none, st') ∧ st'.Ready Has cmax s (pend ++ adText (ws.map Window.bytes)) enc
  | [], pend, st, h, _ => ⟨st, rfl, by simpa [adText] using h⟩
  | w :: ws, pend, st, h, hw => by
    obtain ⟨s1, e1, i1⟩ := aad_ok g h w (hw w (by simp))
    obtain ⟨s2, e2, i2⟩ := feed_ok g ws _ s1 i1 (fun v hv => hw v (by simp [hv]))
    refine ⟨s2, ?_, ?_⟩
    · rw [Hba.feed, e1, ok_bind]; exact e2
    · rw [List.map_cons, adText_cons, ← List.append_assoc]; exact i2

/-! ## Finalize -/

/-- The values after a message: `k` is the next MAC key. -/
structure Env.Ratchet (e : Env) (s : Sess) (k : List Byte) : Prop where
  gen : e.gen s.n s.key s.info (kdfName s.cnt s.n e.name) [e.rkLen s.n] = .ok [k]
  len : k.length = e.mkLen s.n

theorem ratchet_exists (g : e.Good F ok keyOk Has cmax) (s : Sess) (h1 : e.legal s.n = true) (h2 : s.key.length = e.mkLen s.n) (h3 : s.info.length ≤ cmax) :
    ∃ k, e.Ratchet s k := by
  obtain ⟨k, a, b⟩ := g.gen1 s.n s.key s.info (kdfName s.cnt s.n e.name) h1 h2 h3 (by simp [kdfName]; omega)
  exact ⟨k, a, b⟩

theorem finalize_ok (g : e.Good F ok keyOk Has cmax) {s : Sess} {pend enc} {st : Hba e} (h : st.Ready Has cmax s pend enc) (hm : ok (pend.length + 8)) {k : List Byte}
    (hk : e.Ratchet s k) (pre junk post : List Byte) (hj : junk.length = e.mac.tag) :
    ∃ st', st.finalize (pre ++ junk ++ post) pre.length = .ok (st', pre ++ F s.key (pend ++ leEnc 8 (s.cnt + 24)) ++ post) ∧
      st'.Ready Has cmax { s with key := k } [] enc ∧ st'.macTag = F s.key (pend ++ leEnc 8 (s.cnt + 24)) := by
  have e1 := write_le64 (BitVec.ofNat 64 (s.cnt + 24)) [] (List.replicate 8 0) [] (by simp)
  rw [leEnc_ofNat 8 64 _ (by decide)] at e1
  simp only [List.nil_append, List.append_nil, List.length_nil] at e1
  obtain ⟨m1, e2, i2⟩ := g.mac.update_all h.mac (leEnc 8 (s.cnt + 24)) (by simp)
  obtain ⟨m2, x, e3, i3⟩ := g.mac.finalize i2 (by simpa using hm) [] st.macTag [] h.macTag
  simp only [List.nil_append, List.append_nil, List.length_nil] at e3
  have hF := g.mac.size s.key (pend ++ leEnc 8 (s.cnt + 24))
  obtain ⟨a, hn, ha⟩ := h.name
  have e4 := write_le64 (BitVec.ofNat 64 s.cnt) [] a (leEnc 2 (s.n * 8) ++ e.name) ha
  rw [leEnc_ofNat 8 64 _ (by decide)] at e4
  simp only [List.nil_append, List.length_nil] at e4
  obtain ⟨m3, e5, i5⟩ := g.mac.init i3 k (by rw [hk.len]; exact g.mkey _ h.legal)
  refine ⟨{ st with mac := m3, macTag := F s.key (pend ++ leEnc 8 (s.cnt + 24)), name := kdfName s.cnt s.n e.name, macKey := k }, ?_, ?_, rfl⟩
  · rw [Hba.finalize, h.counter, h.nonce, h.nonceLen, show s.cnt + 16 + 8 = s.cnt + 24 by omega, e1, ok_bind, e2, ok_bind, e3, ok_bind]
    simp only []
    rw [copy_at (a := pre) (b := junk) (c := post) (Holds.self _) rfl hF.symm (hj.trans hF.symm), ok_bind, hn, List.append_assoc a, e4, ok_bind, h.ksize, h.macKey, h.custom]
    rw [show leEnc 8 s.cnt ++ (leEnc 2 (s.n * 8) ++ e.name) = kdfName s.cnt s.n e.name by rw [kdfName, List.append_assoc]]
    rw [hk.gen, ok_bind]
    simp only []
    rw [e5, ok_bind, copy_whole (Holds.self k) rfl (by rw [h.keyLen, hk.len]), ok_bind]
    rfl
  · exact { h with macKey := rfl, keyLen := hk.len, macTag := hF, name := ⟨_, rfl, by simp⟩, mac := i5 }

theorem verify_ok (g : e.Good F ok keyOk Has cmax) {s : Sess} {pend enc} {st : Hba e} (h : st.Ready Has cmax s pend enc) (hm : ok (pend.length + 8)) {k : List Byte}
    (hk : e.Ratchet s k) (inp : List Byte) (off : Nat) (t : List Byte) (hin : Holds inp off t) (ht : t.length = e.mac.tag) :
    ∃ st', st.verify inp off = .ok (st', decide (F s.key (pend ++ leEnc 8 (s.cnt + 24)) = t)) ∧ st'.Ready Has cmax { s with key := k } [] enc := by
  obtain ⟨s1, e1, i1, hT⟩ := finalize_ok g h hm hk [] (List.replicate e.mac.tag 0) [] (by simp)
  simp only [List.nil_append, List.append_nil, List.length_nil] at e1
  have hF := g.mac.size s.key (pend ++ leEnc 8 (s.cnt + 24))
  generalize F s.key (pend ++ leEnc 8 (s.cnt + 24)) = T at *
  have e2 : ∃ v, (if s1.macTag.length ≠ 0 then do let t ← clear s1.macTag 0 s1.macTag.length; pure (vresize t e.mac.tag) else pure s1.macTag : M (List Byte)) = .ok v ∧
      v.length = e.mac.tag := by
    split
    · rw [clear_whole, ok_bind]; exact ⟨_, rfl, vresize_length _ _⟩
    · exact ⟨_, rfl, by rw [hT, hF]⟩
  obtain ⟨v, e2, hv⟩ := e2
  have hcmp := C04_compare T inp 0 off e.mac.tag (by omega) (by have := hin.le; omega)
  have hw : (inp.drop off).take e.mac.tag = t := by
    obtain ⟨a, b, e3, e4⟩ := hin
    rw [e3, ← e4, ← ht]; simp
  rw [hw, List.drop_zero, List.take_of_length_le (Nat.le_of_eq hF)] at hcmp
  refine ⟨{ s1 with macTag := T }, ?_, { i1 with macTag := hF }⟩
  rw [Hba.verify, e1, ok_bind]
  simp only []
  rw [e2, ok_bind, copy_whole (Holds.self T) (hv.trans hF.symm) (hv.trans hF.symm), ok_bind, hcmp, ok_bind]
  rfl

/-! ## Transform -/

/-- A keystream for texts of `len` bytes. -/
def KeyStream (E : List Byte → List Byte) (p : Profile) (nonce : List Byte) (len : Nat) (ks n' : List Byte) : Prop :=
  ks.length = len ∧ n'.length = 16 ∧ ∀ (W : Nat) (msg : List Byte), msg.length = len →
    Maps p (ctrTurns W (p.blockSize / p.degree)) (ctrCall ⟨E, E⟩ .icm W p nonce) msg n' (xorBytes ks msg)

theorem stream_any (E : List Byte → List Byte) (hE : ∀ b, b.length = 16 → (E b).length = 16) {p : Profile} (hv : p.Valid) (nonce : List Byte) (hn : nonce.length = 16) (len : Nat) :
    ∃ ks n', KeyStream E p nonce len ks n' := ctr_any .icm ⟨E, E⟩ hE p hv nonce hn len

theorem stream_small (E : List Byte → List Byte) (hE : ∀ b, b.length = 16 → (E b).length = 16) {p : Profile} (hv : p.Valid) (hs : SmallBlock p) (nonce : List Byte)
    (hn : nonce.length = 16) (len : Nat) : KeyStream E p nonce len (ctrStream E (Kind.icm.cnt nonce) len) (Kind.icm.cnt nonce ((len + 15) / 16)) := by
  refine ⟨ctrStream_length E hE .icm nonce len, cnt_length _ _ _, ?_⟩
  rintro W msg rfl scheds inp io pre junk post hf hin hj
  exact ctrTransform_ok .icm W ⟨E, E⟩ hE p hv nonce inp msg io hn hin pre junk post pre.length rfl hj (noLostCarry_of_small hv hs _ _) scheds hf

/-- The fairness of the schedules of one call. -/
abbrev FairFor (W : Nat) (p : Profile) (len : Nat) (scheds : Nat → List Nat) : Prop := Fair p (ctrTurns W (p.blockSize / p.degree)) len scheds

theorem cipher_ok {s : Sess} {pend enc} {st : Hba e} (h : st.Ready Has cmax s pend enc) {p : Profile} {ks n' : List Byte} (msg : List Byte)
    (hs : KeyStream (e.cip s.ck s.info) p s.nonce msg.length ks n') (W : Nat) (scheds : Nat → List Nat) (hf : FairFor W p msg.length scheds) (inp : List Byte) (io : Nat) (hin : Holds inp io msg)
    (pre junk post : List Byte) (hj : junk.length = msg.length) :
    st.cipher W p scheds inp io (pre ++ junk ++ post) pre.length msg.length = .ok ({ st with nonce := n' }, pre ++ xorBytes ks msg ++ post) ∧
      Hba.Ready Has cmax { s with nonce := n' } pend enc { st with nonce := n' } := by
  have := hs.2.2 W msg rfl scheds inp io pre junk post hf hin hj
  rw [ctrCall] at this
  refine ⟨?_, { h with nonce := rfl, nonceLen := hs.2.1 }⟩
  rw [Hba.cipher, h.eng]
  simp only [h.nonce, this, ok_bind, pure_eq_ok]

/-- The values after a message of `len` bytes with next nonce `n'` and next MAC key `k`. -/
def Sess.next (s : Sess) (len : Nat) (n' k : List Byte) : Sess := { s with cnt := (s.cnt + len) % 2 ^ 64, nonce := n', key := k }

/-- What one `Transform` authenticates. -/
abbrev Sess.text (s : Sess) (pend c : List Byte) : List Byte := pend ++ s.nonce ++ c ++ leEnc 8 (s.cnt + c.length + 24)

/-- The next MAC key after `len` more bytes. -/
abbrev Env.Next (e : Env) (s : Sess) (len : Nat) (k : List Byte) : Prop := e.Ratchet { s with cnt := (s.cnt + len) % 2 ^ 64 } k

theorem counter_enc (a b : Nat) : leEnc 8 ((a + b) % 2 ^ 64 + 24) = leEnc 8 (a + b + 24) := by
  rw [← leEnc_mod 8 ((a + b) % 2 ^ 64 + 24), ← leEnc_mod 8 (a + b + 24)]
  congr 1
  rw [show (256 : Nat) ^ 8 = 2 ^ 64 by decide]
  omega

theorem seal_ok (g : e.Good F ok keyOk Has cmax) {s : Sess} {pend} {st : Hba e} (h : st.Ready Has cmax s pend true) {p : Profile} {ks n' : List Byte} (msg : List Byte)
    (hs : KeyStream (e.cip s.ck s.info) p s.nonce msg.length ks n') (W : Nat) (scheds : Nat → List Nat) (hf : FairFor W p msg.length scheds) (inp : List Byte) (io : Nat) (hin : Holds inp io msg)
    (pre junk post : List Byte) (hj : junk.length = msg.length + e.mac.tag) (hsz : (pre ++ junk ++ post).length < 2 ^ 64) (hm : ok (pend.length + 16 + msg.length + 8)) {k : List Byte}
    (hk : e.Next s msg.length k) :
    ∃ st', st.transform W p scheds inp io (pre ++ junk ++ post) pre.length msg.length =
        .ok (none, st', pre ++ (xorBytes ks msg ++ F s.key (s.text pend (xorBytes ks msg))) ++ post) ∧ st'.Ready Has cmax (s.next msg.length n' k) [] true := by
  have hxl : (xorBytes ks msg).length = msg.length := by rw [xorBytes_length, hs.1, Nat.min_self]
  have hj1 : (junk.take msg.length).length = msg.length := by rw [List.length_take]; omega
  have hj2 : (junk.drop msg.length).length = e.mac.tag := by rw [List.length_drop]; omega
  have e0 : pre ++ junk ++ post = pre ++ junk.take msg.length ++ (junk.drop msg.length ++ post) := by
    simp only [List.append_assoc, List.append_cancel_left_eq]
    rw [← List.append_assoc, List.take_append_drop]
  obtain ⟨m1, e1, i1⟩ := g.mac.update_all h.mac s.nonce (by rw [h.nonceLen]; decide)
  rw [← h.nonce] at e1
  have h1 : Hba.Ready Has cmax s (pend ++ s.nonce) true { st with mac := m1 } := { h with mac := i1 }
  obtain ⟨e2, h2⟩ := cipher_ok h1 msg hs W scheds hf inp io hin pre (junk.take msg.length) (junk.drop msg.length ++ post) hj1
  have hsz' : (pre ++ xorBytes ks msg ++ (junk.drop msg.length ++ post)).length < 2 ^ 64 := by
    have := hsz
    simp only [List.length_append] at this ⊢
    omega
  obtain ⟨m2, e3, i3⟩ := g.mac.update_at h2.mac (pre ++ xorBytes ks msg ++ (junk.drop msg.length ++ post)) (xorBytes ks msg) pre.length ⟨pre, _, rfl, rfl⟩ hsz'
  rw [hxl] at e3
  have h3 : Hba.Ready Has cmax { s with nonce := n', cnt := (s.cnt + msg.length) % 2 ^ 64 } (pend ++ s.nonce ++ xorBytes ks msg) true
      { st with nonce := n', mac := m2, counter := (s.cnt + msg.length) % 2 ^ 64 } :=
    { h2 with mac := i3, counter := rfl, cntLt := Nat.mod_lt _ (by decide) }
  obtain ⟨st', e4, h4, _⟩ := finalize_ok g h3 (by simp only [List.length_append, h.nonceLen, hxl]; exact hm) (k := k) ⟨hk.gen, hk.len⟩ (pre ++ xorBytes ks msg) (junk.drop msg.length) post hj2
  simp only [counter_enc] at e4
  refine ⟨st', ?_, h4⟩
  rw [Hba.transform, if_neg (by simp [h.init]), e1, ok_bind]
  simp only []
  have hlen : (pre ++ junk ++ post).length = pre.length + (msg.length + e.mac.tag) + post.length := by simp only [List.length_append, hj]
  rw [if_pos h.mode, subU_le (by omega) hsz, if_neg (by rw [Nat.mod_eq_of_lt (by omega)]; omega), e0, e2, ok_bind]
  simp only []
  rw [e3, ok_bind, h.counter]
  rw [List.length_append, hxl] at e4
  simp only [List.append_assoc] at e4 ⊢
  rw [e4, ok_bind, hxl]
  rfl

theorem open_ok (g : e.Good F ok keyOk Has cmax) {s : Sess} {pend} {st : Hba e} (h : st.Ready Has cmax s pend false) {p : Profile} {ks n' : List Byte} (c t : List Byte)
    (ht : t.length = e.mac.tag) (hs : KeyStream (e.cip s.ck s.info) p s.nonce c.length ks n') (W : Nat) (scheds : Nat → List Nat) (hf : FairFor W p c.length scheds) (inp : List Byte) (io : Nat)
    (hin : Holds inp io (c ++ t)) (hi : inp.length < 2 ^ 64) (pre junk post : List Byte) (hj : junk.length = c.length) (hsz : (pre ++ junk ++ post).length < 2 ^ 64)
    (hm : ok (pend.length + 16 + c.length + 8)) {k : List Byte} (hk : e.Next s c.length k) :
    ∃ st', st.transform W p scheds inp io (pre ++ junk ++ post) pre.length c.length =
        .ok (if F s.key (s.text pend c) = t then (none, st', pre ++ xorBytes ks c ++ post) else (some .authenticationFailure, st', pre ++ junk ++ post)) ∧
      st'.Ready Has cmax (s.next c.length (if F s.key (s.text pend c) = t then n' else s.nonce) k) [] false := by
  have hin1 : Holds inp io c := by
    have := hin.takeN c.length
    simpa using this
  have hin2 : Holds inp (io + c.length) t := by
    have := hin.dropN (n := c.length) (by simp)
    simpa using this
  obtain ⟨m1, e1, i1⟩ := g.mac.update_all h.mac s.nonce (by rw [h.nonceLen]; decide)
  rw [← h.nonce] at e1
  obtain ⟨m2, e3, i3⟩ := g.mac.update_at i1 inp c io hin1 hi
  have h3 : Hba.Ready Has cmax { s with cnt := (s.cnt + c.length) % 2 ^ 64 } (pend ++ s.nonce ++ c) false
      { st with mac := m2, counter := (s.cnt + c.length) % 2 ^ 64 } :=
    { h with mac := i3, counter := rfl, cntLt := Nat.mod_lt _ (by decide) }
  obtain ⟨s4, e4, h4⟩ := verify_ok g h3 (by simp only [List.length_append, h.nonceLen]; exact hm) (k := k) ⟨hk.gen, hk.len⟩ inp (io + c.length) t hin2 ht
  simp only [counter_enc] at e4
  have hlen : (pre ++ junk ++ post).length = pre.length + c.length + post.length := by simp only [List.length_append, hj]
  have hrun : st.transform W p scheds inp io (pre ++ junk ++ post) pre.length c.length = (if decide (F s.key (s.text pend c) = t) = false then
      pure (some .authenticationFailure, s4, pre ++ junk ++ post) else do
        let r ← s4.cipher W p scheds inp io (pre ++ junk ++ post) pre.length c.length
        return (none, r.1, r.2)) := by
    rw [Hba.transform, if_neg (by simp [h.init]), e1, ok_bind]
    simp only []
    rw [if_neg (by simp [h.mode]), subU_le (by omega) hsz, if_neg (by omega), e3, ok_bind, h.counter, e4, ok_bind]
  by_cases heq : F s.key (s.text pend c) = t
  · obtain ⟨e5, h5⟩ := cipher_ok h4 c hs W scheds hf inp io hin1 pre junk post hj
    refine ⟨{ s4 with nonce := n' }, ?_, ?_⟩
    · rw [hrun, if_neg (by rw [decide_eq_true heq]; decide), if_pos heq, e5, ok_bind]; rfl
    · rw [if_pos heq]; exact h5
  · refine ⟨s4, ?_, ?_⟩
    · rw [hrun, if_pos (decide_eq_false heq), if_neg heq]; rfl
    · rw [if_neg heq]; exact h4

/-! ## Initialize -/

theorem makeName_ok (st : Hba e) (n : Nat) : st.makeName n = .ok (kdfName 1 n e.name) := by
  have hl : (vresize st.name (8 + 2 + e.name.length)).length = 8 + 2 + e.name.length := vresize_length _ _
  rw [Hba.makeName]
  generalize vresize st.name (8 + 2 + e.name.length) = v at hl ⊢
  have hv : v = [] ++ v.take 8 ++ ((v.drop 8).take 2 ++ (v.drop 8).drop 2) := by rw [List.take_append_drop, List.nil_append, List.take_append_drop]
  have e1 := write_le64 1 [] (v.take 8) ((v.drop 8).take 2 ++ (v.drop 8).drop 2) (by rw [List.length_take]; omega)
  rw [← hv] at e1
  have e2 := write_le16 (BitVec.ofNat 16 (n * 8)) (leEnc 8 1) ((v.drop 8).take 2) ((v.drop 8).drop 2) (by rw [List.length_take, List.length_drop]; omega)
  rw [leEnc_ofNat 2 16 _ (by decide), leEnc_length] at e2
  have e3 := blit_at (a := leEnc 8 1 ++ leEnc 2 (n * 8)) (b := (v.drop 8).drop 2) (c := []) (s := e.name) (off := 10) (by simp) (by simp; omega)
  simp only [List.length_nil] at e1
  rw [e1, ok_bind, show [] ++ leEnc 8 (1 : BitVec 64).toNat ++ ((v.drop 8).take 2 ++ (v.drop 8).drop 2) = leEnc 8 1 ++ (v.drop 8).take 2 ++ (v.drop 8).drop 2 by simp,
    e2, ok_bind]
  simp only [List.append_nil] at e3
  exact e3

/-- What holds of every reachable state. -/
structure Hba.Wf (Has : e.mac.σ → Option (List Byte × List Byte) → Prop) (cmax : Nat) (st : Hba e) : Prop where
  nonce : st.nonce.length = 16
  idle : st.init = false → st.custom = [] ∧ ∃ x, Has st.mac x
  ready : st.init = true → ∃ s pend, st.Ready Has cmax s pend st.enc

theorem Hba.Ready.wf {s : Sess} {pend enc} {st : Hba e} (h : st.Ready Has cmax s pend enc) : st.Wf Has cmax :=
  ⟨by rw [h.nonce, h.nonceLen], (fun hi => by rw [h.init] at hi; cases hi), fun _ => ⟨s, pend, by rw [h.mode]; exact h⟩⟩

/-- The values after `Initialize`. -/
structure Env.Start (e : Env) (key iv info : List Byte) (s : Sess) : Prop where
  gen : e.gen key.length key info (kdfName 1 key.length e.name) [e.ckLen key.length, e.mkLen key.length] = .ok [s.ck, s.key]
  n : s.n = key.length
  info : s.info = info
  nonce : s.nonce = iv
  cnt : s.cnt = 1
  ckLen : s.ck.length = e.ckLen key.length
  keyLen : s.key.length = e.mkLen key.length

theorem start_exists (g : e.Good F ok keyOk Has cmax) (key iv info : List Byte) (h1 : e.legal key.length = true) (h2 : info.length ≤ cmax) : ∃ s, e.Start key iv info s := by
  obtain ⟨a, b, h3, h4, h5⟩ := g.gen2 key.length key info (kdfName 1 key.length e.name) h1 rfl h2 (by simp [kdfName]; omega)
  exact ⟨⟨key.length, a, info, b, iv, 1⟩, h3, rfl, rfl, rfl, rfl, h4, h5⟩

theorem initialize_ok (g : e.Good F ok keyOk Has cmax) {st : Hba e} (w : st.Wf Has cmax) (enc : Bool) (key iv info : List Byte) (h1 : e.legal key.length = true) (h2 : iv.length = 16)
    (h3 : info.length ≤ cmax) {s : Sess} (hs : e.Start key iv info s) :
    ∃ st', st.initialize enc key iv info none = .ok (none, st') ∧ st'.Ready Has cmax s [] enc := by
  have h0 : ∃ s0 : Hba e, (if st.init then st.reset else pure st) = .ok s0 ∧ s0.custom = [] ∧ s0.nonce.length = 16 ∧ ∃ x, Has s0.mac x := by
    cases hi : st.init with
    | true =>
      obtain ⟨s1, pend, hr⟩ := w.ready hi
      obtain ⟨m, y, e1, i1⟩ := g.mac.reset hr.mac
      rw [if_pos rfl, Hba.reset, e1, ok_bind]
      exact ⟨_, rfl, rfl, w.nonce, y, i1⟩
    | false => exact ⟨st, rfl, (w.idle hi).1, w.nonce, (w.idle hi).2⟩
  obtain ⟨s0, e0, hc, hn, x, hx⟩ := h0
  have e1 : s0.setCustom info = .ok info := by
    rw [Hba.setCustom]
    by_cases hi : info.length = 0
    · rw [if_neg (by simp [hi]), hc, List.eq_nil_of_length_eq_zero hi]; rfl
    · rw [if_pos hi, copy_whole (Holds.self info) rfl (vresize_length _ _)]
  obtain ⟨m, e2, i2⟩ := g.mac.init hx s.key (by rw [hs.keyLen]; exact g.mkey _ h1)
  rw [Hba.initialize, if_neg (by simp [h1]), if_neg (by simp [h2])]
  simp only []
  rw [e0, ok_bind, e1, ok_bind, makeName_ok, ok_bind, hs.gen, ok_bind]
  simp only []
  rw [if_neg (by rw [hs.ckLen]; simp [g.eng _ h1]), copy_whole (Holds.self iv) h2.symm (hn.trans h2.symm), ok_bind, e2, ok_bind,
    copy_whole (Holds.self s.key) rfl (vresize_length _ _), ok_bind]
  refine ⟨_, rfl, rfl, rfl, hs.info.symm, by rw [hs.info]; exact h3, rfl, by rw [hs.keyLen, hs.n], vresize_length _ _, ⟨leEnc 8 1, by rw [hs.n]; rfl, by simp⟩, hs.cnt.symm,
    by rw [hs.cnt]; decide, hs.n.symm, by rw [hs.n]; exact h1, i2, hs.nonce.symm, by rw [hs.nonce]; exact h2, by rw [hs.info]⟩

end Cex.Hba
