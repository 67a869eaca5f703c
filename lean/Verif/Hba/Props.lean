import Verif.Hba.Lemmas
import Verif.Gcm.GcmProps

/-!
# C24, C25, C26: HBA

The theorems start from any state reached by any calls, including calls that throw.
-/

namespace Cex.Hba
open Cex Cex.IntTools Cex.Modes Cex.Modes.Spec Cex.Mac Cex.Gcm Stream Spec

variable {e : Env} {F : List Byte → List Byte → List Byte} {ok keyOk : Nat → Prop} {Has : e.mac.σ → Option (List Byte × List Byte) → Prop} {cmax : Nat}

/-- The states of an instance: constructed, then any calls, successful or throwing. Arrays contain the windows named, the customisation is not longer than `cmax`, and the text
given to the MAC for one message is not too long for the MAC (`ok`). -/
inductive Hba.Reach (ok : Nat → Prop) (Has : e.mac.σ → Option (List Byte × List Byte) → Prop) (cmax : Nat) : Hba e → Prop
  | fresh {s x} : Has s x → Reach ok Has cmax (.fresh s)
  | init {st st' x enc key iv info par} : Reach ok Has cmax st → info.length ≤ cmax → st.initialize enc key iv info par = .ok (x, st') → Reach ok Has cmax st'
  | aad {st st' x} (w : Window) : Reach ok Has cmax st → st.setAssociatedData w.buf w.off w.len = .ok (x, st') → Reach ok Has cmax st'
  | transform {st st' x W p scheds inp io out oo len out'} : Reach ok Has cmax st → p.Valid → FairFor W p len scheds →
      io + len + (if st.enc then 0 else e.mac.tag) ≤ inp.length → inp.length + e.mac.tag < 2 ^ 64 → oo ≤ out.length → out.length < 2 ^ 64 →
      (∀ k m, Has st.mac (some (k, m)) → ok (m.length + 16 + len + 8)) → st.transform W p scheds inp io out oo len = .ok (x, st', out') → Reach ok Has cmax st'

theorem holds_of_le {inp : List Byte} {io len : Nat} (h : io + len ≤ inp.length) : ∃ x, Holds inp io x ∧ x.length = len :=
  ⟨(inp.drop io).take len, ⟨inp.take io, (inp.drop io).drop len, by rw [List.append_assoc, List.take_append_drop, List.take_append_drop], by rw [List.length_take]; omega⟩,
    by rw [List.length_take, List.length_drop]; omega⟩

theorem split_at {out : List Byte} {oo len : Nat} (h : oo + len ≤ out.length) : ∃ pre junk post, out = pre ++ junk ++ post ∧ pre.length = oo ∧ junk.length = len :=
  ⟨out.take oo, (out.drop oo).take len, (out.drop oo).drop len, by rw [List.append_assoc, List.take_append_drop, List.take_append_drop], by rw [List.length_take]; omega,
    by rw [List.length_take, List.length_drop]; omega⟩

theorem initialize_wf (g : e.Good F ok keyOk Has cmax) {st st' : Hba e} (w : st.Wf Has cmax) {x enc key iv info par} (hi : info.length ≤ cmax)
    (h : st.initialize enc key iv info par = .ok (x, st')) : st'.Wf Has cmax := by
  have h0 := h
  rw [Hba.initialize.eq_def] at h
  split at h
  · cases h; exact w
  · rename_i hl
    split at h
    · cases h; exact w
    · rename_i hiv
      split at h
      · cases h; exact w
      · obtain ⟨s, hs⟩ := start_exists g key iv info (by simpa using hl) hi
        obtain ⟨s1, e1, i1⟩ := initialize_ok g w enc key iv info (by simpa using hl) (by simpa using hiv) hi hs
        rw [e1] at h0; cases h0
        exact i1.wf

theorem Hba.Reach.wf (g : e.Good F ok keyOk Has cmax) {st : Hba e} (h : st.Reach ok Has cmax) : st.Wf Has cmax := by
  induction h with
  | fresh hs => exact ⟨by simp [Hba.fresh], fun _ => ⟨rfl, _, hs⟩, fun h => by cases h⟩
  | init _ hi h w => exact initialize_wf g w hi h
  | @aad st st' x v _ h w =>
    cases hi : st.init with
    | false =>
      rw [Hba.setAssociatedData, if_pos hi] at h
      cases h; exact w
    | true =>
      obtain ⟨s, pend, hr⟩ := w.ready hi
      by_cases hb : subU v.len v.off > v.buf.length
      · rw [Hba.setAssociatedData, if_neg (by simp [hi]), if_pos hb] at h
        cases h; exact w
      · by_cases h0 : v.len = 0
        · rw [Hba.setAssociatedData, if_neg (by simp [hi]), if_neg hb, if_neg (by simp [h0])] at h
          cases h; exact w
        · rw [Hba.setAssociatedData, if_neg (by simp [hi]), if_neg hb, if_pos h0] at h
          obtain ⟨m1, e1, i1⟩ := g.mac.update hr.mac v
          have e2 := write_le32 (BitVec.ofNat 32 v.len) [] (List.replicate 4 0) [] (by simp)
          simp only [List.nil_append, List.append_nil, List.length_nil] at e2
          obtain ⟨m2, e3, i3⟩ := g.mac.update_all i1 (leEnc 4 (BitVec.ofNat 32 v.len).toNat) (by simp)
          rw [e1, ok_bind, e2, ok_bind, e3, ok_bind] at h
          cases h
          have h3 : Hba.Ready Has cmax s _ st.enc { st with mac := m2 } := { hr with mac := i3 }
          exact h3.wf
  | @transform st st' x W p scheds inp io out oo len out' _ hv hf hin hisz ho hosz hok h w =>
    cases hi : st.init with
    | false =>
      rw [Hba.transform, if_pos hi] at h
      cases h; exact w
    | true =>
      obtain ⟨s, pend, hr⟩ := w.ready hi
      have hokp := hok _ _ hr.mac
      obtain ⟨m1, e1, i1⟩ := g.mac.update_all hr.mac s.nonce (by rw [hr.nonceLen]; decide)
      rw [← hr.nonce] at e1
      have h1 : Hba.Ready Has cmax s (pend ++ s.nonce) st.enc { st with mac := m1 } := { hr with mac := i1 }
      obtain ⟨k, hk⟩ := ratchet_exists g { s with cnt := (s.cnt + len) % 2 ^ 64 } hr.legal hr.keyLen hr.infoLe
      obtain ⟨ks, n', hs⟩ := stream_any (e.cip s.ck s.info) (g.cip _ _) hv s.nonce hr.nonceLen len
      cases hm : st.enc with
      | true =>
        rw [hm] at hr hin
        simp only [if_true] at hin
        obtain ⟨msg, hmsg, rfl⟩ := holds_of_le (inp := inp) (io := io) (len := len) (by omega)
        by_cases hsz : subU out.length oo < (msg.length + e.mac.tag) % 2 ^ 64
        · rw [Hba.transform, if_neg (by simp [hi]), e1, ok_bind] at h
          simp only [] at h
          rw [if_pos hm, if_pos hsz] at h
          cases h; exact h1.wf
        · have htl := g.mac.tag_lt
          rw [subU_le ho hosz] at hsz
          rw [Nat.mod_eq_of_lt (by omega)] at hsz
          obtain ⟨pre, junk, post, rfl, rfl, hj⟩ := split_at (out := out) (oo := oo) (len := msg.length + e.mac.tag) (by omega)
          obtain ⟨s2, e2, i2⟩ := seal_ok g hr msg hs W scheds hf inp io hmsg pre junk post hj hosz hokp hk
          rw [e2] at h; cases h
          exact i2.wf
      | false =>
        rw [hm] at hr hin
        simp only [Bool.false_eq_true, if_false] at hin
        by_cases hsz : subU out.length oo < len
        · rw [Hba.transform, if_neg (by simp [hi]), e1, ok_bind] at h
          simp only [] at h
          rw [if_neg (by simp [hm]), if_pos hsz] at h
          cases h; exact h1.wf
        · rw [subU_le ho hosz] at hsz
          obtain ⟨ct, hct, hcl⟩ := holds_of_le (inp := inp) (io := io) (len := len + e.mac.tag) (by omega)
          obtain ⟨pre, junk, post, rfl, rfl, hj⟩ := split_at (out := out) (oo := oo) (len := len) (by omega)
          obtain ⟨c, t, rfl, hc, ht⟩ : ∃ c t, ct = c ++ t ∧ c.length = len ∧ t.length = e.mac.tag :=
            ⟨ct.take len, ct.drop len, (List.take_append_drop _ _).symm, by rw [List.length_take]; omega, by rw [List.length_drop]; omega⟩
          subst hc
          obtain ⟨s2, e2, i2⟩ := open_ok g hr c t ht hs W scheds hf inp io hct (by omega) pre junk post hj hosz hokp hk
          rw [e2] at h
          split at h
          · cases h; exact i2.wf
          · cases h; exact i2.wf

/-! ## C24 -/

/-- Two parallel profiles with the same keystream, for every nonce and length. -/
def Compatible (p q : Profile) : Prop := p.Valid ∧ q.Valid ∧ (p = q ∨ (SmallBlock p ∧ SmallBlock q))

theorem shared_stream {p q : Profile} (h : Compatible p q) (E : List Byte → List Byte) (hE : ∀ b, b.length = 16 → (E b).length = 16) (nonce : List Byte) (hn : nonce.length = 16)
    (len : Nat) : ∃ ks n', KeyStream E p nonce len ks n' ∧ KeyStream E q nonce len ks n' := by
  obtain ⟨hp, hq, rfl | ⟨h1, h2⟩⟩ := h
  · obtain ⟨ks, n', hs⟩ := stream_any E hE hp nonce hn len
    exact ⟨ks, n', hs, hs⟩
  · exact ⟨_, _, stream_small E hE hp h1 nonce hn len, stream_small E hE hq h2 nonce hn len⟩

/-- `Agree n a b`: the next `n` messages, chosen one after the other, are sealed by `a` and restored by `b`; the MAC keys are equal throughout. Each message comes with its own
associated data, wherever the texts are in their arrays, on any two machines, under any fair schedules; only the output windows are written. -/
def Agree (ok : Nat → Prop) (p q : Profile) : Nat → Hba e → Hba e → Prop
  | 0, a, b => a.macKey = b.macKey
  | n + 1, a, b => a.macKey = b.macKey ∧ ∀ (W W' : Nat) (ads : List Window) (msg : List Byte) (sch : Nat → List Nat) (inp : List Byte) (io : Nat) (pre junk post : List Byte),
      (∀ w ∈ ads, AadOk w) → ok ((adText (ads.map Window.bytes)).length + 16 + msg.length + 8) → FairFor W p msg.length sch → Holds inp io msg →
      junk.length = msg.length + e.mac.tag → (pre ++ junk ++ post).length < 2 ^ 64 →
      ∃ res a', res.length = msg.length + e.mac.tag ∧
        a.message ads W p sch inp io (pre ++ junk ++ post) pre.length msg.length = .ok (none, a', pre ++ res ++ post) ∧
        ∀ (ads' : List Window) (sch' : Nat → List Nat) (inp' : List Byte) (io' : Nat) (pre' junk' post' : List Byte), ads'.map Window.bytes = ads.map Window.bytes → (∀ w ∈ ads', AadOk w) →
          FairFor W' q msg.length sch' → Holds inp' io' res → inp'.length < 2 ^ 64 → junk'.length = msg.length → (pre' ++ junk' ++ post').length < 2 ^ 64 →
          ∃ b', b.message ads' W' q sch' inp' io' (pre' ++ junk' ++ post') pre'.length msg.length = .ok (none, b', pre' ++ msg ++ post') ∧ Agree ok p q n a' b'

theorem message_seal (g : e.Good F ok keyOk Has cmax) {s : Sess} {pend} {st : Hba e} (h : st.Ready Has cmax s pend true) (ads : List Window) (had : ∀ w ∈ ads, AadOk w) {p : Profile}
    {ks n' : List Byte} (msg : List Byte) (hs : KeyStream (e.cip s.ck s.info) p s.nonce msg.length ks n') (W : Nat) (scheds : Nat → List Nat) (hf : FairFor W p msg.length scheds)
    (inp : List Byte) (io : Nat) (hin : Holds inp io msg) (pre junk post : List Byte) (hj : junk.length = msg.length + e.mac.tag) (hsz : (pre ++ junk ++ post).length < 2 ^ 64)
    (hm : ok (pend.length + (adText (ads.map Window.bytes)).length + 16 + msg.length + 8)) {k : List Byte} (hk : e.Next s msg.length k) :
    ∃ st', st.message ads W p scheds inp io (pre ++ junk ++ post) pre.length msg.length =
        .ok (none, st', pre ++ (xorBytes ks msg ++ F s.key (pend ++ macText (ads.map Window.bytes) s.nonce s.cnt (xorBytes ks msg))) ++ post) ∧
      st'.Ready Has cmax (s.next msg.length n' k) [] true := by
  obtain ⟨s1, e1, h1⟩ := feed_ok g ads pend st h had
  obtain ⟨s2, e2, h2⟩ := seal_ok g h1 msg hs W scheds hf inp io hin pre junk post hj hsz (by rw [List.length_append]; exact hm) hk
  refine ⟨s2, ?_, h2⟩
  rw [Hba.message, e1, ok_bind, macText]
  simp only [Sess.text, List.append_assoc] at e2 ⊢
  exact e2

theorem message_open (g : e.Good F ok keyOk Has cmax) {s : Sess} {pend} {st : Hba e} (h : st.Ready Has cmax s pend false) (ads : List Window) (had : ∀ w ∈ ads, AadOk w) {p : Profile}
    {ks n' : List Byte} (c t : List Byte) (ht : t.length = e.mac.tag) (hs : KeyStream (e.cip s.ck s.info) p s.nonce c.length ks n') (W : Nat) (scheds : Nat → List Nat)
    (hf : FairFor W p c.length scheds) (inp : List Byte) (io : Nat) (hin : Holds inp io (c ++ t)) (hi : inp.length < 2 ^ 64) (pre junk post : List Byte) (hj : junk.length = c.length)
    (hsz : (pre ++ junk ++ post).length < 2 ^ 64) (hm : ok (pend.length + (adText (ads.map Window.bytes)).length + 16 + c.length + 8)) {k : List Byte} (hk : e.Next s c.length k) :
    ∃ st', st.message ads W p scheds inp io (pre ++ junk ++ post) pre.length c.length =
        .ok (if F s.key (pend ++ macText (ads.map Window.bytes) s.nonce s.cnt c) = t then (none, st', pre ++ xorBytes ks c ++ post)
          else (some .authenticationFailure, st', pre ++ junk ++ post)) ∧
      st'.Ready Has cmax (s.next c.length (if F s.key (pend ++ macText (ads.map Window.bytes) s.nonce s.cnt c) = t then n' else s.nonce) k) [] false := by
  obtain ⟨s1, e1, h1⟩ := feed_ok g ads pend st h had
  obtain ⟨s2, e2, h2⟩ := open_ok g h1 c t ht hs W scheds hf inp io hin hi pre junk post hj hsz (by rw [List.length_append]; exact hm) hk
  have ht : s.text (pend ++ adText (ads.map Window.bytes)) c = pend ++ macText (ads.map Window.bytes) s.nonce s.cnt c := by simp only [Sess.text, macText, List.append_assoc]
  rw [ht] at e2 h2
  refine ⟨s2, ?_, h2⟩
  rw [Hba.message, e1, ok_bind]
  exact e2

theorem agree_ready (g : e.Good F ok keyOk Has cmax) {p q : Profile} (hc : Compatible p q) : ∀ (n : Nat) (s : Sess) (a b : Hba e), a.Ready Has cmax s [] true →
    b.Ready Has cmax s [] false → Agree ok p q n a b
  | 0, s, a, b, ha, hb => ha.macKey.trans hb.macKey.symm
  | n + 1, s, a, b, ha, hb => by
    refine ⟨ha.macKey.trans hb.macKey.symm, fun W W' ads msg sch inp io pre junk post had hok hf hin hj hsz => ?_⟩
    obtain ⟨ks, n', hs, ht⟩ := shared_stream hc (e.cip s.ck s.info) (g.cip _ _) s.nonce ha.nonceLen msg.length
    obtain ⟨k, hk⟩ := ratchet_exists g { s with cnt := (s.cnt + msg.length) % 2 ^ 64 } ha.legal ha.keyLen ha.infoLe
    obtain ⟨a', e1, h1⟩ := message_seal g ha ads had msg hs W sch hf inp io hin pre junk post hj hsz (by simpa using hok) hk
    have hxl : (xorBytes ks msg).length = msg.length := by rw [xorBytes_length, hs.1, Nat.min_self]
    have hF := g.mac.size s.key ([] ++ macText (ads.map Window.bytes) s.nonce s.cnt (xorBytes ks msg))
    refine ⟨_, a', by rw [List.length_append, hxl, hF], e1, fun ads' sch' inp' io' pre' junk' post' hads had' hf' hin' hi' hj' hsz' => ?_⟩
    obtain ⟨b', e2, h2⟩ := message_open g hb ads' had' (xorBytes ks msg) _ hF (hxl ▸ ht) W' sch' (hxl ▸ hf') inp' io' hin' hi' pre' junk' post' (hj'.trans hxl.symm) hsz'
      (by rw [hads, hxl]; simpa using hok) (hxl ▸ hk)
    rw [hads, if_pos rfl, hxl, xor_twice ks msg hs.1] at e2
    rw [hads, if_pos rfl, hxl] at h2
    exact ⟨b', e2, agree_ready g hc n _ a' b' h1 h2⟩

/-- **C24 (partial: associated-data windows with `Offset ≤ Length`, no failed call in between, and parallel profiles that are equal or have blocks of at most 16 * 0xFF00 bytes).** Two instances, whatever they
were used for before, initialised for encryption and decryption with the same key, nonce and info, agree on every number of further messages. -/
theorem C24_sequence_partial (g : e.Good F ok keyOk Has cmax) {p q : Profile} (hc : Compatible p q) (a b : Hba e) (ha : a.Reach ok Has cmax) (hb : b.Reach ok Has cmax)
    (key iv info : List Byte) (hk : e.legal key.length = true) (hiv : iv.length = 16) (hi : info.length ≤ cmax) :
    ∃ a' b', a.initialize true key iv info none = .ok (none, a') ∧ b.initialize false key iv info none = .ok (none, b') ∧ ∀ n, Agree ok p q n a' b' := by
  obtain ⟨s, hs⟩ := start_exists g key iv info hk hi
  obtain ⟨a', e1, h1⟩ := initialize_ok g (ha.wf g) true key iv info hk hiv hi hs
  obtain ⟨b', e2, h2⟩ := initialize_ok g (hb.wf g) false key iv info hk hiv hi hs
  exact ⟨a', b', e1, e2, fun n => agree_ready g hc n s a' b' h1 h2⟩

/-- **C24 is false for associated data at an offset greater than its length**: every initialised instance refuses a valid window (in an array of less than 2^63 bytes). -/
theorem C24_offset_refused_false (st : Hba e) (hi : st.init = true) (w : Window) (hw : w.len < w.off) (hs : w.buf.length < 2 ^ 63) :
    st.setAssociatedData w.buf w.off w.len = .ok (some .invalidSize, st) := by
  have := w.le
  rw [Hba.setAssociatedData, if_neg (by simp [hi]), if_pos]
  · rfl
  · rw [subU, Nat.mod_eq_of_lt (by omega)]; omega

/-! ## C25 -/

theorem adText_filter (ads : List (List Byte)) : adText ads = (ads.filter (· ≠ [])).flatMap fun a => a ++ leEnc 4 a.length := by
  induction ads with
  | nil => rfl
  | cons a as ih =>
    rw [adText_cons, ih]
    by_cases h : a = []
    · subst h; simp [adText]
    · rw [List.filter_cons_of_pos (by simpa using h), List.flatMap_cons]; simp [adText, h]

theorem enc4_inj {a b : Nat} (ha : a < 2 ^ 32) (hb : b < 2 ^ 32) (h : leEnc 4 a = leEnc 4 b) : a = b := by
  have := congrArg leVal h
  rwa [leVal_leEnc, leVal_leEnc, Nat.mod_eq_of_lt (by omega), Nat.mod_eq_of_lt (by omega)] at this

theorem items_inj : ∀ (n : Nat) (as bs : List (List Byte)), as.length = n → (∀ a ∈ as, a ≠ [] ∧ a.length < 2 ^ 32) → (∀ b ∈ bs, b ≠ [] ∧ b.length < 2 ^ 32) →
    (as.flatMap fun a => a ++ leEnc 4 a.length) = (bs.flatMap fun a => a ++ leEnc 4 a.length) → as = bs := by
  intro n
  induction n with
  | zero =>
    intro as bs hn _ hb h
    rw [List.eq_nil_of_length_eq_zero hn] at h ⊢
    cases bs with
    | nil => rfl
    | cons b bs => exact absurd (congrArg List.length h) (by simp; omega)
  | succ n ih =>
    intro as bs hn ha hb h
    rcases List.eq_nil_or_concat as with rfl | ⟨as, a, rfl⟩
    · cases hn
    · rcases List.eq_nil_or_concat bs with rfl | ⟨bs, b, rfl⟩
      · exact absurd (congrArg List.length h) (by simp)
      · simp only [List.concat_eq_append, List.flatMap_append, List.flatMap_singleton, ← List.append_assoc] at h
        obtain ⟨h1, h2⟩ := List.append_inj' h (by simp)
        have h3 := enc4_inj (ha a (by simp)).2 (hb b (by simp)).2 h2
        obtain ⟨h4, h5⟩ := List.append_inj' h1 h3
        rw [h5, ih as bs (by simpa using hn) (fun x hx => ha x (by simp [hx])) (fun x hx => hb x (by simp [hx])) h4]

/-- **C25.** From one state (same nonce and counter), different ciphertexts or different lists of non-empty associated-data items (each shorter than 2^32 bytes) are different texts for
the MAC. -/
theorem C25_injective_partial (nonce : List Byte) (cnt : Nat) (ads ads' : List (List Byte)) (c c' : List Byte) (ha : ∀ a ∈ ads, a.length < 2 ^ 32) (ha' : ∀ a ∈ ads', a.length < 2 ^ 32)
    (hc : c.length < 2 ^ 64) (hc' : c'.length < 2 ^ 64) (h : macText ads nonce cnt c = macText ads' nonce cnt c') :
    c = c' ∧ ads.filter (· ≠ []) = ads'.filter (· ≠ []) := by
  rw [macText, macText] at h
  obtain ⟨h1, h2⟩ := List.append_inj' h (by simp)
  have h3 := congrArg leVal h2
  rw [leVal_leEnc, leVal_leEnc, show (256 : Nat) ^ 8 = 2 ^ 64 by decide] at h3
  obtain ⟨h4, h5⟩ := List.append_inj' h1 (by omega)
  obtain ⟨h6, _⟩ := List.append_inj' h4 rfl
  refine ⟨h5, items_inj _ _ _ rfl ?_ ?_ (by rw [← adText_filter, ← adText_filter]; exact h6)⟩
  · intro a h; rw [List.mem_filter] at h; exact ⟨by simpa using h.2, ha a h.1⟩
  · intro a h; rw [List.mem_filter] at h; exact ⟨by simpa using h.2, ha' a h.1⟩

/-- **C25.** What `macText` has to do with the instance: whatever happened before, the tag of the next message is the MAC, under the current key, of the data pending so far and of
`macText` with the nonce and counter of the instance. -/
theorem C25_tag (g : e.Good F ok keyOk Has cmax) (st : Hba e) (h : st.Reach ok Has cmax) (hi : st.init = true) (he : st.enc = true) :
    ∃ pend, Has st.mac (some (st.macKey, pend)) ∧ ∀ (p : Profile), p.Valid → ∀ (W : Nat) (ads : List Window) (msg : List Byte) (sch : Nat → List Nat) (inp : List Byte) (io : Nat)
      (pre junk post : List Byte), (∀ w ∈ ads, AadOk w) → ok (pend.length + (adText (ads.map Window.bytes)).length + 16 + msg.length + 8) → FairFor W p msg.length sch → Holds inp io msg →
      junk.length = msg.length + e.mac.tag → (pre ++ junk ++ post).length < 2 ^ 64 →
      ∃ c st', c.length = msg.length ∧ st.message ads W p sch inp io (pre ++ junk ++ post) pre.length msg.length =
        .ok (none, st', pre ++ (c ++ F st.macKey (pend ++ macText (ads.map Window.bytes) st.nonce st.counter c)) ++ post) := by
  obtain ⟨s, pend, hr⟩ := (h.wf g).ready hi
  rw [he] at hr
  refine ⟨pend, by rw [hr.macKey]; exact hr.mac, fun p hv W ads msg sch inp io pre junk post had hok hf hin hj hsz => ?_⟩
  obtain ⟨ks, n', hs⟩ := stream_any (e.cip s.ck s.info) (g.cip _ _) hv s.nonce hr.nonceLen msg.length
  obtain ⟨k, hk⟩ := ratchet_exists g { s with cnt := (s.cnt + msg.length) % 2 ^ 64 } hr.legal hr.keyLen hr.infoLe
  obtain ⟨st', e1, _⟩ := message_seal g hr ads had msg hs W sch hf inp io hin pre junk post hj hsz hok hk
  rw [hr.macKey, hr.nonce, hr.counter]
  exact ⟨_, st', by rw [xorBytes_length, hs.1, Nat.min_self], e1⟩

/-- **C25 is false for empty items**: a list with an empty item and the list without it are the same text; so `C25_injective_partial` compares the non-empty items. -/
theorem C25_empty_item_false (as bs : List (List Byte)) (nonce : List Byte) (cnt : Nat) (c : List Byte) : macText (as ++ [] :: bs) nonce cnt c = macText (as ++ bs) nonce cnt c := by
  simp [macText, adText]

/-- **C25 needs the bound on the items**: with an item of 2^32 - 4 bytes, two items and one item are the same text. -/
theorem C25_large_items_false (a b : List Byte) (ha : a.length = 2 ^ 32 - 4) (hb : b ≠ []) (nonce : List Byte) (cnt : Nat) (c : List Byte) :
    macText [a, b] nonce cnt c = macText [a ++ leEnc 4 a.length ++ b] nonce cnt c := by
  have ha0 : a ≠ [] := fun h => by rw [h] at ha; exact absurd ha (by decide)
  have h : leEnc 4 (a ++ leEnc 4 a.length ++ b).length = leEnc 4 b.length := by
    rw [← leEnc_mod, ← leEnc_mod 4 b.length]
    congr 1
    simp only [List.length_append, leEnc_length, ha]
    rw [show 2 ^ 32 - 4 + 4 + b.length = b.length + 256 ^ 4 by omega, Nat.add_mod_right]
  rw [macText, macText]
  congr 3
  rw [adText_cons]
  simp only [adText, List.flatMap_singleton]
  rw [if_neg ha0, if_neg hb, if_neg (by simp [ha0]), h]
  simp only [List.append_assoc]

/-! ## C26 -/

/-- **C26.** In every state whatsoever: a `Transform` that throws leaves the output array unchanged. -/
theorem C26_no_release (st : Hba e) (W : Nat) (p : Profile) (scheds : Nat → List Nat) (inp out : List Byte) (io oo len : Nat) (x : ErrCode) (st' : Hba e) (out' : List Byte)
    (h : st.transform W p scheds inp io out oo len = .ok (some x, st', out')) : out' = out := by
  rw [Hba.transform] at h
  split at h
  · cases h; rfl
  · obtain ⟨m, _, h⟩ := bind_ok h
    simp only [] at h
    split at h
    · split at h
      · cases h; rfl
      · obtain ⟨c, _, h⟩ := bind_ok h
        obtain ⟨m2, _, h⟩ := bind_ok h
        obtain ⟨r, _, h⟩ := bind_ok h
        cases h
    · split at h
      · cases h; rfl
      · obtain ⟨m2, _, h⟩ := bind_ok h
        obtain ⟨v, _, h⟩ := bind_ok h
        split at h
        · cases h; rfl
        · obtain ⟨c, _, h⟩ := bind_ok h
          cases h

/-- **C26.** Whatever happened before: of all tags for a ciphertext exactly one is accepted (the MAC under the current key); with every other one the call throws `AuthenticationFailure`
and the output array is unchanged. -/
theorem C26_forgery (g : e.Good F ok keyOk Has cmax) (st : Hba e) (h : st.Reach ok Has cmax) (hi : st.init = true) (he : st.enc = false) :
    ∃ pend, Has st.mac (some (st.macKey, pend)) ∧ ∀ (p : Profile), p.Valid → ∀ (W : Nat) (ads : List Window) (c t : List Byte) (sch : Nat → List Nat) (inp : List Byte) (io : Nat)
      (out : List Byte) (oo : Nat), (∀ w ∈ ads, AadOk w) → ok (pend.length + (adText (ads.map Window.bytes)).length + 16 + c.length + 8) → FairFor W p c.length sch →
      t.length = e.mac.tag → Holds inp io (c ++ t) → inp.length < 2 ^ 64 → oo + c.length ≤ out.length → out.length < 2 ^ 64 →
      (t ≠ F st.macKey (pend ++ macText (ads.map Window.bytes) st.nonce st.counter c) →
        ∃ st', st.message ads W p sch inp io out oo c.length = .ok (some .authenticationFailure, st', out)) ∧
      (t = F st.macKey (pend ++ macText (ads.map Window.bytes) st.nonce st.counter c) →
        ∃ st' out', st.message ads W p sch inp io out oo c.length = .ok (none, st', out')) := by
  obtain ⟨s, pend, hr⟩ := (h.wf g).ready hi
  rw [he] at hr
  refine ⟨pend, by rw [hr.macKey]; exact hr.mac, fun p hv W ads c t sch inp io out oo had hok hf ht hin hisz ho hosz => ?_⟩
  obtain ⟨ks, n', hs⟩ := stream_any (e.cip s.ck s.info) (g.cip _ _) hv s.nonce hr.nonceLen c.length
  obtain ⟨k, hk⟩ := ratchet_exists g { s with cnt := (s.cnt + c.length) % 2 ^ 64 } hr.legal hr.keyLen hr.infoLe
  obtain ⟨pre, junk, post, rfl, rfl, hj⟩ := split_at (out := out) (oo := oo) (len := c.length) ho
  obtain ⟨st', e1, _⟩ := message_open g hr ads had c t ht hs W sch hf inp io hin hisz pre junk post hj hosz hok hk
  rw [hr.macKey, hr.nonce, hr.counter]
  constructor
  · intro hne
    rw [if_neg (fun h => hne h.symm)] at e1
    exact ⟨st', e1⟩
  · intro heq
    rw [if_pos heq.symm] at e1
    exact ⟨st', _, e1⟩

end Cex.Hba
