import Verif.Gcm.GcmLemmas

/-!
# GCM instances: reachable states and the processing of one message
-/

namespace Cex.Gcm
open Cex Cex.IntTools Cex.Modes Cex.Modes.Spec Stream

/-- The states of an instance: constructed, then any calls with any arguments, successful or throwing. -/
inductive Gcm.Reach (e : Env) : Gcm → Prop
  | fresh : Reach e .fresh
  | init {st st' x enc key info iv par p scheds} : Reach e st → p.Valid → FairFor e p 16 scheds →
      st.initialize e enc key info iv par p scheds = .ok (x, st') → Reach e st'
  | aad {st st' x inp off len} : Reach e st → st.setAssociatedData e inp off len = .ok (x, st') → Reach e st'
  | transform {st st' x p scheds inp io out oo len out'} : Reach e st → st.transform e p scheds inp io out oo len = .ok (x, st', out') → Reach e st'

theorem wf_restart {e : Env} {st : Gcm} (w : st.Wf e) : ({ st with
    aad := List.replicate st.aad.length 0, gh := ⟨0, 0, List.replicate 16 0, 0⟩, buf := List.replicate st.buf.length 0, counter := 0, tag := List.replicate 16 0 } : Gcm).Wf e :=
  ⟨w.nonce, by simp, by simp, fun h => by rw [show st.aad = [] from (w.idle h).1]; exact ⟨rfl, (w.idle h).2⟩, w.keyed, w.eng⟩

theorem initialize_wf {e : Env} (g : e.Good) {st st' : Gcm} (w : st.Wf e) {x : Option ErrCode} {enc : Bool} {key info iv : List Byte} {par : Option ErrCode} {p : Profile}
    {scheds : Nat → List Nat} (hv : p.Valid) (hf : FairFor e p 16 scheds) (h : st.initialize e enc key info iv par p scheds = .ok (x, st')) : st'.Wf e := by
  have h0 := h
  rw [Gcm.initialize, restart_ok w, ok_bind] at h
  split at h
  · cases h; exact wf_restart w
  · rename_i hiv
    split at h
    · cases h; exact wf_restart w
    · split at h
      · rename_i hk
        have hk' := List.eq_nil_of_length_eq_zero hk
        subst hk'
        split at h
        · cases h; exact wf_restart w
        · rename_i hne
          split at h
          · cases h; exact wf_restart w
          · rename_i hci
            obtain ⟨s, h1, h2, _⟩ := initialize_nonce_ok g w (by simpa using hci) enc info iv hne (by omega) hv scheds hf
            rw [h1] at h0; cases h0; exact h2
      · rename_i hk
        split at h
        · cases h; exact wf_restart w
        · rename_i hl
          split at h
          · cases h; exact wf_restart w
          · rename_i hel
            obtain ⟨s, h1, h2, _⟩ := initialize_ok g w enc key info iv (fun e => hk (by rw [e]; rfl)) (by simpa using hl) (by simpa using hel) (by omega) hv scheds hf
            rw [h1] at h0; cases h0; exact h2

theorem multiply_len {simd : Bool} {g : Gh} {inp : List Byte} : ∀ (n io : Nat) (out out' : List Byte), g.multiply simd inp io n out = .ok out' → out'.length = out.length := by
  intro n
  induction n using Nat.strongRecOn with
  | ind n ih =>
    intro io out out' h
    rw [Gh.multiply] at h
    split at h
    · rename_i hn
      obtain ⟨o1, h1, h⟩ := bind_ok h
      obtain ⟨o2, h2, h⟩ := bind_ok h
      have := ih (n - min n 16) (by omega) _ _ _ h
      rw [Gh.permute] at h2
      obtain ⟨_, _, h2⟩ := bind_ok h2
      obtain ⟨_, _, h2⟩ := bind_ok h2
      rw [this, blit_len h2, xorInto_len h1]
    · cases h; rfl

theorem finalize_wf {e : Env} {st st' : Gcm} (w : st.Wf e) {x : Option ErrCode} {out out' : List Byte} {oo : Nat} (h : st.finalize e out oo = .ok (x, st', out')) :
    st'.Wf e ∧ out'.length = out.length := by
  rw [Gcm.finalize] at h
  split at h
  · cases h; exact ⟨w, rfl⟩
  · obtain ⟨r, h1, h⟩ := bind_ok h
    obtain ⟨t, h2, h⟩ := bind_ok h
    obtain ⟨q, h3, h⟩ := bind_ok h
    obtain ⟨n, h4, h⟩ := bind_ok h
    obtain ⟨o, h5, h⟩ := bind_ok h
    cases h
    have hn : n = List.replicate 16 0 := by rw [clear_whole] at h4; cases h4; rw [w.nonce]
    rw [gh_clear_ok] at h3; cases h3
    refine ⟨⟨by simp [hn], (xorInto_len h2).trans ((gh_finalize_out h1).trans w.tag), ?_, fun _ => ⟨rfl, hn⟩, w.keyed, w.eng⟩, copy_len h5⟩
    rw [List.length_replicate]; exact gh_finalize_len w.buf h1

theorem cipher_wf {e : Env} {st st' : Gcm} (w : st.Wf e) {p : Profile} {scheds : Nat → List Nat} {inp out out' : List Byte} {io oo len : Nat}
    (h : st.cipher e p scheds inp io out oo len = .ok (st', out')) : st'.Wf e := by
  rw [Gcm.cipher] at h
  split at h
  · cases h
  · obtain ⟨r, _, h⟩ := bind_ok h
    cases h
    exact ⟨w.nonce, w.tag, w.buf, w.idle, w.keyed, w.eng⟩

theorem verify_wf {e : Env} {st st' : Gcm} (w : st.Wf e) {x : Option ErrCode} {inp : List Byte} {off : Nat} {b : Bool} (h : st.verify e inp off = .ok (x, st', b)) : st'.Wf e := by
  rw [Gcm.verify] at h
  obtain ⟨r, h1, h⟩ := bind_ok h
  obtain ⟨w1, hl⟩ := finalize_wf w (x := r.1) (st' := r.2.1) (out' := r.2.2) h1
  split at h
  · cases h; exact w1
  · obtain ⟨t, h2, h⟩ := bind_ok h
    obtain ⟨ok, _, h⟩ := bind_ok h
    have hv : (vresize t 16).length = 16 := by
      rw [vresize, List.length_append, List.length_take, List.length_replicate]; omega
    split at h
    · obtain ⟨t2, h3, h⟩ := bind_ok h
      cases h
      exact ⟨w1.nonce, (copy_len h3).trans hv, w1.buf, w1.idle, w1.keyed, w1.eng⟩
    · cases h
      exact ⟨w1.nonce, hv, w1.buf, w1.idle, w1.keyed, w1.eng⟩

theorem Gcm.Reach.wf {e : Env} (g : e.Good) {st : Gcm} (h : st.Reach e) : st.Wf e := by
  induction h with
  | fresh => exact ⟨rfl, rfl, rfl, fun _ => ⟨rfl, rfl⟩, (fun h => by cases h), (fun k h => by cases h)⟩
  | init _ hv hf h w => exact initialize_wf g w hv hf h
  | aad _ h w =>
    rw [Gcm.setAssociatedData] at h
    split at h
    · cases h; exact w
    · rename_i hi
      split at h
      · cases h; exact w
      · obtain ⟨a, _, h⟩ := bind_ok h
        obtain ⟨t, h2, h⟩ := bind_ok h
        cases h
        exact ⟨w.nonce, (multiply_len _ _ _ _ h2).trans w.tag, w.buf, fun h => absurd h hi, w.keyed, w.eng⟩
  | @transform st st' x p scheds inp io out oo len out' _ h w =>
    have w0 : ({ st with counter := (st.counter + len) % 2 ^ 64 } : Gcm).Wf e := ⟨w.nonce, w.tag, w.buf, w.idle, w.keyed, w.eng⟩
    rw [Gcm.transform] at h
    simp only [] at h
    split at h
    · obtain ⟨c, h1, h⟩ := bind_ok h
      have w1 := cipher_wf w0 (st' := c.1) (out' := c.2) h1
      obtain ⟨m, h2, h⟩ := bind_ok h
      exact (finalize_wf (st := { c.1 with gh := m.1, tag := m.2 })
        ⟨w1.nonce, (gh_update_out (g' := m.1) (out' := m.2) h2).trans w1.tag, gh_update_len (g' := m.1) (out' := m.2) w1.buf h2, w1.idle, w1.keyed, w1.eng⟩ h).1
    · obtain ⟨m, h2, h⟩ := bind_ok h
      obtain ⟨v, h3, h⟩ := bind_ok h
      have w2 := verify_wf (st := { st with counter := (st.counter + len) % 2 ^ 64, gh := m.1, tag := m.2 })
        ⟨w.nonce, (gh_update_out (g' := m.1) (out' := m.2) h2).trans w.tag, gh_update_len (g' := m.1) (out' := m.2) w.buf h2, w.idle, w.keyed, w.eng⟩
        (x := v.1) (st' := v.2.1) (b := v.2.2) h3
      split at h
      · cases h; exact w2
      · split at h
        · obtain ⟨c, h4, h⟩ := bind_ok h
          cases h
          exact cipher_wf w2 (st' := c.1) (out' := c.2) h4
        · cases h; exact w2

/-! ## One message -/

/-- Key, info string, nonce, and what is passed to `SetAssociatedData` (`none`: it is not called). -/
structure Req where
  key : List Byte
  info : List Byte
  iv : List Byte
  aad : Option Window

/-- The associated data. -/
def Req.ad (r : Req) : List Byte := match r.aad with
  | none => []
  | some w => w.bytes

/-- `SetAssociatedData`, if it is called. -/
def Gcm.feed (e : Env) (st : Gcm) (a : Option Window) : M (Option ErrCode × Gcm) := match a with
  | none => return (none, st)
  | some w => st.setAssociatedData e w.buf w.off w.len

/-- A key the instance accepts and a nonce of admissible size. -/
structure Req.Ok (e : Env) (r : Req) : Prop where
  key : r.key ≠ []
  legal : e.legal r.key.length = true
  engLegal : e.engLegal r.key.length = true
  iv : 8 ≤ r.iv.length

/-- `Initialize`, then `SetAssociatedData` if there is any. -/
def Gcm.start (e : Env) (st : Gcm) (enc : Bool) (r : Req) (p : Profile) (scheds : Nat → List Nat) : M (Option ErrCode × Gcm) := do
  let i ← st.initialize e enc r.key r.info r.iv none p scheds
  match i.1 with
  | some x => return (some x, i.2)
  | none => i.2.feed e r.aad

/-- The whole processing of a message. -/
def Gcm.message (e : Env) (st : Gcm) (enc : Bool) (r : Req) (p : Profile) (s0 s1 : Nat → List Nat) (inp : List Byte) (io : Nat) (out : List Byte) (oo len : Nat) :
    M (Option ErrCode × Gcm × List Byte) := do
  let b ← st.start e enc r p s0
  match b.1 with
  | some x => return (some x, b.2, out)
  | none => b.2.transform e p s1 inp io out oo len

/-- Either the instance is not in the middle of a message (`IsInitialized()` is false: it was just constructed or has finished its last
message), or no associated data is pending and the nonce is not 12 bytes long. -/
def Usable (st : Gcm) (iv : List Byte) : Prop := st.init = false ∨ (st.aad = [] ∧ iv.length ≠ 12)

/-- Accumulator after the associated data. -/
abbrev adAcc (H : BitVec 128) (a : List Byte) : BitVec 128 := (eager 16 (Nist.gstep H) 0 (Nist.pad16 a)).1

/-- Hash key for a request: the block cipher with the info string. -/
abbrev Env.hk (e : Env) (r : Req) : BitVec 128 := Nist.hkey (e.cip r.key r.info)

/-- Block encryption for a request: the block cipher *without* the info string. -/
abbrev Env.ec (e : Env) (r : Req) : List Byte → List Byte := e.cip r.key []

theorem feed_ok {e : Env} (g : e.Good) {H : BitVec 128} {E J enc} {st : Gcm} (w : st.Wf e) (h : st.Ready e H E J 0 0 enc) (r : Req) :
    ∃ st', st.feed e r.aad = .ok (none, st') ∧ st'.Wf e ∧ st'.Ready e H E J (adAcc H r.ad) r.ad.length enc ∧ st'.key = st.key ∧ st'.ctrInit = st.ctrInit ∧ st'.buf = st.buf := by
  obtain ⟨key, info, iv, a⟩ := r
  cases a with
  | none =>
    refine ⟨st, rfl, w, ?_, rfl, rfl, rfl⟩
    have : adAcc H [] = 0 := by rw [adAcc, pad16_nil, eager_short (by simp)]
    show st.Ready e H E J (adAcc H []) 0 enc
    rw [this]; exact h
  | some v =>
    obtain ⟨s, h1, h2, h3, h4, h5, _, h6⟩ := setAssociatedData_ok h v.buf v.off v.bytes v.holds
    rw [v.bytes_length] at h1
    exact ⟨s, h1, h2.wf g (fun hc => by rw [h3]; exact w.keyed (h4 ▸ hc)) (fun k hk => w.eng k (h5 ▸ hk)), h2, h3, h4, h6⟩

theorem start_raw {e : Env} (g : e.Good) {st : Gcm} (w : st.Wf e) (ha : st.aad = []) (enc : Bool) (r : Req) (hr : r.Ok e) {p : Profile} (hv : p.Valid) (s0 : Nat → List Nat)
    (hf : FairFor e p 16 s0) : ∃ st', st.start e enc r p s0 = .ok (none, st') ∧ st'.Wf e ∧
      st'.Ready e (e.hk r) (e.ec r) (preBlock (e.hk r) r.iv st.nonce) (adAcc (e.hk r) r.ad) r.ad.length enc ∧ st'.key = r.key ∧ st'.ctrInit = true ∧ st'.buf = r.iv := by
  obtain ⟨s, h1, h2, h3, h4, h5, h6⟩ := initialize_ok g w enc r.key r.info r.iv hr.key hr.legal hr.engLegal hr.iv hv s0 hf
  rw [ha] at h3
  obtain ⟨s', h7, h8, h9, h10, h11, h12⟩ := feed_ok g h2 h3 r
  refine ⟨s', ?_, h8, h9, h10.trans h4, h11.trans h5, h12.trans h6⟩
  rw [Gcm.start, h1, ok_bind]
  exact h7

theorem start_ok {e : Env} (g : e.Good) {st : Gcm} (w : st.Wf e) (enc : Bool) (r : Req) (hr : r.Ok e) (hu : Usable st r.iv) {p : Profile} (hv : p.Valid) (s0 : Nat → List Nat)
    (hf : FairFor e p 16 s0) : ∃ st', st.start e enc r p s0 = .ok (none, st') ∧ st'.Wf e ∧
      st'.Ready e (e.hk r) (e.ec r) (Nist.j0 (e.hk r) r.iv) (adAcc (e.hk r) r.ad) r.ad.length enc ∧ st'.key = r.key ∧ st'.ctrInit = true ∧ st'.buf = r.iv := by
  rcases hu with h | ⟨h1, h2⟩
  · have := start_raw g w (w.idle h).1 enc r hr hv s0 hf
    rwa [(w.idle h).2, preBlock_clean] at this
  · have := start_raw g w h1 enc r hr hv s0 hf
    rwa [preBlock_other h2] at this

/-- Sealing from a usable state. -/
theorem message_seal {e : Env} (g : e.Good) {st : Gcm} (w : st.Wf e) (r : Req) (hr : r.Ok e) (hu : Usable st r.iv) {p : Profile} (hv : p.Valid) (s0 s1 : Nat → List Nat)
    (hf0 : FairFor e p 16 s0) (msg ks n' : List Byte) (hs : KeyStream (e.ec r) p (Nist.j0 (e.hk r) r.iv) msg.length ks n') (hf1 : FairFor e p msg.length s1)
    (inp : List Byte) (io : Nat) (hin : Holds inp io msg) (pre junk post : List Byte) (hj : junk.length = msg.length + 16) :
    ∃ st', st.message e true r p s0 s1 inp io (pre ++ junk ++ post) pre.length msg.length = .ok (none, st',
      pre ++ (xorBytes ks msg ++ Nist.tag (e.hk r) (e.ec r) (Nist.j0 (e.hk r) r.iv) r.ad (xorBytes ks msg)) ++ post) ∧ st'.init = false := by
  obtain ⟨s, h1, h2, h3, _⟩ := start_ok g w true r hr hu hv s0 hf0
  obtain ⟨gh, h4⟩ := seal_ok g h3 msg hs s1 hf1 inp io hin pre junk post hj
  rw [rawTag_nist] at h4
  rw [Gcm.message, h1, ok_bind]
  exact ⟨_, h4, rfl⟩

/-- Opening from a usable state. -/
theorem message_open {e : Env} (g : e.Good) {st : Gcm} (w : st.Wf e) (r : Req) (hr : r.Ok e) (hu : Usable st r.iv) {p : Profile} (hv : p.Valid) (s0 s1 : Nat → List Nat)
    (hf0 : FairFor e p 16 s0) (c t ks n' : List Byte) (ht : t.length = 16) (hs : KeyStream (e.ec r) p (Nist.j0 (e.hk r) r.iv) c.length ks n') (hf1 : FairFor e p c.length s1)
    (inp : List Byte) (io : Nat) (hin : Holds inp io (c ++ t)) (pre junk post : List Byte) (hj : junk.length = c.length) :
    ∃ st', st'.init = false ∧ st.message e false r p s0 s1 inp io (pre ++ junk ++ post) pre.length c.length =
      .ok (if Nist.tag (e.hk r) (e.ec r) (Nist.j0 (e.hk r) r.iv) r.ad c = t then (none, st', pre ++ xorBytes ks c ++ post)
        else (some .authenticationFailure, st', pre ++ junk ++ post)) := by
  obtain ⟨s, h1, h2, h3, _⟩ := start_ok g w false r hr hu hv s0 hf0
  obtain ⟨gh, h4⟩ := open_ok g h3 c t ht hs s1 hf1 inp io hin pre junk post hj
  rw [rawTag_nist] at h4
  rw [Gcm.message, h1, ok_bind]
  by_cases heq : Nist.tag (e.hk r) (e.ec r) (Nist.j0 (e.hk r) r.iv) r.ad c = t
  · rw [if_pos heq] at h4
    simp only [if_pos heq]
    exact ⟨_, rfl, h4⟩
  · rw [if_neg heq] at h4
    simp only [if_neg heq]
    exact ⟨_, rfl, h4⟩

end Cex.Gcm
