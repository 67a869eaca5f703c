import Verif.Gcm.GcmReach
import Verif.Modes.Props

/-!
# C20, C21, C22, C42, C43: GCM

The theorems start from any state an instance can reach by any calls, including calls that throw. Two reachable situations are excluded
by `Usable` (re-initialisation in the middle of a message), and initialisation without a key is not `Req.Ok`; the theorems ending in
`_false` show that the properties fail there.
-/

namespace Cex.Gcm
open Cex Cex.IntTools Cex.Modes Cex.Modes.Spec Stream

/-- The same library on a machine with (or without) carry-less multiplication and with SIMD width `W`. -/
abbrev Env.on (e : Env) (simd : Bool) (W : Nat) : Env := { e with simd := simd, W := W }

/-- `msg` is sealed as `res` (ciphertext and tag): on every machine, from every usable state reachable by any history, under every fair
schedule, wherever input and output are in their arrays, and nothing but the output window is written. -/
def Seals (e : Env) (r : Req) (p : Profile) (msg res : List Byte) : Prop :=
  ∀ simd W st s0 s1 inp io pre junk post, Gcm.Reach (e.on simd W) st → Usable st r.iv → FairFor (e.on simd W) p 16 s0 → FairFor (e.on simd W) p msg.length s1 →
    Holds inp io msg → junk.length = msg.length + 16 →
    ∃ st', st.message (e.on simd W) true r p s0 s1 inp io (pre ++ junk ++ post) pre.length msg.length = .ok (none, st', pre ++ res ++ post) ∧ st'.init = false

/-- `res` (ciphertext and 16-byte tag) is accepted and opened to `msg`, in the same generality. -/
def Opens (e : Env) (r : Req) (p : Profile) (res msg : List Byte) : Prop :=
  ∀ simd W st s0 s1 inp io pre junk post, Gcm.Reach (e.on simd W) st → Usable st r.iv → FairFor (e.on simd W) p 16 s0 → FairFor (e.on simd W) p msg.length s1 →
    Holds inp io res → junk.length = msg.length →
    ∃ st', st.message (e.on simd W) false r p s0 s1 inp io (pre ++ junk ++ post) pre.length msg.length = .ok (none, st', pre ++ msg ++ post) ∧ st'.init = false

/-- `res` is rejected: the call throws and the output array is as before. -/
def Rejects (e : Env) (r : Req) (p : Profile) (res : List Byte) : Prop :=
  ∀ simd W st s0 s1 inp io out oo len, Gcm.Reach (e.on simd W) st → Usable st r.iv → FairFor (e.on simd W) p 16 s0 → FairFor (e.on simd W) p len s1 →
    Holds inp io res → res.length = len + 16 → oo + len ≤ out.length →
    ∃ st', st.message (e.on simd W) false r p s0 s1 inp io out oo len = .ok (some .authenticationFailure, st', out) ∧ st'.init = false

theorem xor_twice (ks m : List Byte) (h : ks.length = m.length) : xorBytes ks (xorBytes ks m) = m := by
  induction ks generalizing m with
  | nil => cases m with
    | nil => rfl
    | cons => cases h
  | cons a ks ih => cases m with
    | nil => cases h
    | cons b m =>
      have := ih m (by simpa using h)
      simp only [xorBytes, List.zipWith_cons_cons] at this ⊢
      rw [this, ← BitVec.xor_assoc, BitVec.xor_self, BitVec.zero_xor]

/-- The tag of a request. -/
abbrev tagOf (e : Env) (r : Req) (c : List Byte) : List Byte := Nist.tag (e.hk r) (e.ec r) (Nist.j0 (e.hk r) r.iv) r.ad c

theorem tagOf_length {e : Env} (g : e.Good) (r : Req) (c : List Byte) : (tagOf e r c).length = 16 := by
  rw [tagOf, Nist.tag, xorBytes_length, unblk_length, g _ _ _ j0_length]; rfl

theorem seals_ok {e : Env} (g : e.Good) (r : Req) (hr : r.Ok e) {p : Profile} (hv : p.Valid) (msg ks n' : List Byte)
    (hs : KeyStream (e.ec r) p (Nist.j0 (e.hk r) r.iv) msg.length ks n') : Seals e r p msg (xorBytes ks msg ++ tagOf e r (xorBytes ks msg)) := by
  intro simd W st s0 s1 inp io pre junk post hre hu hf0 hf1 hin hj
  exact message_seal (e := e.on simd W) g (Gcm.Reach.wf (e := e.on simd W) g hre) r ⟨hr.1, hr.2, hr.3, hr.4⟩ hu hv s0 s1 hf0 msg ks n' hs hf1 inp io hin pre junk post hj

theorem opens_ok {e : Env} (g : e.Good) (r : Req) (hr : r.Ok e) {p : Profile} (hv : p.Valid) (c ks n' : List Byte)
    (hs : KeyStream (e.ec r) p (Nist.j0 (e.hk r) r.iv) c.length ks n') : Opens e r p (c ++ tagOf e r c) (xorBytes ks c) := by
  intro simd W st s0 s1 inp io pre junk post hre hu hf0 hf1 hin hj
  have hl : (xorBytes ks c).length = c.length := by rw [xorBytes_length, hs.1, Nat.min_self]
  rw [hl] at hf1 hj ⊢
  obtain ⟨st', h1, h2⟩ := message_open (e := e.on simd W) g (Gcm.Reach.wf (e := e.on simd W) g hre) r ⟨hr.1, hr.2, hr.3, hr.4⟩ hu hv s0 s1 hf0 c (tagOf e r c) ks n'
    (tagOf_length g r c) hs hf1 inp io hin pre junk post hj
  rw [if_pos rfl] at h2
  exact ⟨st', h2, h1⟩

theorem rejects_ok {e : Env} (g : e.Good) (r : Req) (hr : r.Ok e) {p : Profile} (hv : p.Valid) (c t : List Byte) (ht : t.length = 16) (hne : t ≠ tagOf e r c) :
    Rejects e r p (c ++ t) := by
  intro simd W st s0 s1 inp io out oo len hre hu hf0 hf1 hin hl ho
  rw [List.length_append, ht] at hl
  obtain rfl : c.length = len := by omega
  obtain ⟨ks, n', hs⟩ := stream_any (e.ec r) (g _ _) hv (Nist.j0 (e.hk r) r.iv) c.length
  have hout : out = out.take oo ++ (out.drop oo).take c.length ++ (out.drop oo).drop c.length := by simp
  have hoo : (out.take oo).length = oo := by rw [List.length_take]; omega
  obtain ⟨st', h1, h2⟩ := message_open (e := e.on simd W) g (Gcm.Reach.wf (e := e.on simd W) g hre) r ⟨hr.1, hr.2, hr.3, hr.4⟩ hu hv s0 s1 hf0 c t ks n' ht hs hf1 inp io hin
    (out.take oo) ((out.drop oo).take c.length) ((out.drop oo).drop c.length) (by rw [List.length_take, List.length_drop]; omega)
  rw [← hout, hoo, if_neg (fun h => hne h.symm)] at h2
  exact ⟨st', h2, h1⟩

/-! ## C20 -/

/-- **C20 (partial: sealer and opener use the same parallel profile).** What is sealed under a key, info string, nonce and associated data is accepted and restored under the same, for
every message, with any valid parallel profile, across machines with and without SIMD, whatever either instance was used for before. -/
theorem C20_same_profile_partial {e : Env} (g : e.Good) (r : Req) (hr : r.Ok e) {p : Profile} (hv : p.Valid) (msg : List Byte) :
    ∃ res, res.length = msg.length + 16 ∧ Seals e r p msg res ∧ Opens e r p res msg := by
  obtain ⟨ks, n', hs⟩ := stream_any (e.ec r) (g _ _) hv (Nist.j0 (e.hk r) r.iv) msg.length
  have hl : (xorBytes ks msg).length = msg.length := by rw [xorBytes_length, hs.1, Nat.min_self]
  refine ⟨_, by rw [List.length_append, hl, tagOf_length g r], seals_ok g r hr hv msg ks n' hs, ?_⟩
  have := opens_ok g r hr hv (xorBytes ks msg) ks n' (by rw [hl]; exact hs)
  rwa [xor_twice ks msg hs.1] at this

/-- **C20 (partial: profile blocks of at most 16 * 0xFF00 bytes).** Sealer and opener may use different profiles, for example parallel and
sequential ones. -/
theorem C20_small_blocks_partial {e : Env} (g : e.Good) (r : Req) (hr : r.Ok e) {p q : Profile} (hp : p.Valid) (hps : SmallBlock p) (hq : q.Valid) (hqs : SmallBlock q)
    (msg : List Byte) : ∃ res, res.length = msg.length + 16 ∧ Seals e r p msg res ∧ Opens e r q res msg := by
  have hs := stream_small (e.ec r) (g _ _) hp hps (Nist.j0 (e.hk r) r.iv) msg.length
  have ht := stream_small (e.ec r) (g _ _) hq hqs (Nist.j0 (e.hk r) r.iv) msg.length
  generalize ctrStream (e.ec r) (fun k => beCounter (Nist.j0 (e.hk r) r.iv) (1 + k)) msg.length = ks at hs ht
  have hl : (xorBytes ks msg).length = msg.length := by rw [xorBytes_length, hs.1, Nat.min_self]
  refine ⟨_, by rw [List.length_append, hl, tagOf_length g r], seals_ok g r hr hp msg ks _ hs, ?_⟩
  have := opens_ok g r hr hq (xorBytes ks msg) ks _ (by rw [hl]; exact ht)
  rwa [xor_twice ks msg hs.1] at this

/-! ## C21 -/

/-- **C21 (partial: initialised with a key, and not in the middle of a message).** Ciphertext with any 16-byte tag other than the right one makes the call throw
`AuthenticationFailure`, the output array is unchanged, and the instance is no longer initialised. The right tag is accepted. -/
theorem C21_forgery_partial {e : Env} (g : e.Good) (r : Req) (hr : r.Ok e) {p : Profile} (hv : p.Valid) (c : List Byte) :
    ∃ tag, tag.length = 16 ∧ (∀ t, t.length = 16 → t ≠ tag → Rejects e r p (c ++ t)) ∧ ∃ msg, msg.length = c.length ∧ Seals e r p msg (c ++ tag) ∧ Opens e r p (c ++ tag) msg := by
  refine ⟨tagOf e r c, tagOf_length g r c, fun t ht hne => rejects_ok g r hr hv c t ht hne, ?_⟩
  obtain ⟨ks, n', hs⟩ := stream_any (e.ec r) (g _ _) hv (Nist.j0 (e.hk r) r.iv) c.length
  have hl : (xorBytes ks c).length = c.length := by rw [xorBytes_length, hs.1, Nat.min_self]
  refine ⟨xorBytes ks c, hl, ?_, opens_ok g r hr hv c ks n' hs⟩
  have := seals_ok g r hr hv (xorBytes ks c) ks n' (by rw [hl]; exact hs)
  rwa [xor_twice ks c hs.1] at this

/-- **C21.** In every state whatsoever: a decrypting `Transform` that throws leaves the output array unchanged. -/
theorem C21_no_release (e : Env) (st : Gcm) (hd : st.enc = false) (p : Profile) (scheds : Nat → List Nat) (inp out : List Byte) (io oo len : Nat) (x : ErrCode) (st' : Gcm)
    (out' : List Byte) (h : st.transform e p scheds inp io out oo len = .ok (some x, st', out')) : out' = out := by
  rw [Gcm.transform] at h
  simp only [hd, Bool.false_eq_true, if_false] at h
  obtain ⟨m, _, h⟩ := bind_ok h
  obtain ⟨v, _, h⟩ := bind_ok h
  split at h
  · cases h; rfl
  · split at h
    · obtain ⟨c, _, h⟩ := bind_ok h
      cases h
    · cases h; rfl

/-! ## C22 -/

/-- **C22 (partial: initialised with a key, and not in the middle of a message).** The result of sealing is the one of SP 800-38D with hash key `cip key info (0)` and the block
cipher `cip key []` in counter mode (whole block as counter): a function of the last `Initialize` and the message only. -/
theorem C22_result_partial {e : Env} (g : e.Good) (r : Req) (hr : r.Ok e) {p : Profile} (hv : p.Valid) (hs : SmallBlock p) (msg : List Byte) :
    Seals e r p msg ((sealed (Nist.hkey (e.cip r.key r.info)) (e.cip r.key []) r.iv r.ad msg).1 ++ (sealed (Nist.hkey (e.cip r.key r.info)) (e.cip r.key []) r.iv r.ad msg).2) :=
  seals_ok g r hr hv msg _ _ (stream_small (e.ec r) (g _ _) hv hs (Nist.j0 (e.hk r) r.iv) msg.length)

/-- **C22 (partial).** With profiles of any size the result is still the same for all histories and machines. -/
theorem C22_history_partial {e : Env} (g : e.Good) (r : Req) (hr : r.Ok e) {p : Profile} (hv : p.Valid) (msg : List Byte) : ∃ res, Seals e r p msg res := by
  obtain ⟨res, _, h, _⟩ := C20_same_profile_partial g r hr hv msg
  exact ⟨res, h⟩

/-! ## Concrete instances -/

/-- Fair schedules exist. -/
theorem fair_exists (p : Profile) (turns len : Nat) : ∃ s, Fair p turns len s := by
  refine ⟨fun _ => (List.replicate turns (List.range p.degree)).flatten, fun _ i _ => ⟨?_, fun j hj => ?_⟩⟩
  · intro j hj
    obtain ⟨l, hl, hjl⟩ := List.mem_flatten.mp hj
    rw [List.eq_of_mem_replicate hl] at hjl
    exact List.mem_range.mp hjl
  · rw [List.count_flatten, List.map_replicate, List.sum_replicate, List.count_eq_one_of_mem List.nodup_range (List.mem_range.mpr hj)]
    simp

/-- A 16-byte key is legal. -/
def only16 (n : Nat) : Bool := n == 16

/-- A cipher that adds the first key and info bytes and one to every byte. -/
def plusEnv : Env := ⟨false, 0, fun k i b => b.map (· + (k.headD 0 + i.headD 0 + 1)), only16, only16⟩

theorem plus_good : plusEnv.Good := fun k i b h => by simp [plusEnv, h]

/-- A request with a 12-byte nonce and three bytes of associated data in the middle of an array. -/
def req12 : Req := ⟨List.replicate 16 7, [9], List.replicate 12 3, some ⟨[1, 2, 3, 4, 5], 1, 3, by decide, by decide⟩⟩

theorem req12_ok : req12.Ok plusEnv := ⟨by decide, rfl, rfl, by decide⟩

theorem start_reach {e : Env} {st s : Gcm} {x : Option ErrCode} {enc : Bool} {r : Req} {p : Profile} {s0 : Nat → List Nat} (hre : st.Reach e) (hv : p.Valid) (hf : FairFor e p 16 s0)
    (h : st.start e enc r p s0 = .ok (x, s)) : s.Reach e := by
  obtain ⟨i, h1, h2⟩ := bind_ok h
  have r1 : Gcm.Reach e i.2 := .init hre hv hf (x := i.1) h1
  cases h3 : i.1 with
  | some y => rw [h3] at h2; cases h2; exact r1
  | none =>
    rw [h3] at h2
    cases h4 : r.aad with
    | none => rw [h4] at h2; cases h2; exact r1
    | some a => rw [h4] at h2; exact .aad r1 h2

/-- The hypotheses of the theorems above and below are met: by the constructed instance, by one with associated data that is in the middle of a message, and by one that has
sealed a message (it has a key, and is usable again). -/
example : Usable .fresh req12.iv ∧ ∃ st1 st2, Gcm.Reach plusEnv st1 ∧ st1.aad ≠ [] ∧ st1.init = true ∧
    Gcm.Reach plusEnv st2 ∧ Usable st2 req12.iv ∧ st2.ctrInit = true ∧ st2.init = false ∧ [1, 2, 3, 4, 5, 6, 7, 8] ≠ List.replicate st2.buf.length 0 := by
  obtain ⟨s, h1, _, h2, h3, h4, h5⟩ := start_ok plus_good (Gcm.Reach.wf plus_good .fresh) true req12 req12_ok (Or.inl rfl) seqProfile_valid (fun _ => []) (fair_seq _ _ _)
  have r1 := start_reach .fresh seqProfile_valid (fair_seq _ _ _) h1
  obtain ⟨ks, n', hs⟩ := stream_any (plusEnv.ec req12) (plus_good _ _) seqProfile_valid (Nist.j0 (plusEnv.hk req12) req12.iv) 3
  obtain ⟨gh, h6⟩ := seal_ok plus_good h2 [10, 20, 30] hs (fun _ => []) (fair_seq _ _ _) [10, 20, 30] 0 (Holds.self _) [] (List.replicate 19 0) [] rfl
  refine ⟨Or.inl rfl, s, _, r1, fun h => ?_, h2.init, .transform r1 h6, Or.inl rfl, h4, rfl, ?_⟩
  · have := h2.aad
    rw [h] at this
    exact absurd this (by decide)
  · show _ ≠ List.replicate s.buf.length 0
    rw [h5]
    decide

/-! ## Where the properties fail -/

theorem gstep_zero (y : BitVec 128) (b : List Byte) : Nist.gstep 0 y b = 0 := by
  apply poly_inj
  rw [Nist.gstep, nist_mul, poly_zero, mul_zero, Polynomial.zero_modByMonic]

/-- Without the hash key, the tag does not depend on the text. -/
theorem rawTag_zero (E : List Byte → List Byte) (J : List Byte) (y0 : BitVec 128) (n : Nat) (c : List Byte) (hE : (E J).length = 16) : rawTag 0 E J y0 n c = E J := by
  rw [rawTag, gstep_zero, unblk_zero, xorBytes_comm]
  conv => lhs; rw [← hE]
  exact xorBytes_zeros _

/-- Nonce-only initialisation (an empty key) of an instance that has finished its last message. -/
theorem start_nonce_ok {e : Env} (g : e.Good) {st : Gcm} (w : st.Wf e) (hc : st.ctrInit = true) (hi : st.init = false) (enc : Bool) (r : Req) (hk : r.key = [])
    (hiv : 8 ≤ r.iv.length) (hne : r.iv ≠ List.replicate st.buf.length 0) {p : Profile} (hv : p.Valid) (s0 : Nat → List Nat) (hf : FairFor e p 16 s0) :
    ∃ st', st.start e enc r p s0 = .ok (none, st') ∧ st'.Ready e 0 (e.cip st.key []) (Nist.j0 0 r.iv) (adAcc 0 r.ad) r.ad.length enc := by
  obtain ⟨s, h1, h2, h3, _⟩ := initialize_nonce_ok g w hc enc r.info r.iv hne hiv hv s0 hf
  rw [(w.idle hi).1, (w.idle hi).2, preBlock_clean] at h3
  obtain ⟨s', h7, h8, h9, _⟩ := feed_ok g h2 h3 r
  refine ⟨s', ?_, h9⟩
  rw [Gcm.start, hk, h1, ok_bind]
  exact h7

/-- **C21 is false after nonce-only initialisation**, for every block cipher: there is one tag per nonce with which *every* ciphertext with *any* associated data is accepted. -/
theorem C21_nonce_only_false {e : Env} (g : e.Good) {st : Gcm} (hre : st.Reach e) (hc : st.ctrInit = true) (hi : st.init = false) (iv : List Byte) (hiv : 8 ≤ iv.length)
    (hne : iv ≠ List.replicate st.buf.length 0) {p : Profile} (hv : p.Valid) :
    ∃ t, t.length = 16 ∧ ∀ (c info : List Byte) (aad : Option Window) (s0 s1 : Nat → List Nat), FairFor e p 16 s0 → FairFor e p c.length s1 →
      ∃ st' msg, st.message e false ⟨[], info, iv, aad⟩ p s0 s1 (c ++ t) 0 (List.replicate c.length 0) 0 c.length = .ok (none, st', msg) ∧ msg.length = c.length := by
  have hl : (e.cip st.key [] (Nist.j0 0 iv)).length = 16 := g _ _ _ j0_length
  refine ⟨e.cip st.key [] (Nist.j0 0 iv), hl, fun c info aad s0 s1 hf0 hf1 => ?_⟩
  obtain ⟨s, h1, h2⟩ := start_nonce_ok g (hre.wf g) hc hi false ⟨[], info, iv, aad⟩ rfl hiv hne hv s0 hf0
  obtain ⟨ks, n', hs⟩ := stream_any (e.cip st.key []) (g _ _) hv (Nist.j0 0 iv) c.length
  obtain ⟨gh, h3⟩ := open_ok g h2 c _ hl hs s1 hf1 (c ++ _) 0 (Holds.self _) [] (List.replicate c.length 0) [] (by simp)
  rw [if_pos (rawTag_zero _ _ _ _ _ hl), List.nil_append, List.append_nil, List.nil_append, List.append_nil] at h3
  rw [Gcm.message, h1, ok_bind]
  exact ⟨_, _, h3, by rw [xorBytes_length, hs.1, Nat.min_self]⟩

/-- **C21 is false after a failed `Initialize`**, for every block cipher: an initialised instance whose `Initialize` throws because of a short nonce stays initialised,
and then accepts every ciphertext with one and the same tag. -/
theorem C21_failed_init_false {e : Env} (g : e.Good) {st : Gcm} (hre : st.Reach e) (r : Req) (hr : r.Ok e) (hu : Usable st r.iv) {p : Profile} (hv : p.Valid) (s0 : Nat → List Nat)
    (hf : FairFor e p 16 s0) (key info iv : List Byte) (hiv : iv.length < 8) :
    ∃ st1 st2 t, st.start e false r p s0 = .ok (none, st1) ∧ st1.initialize e false key info iv none p s0 = .ok (some .invalidNonce, st2) ∧ st2.init = true ∧ t.length = 16 ∧
      ∀ (c : List Byte) (s1 : Nat → List Nat), FairFor e p c.length s1 →
        ∃ st' msg, st2.transform e p s1 (c ++ t) 0 (List.replicate c.length 0) 0 c.length = .ok (none, st', msg) ∧ msg.length = c.length := by
  obtain ⟨s, h1, w, h2, _⟩ := start_ok g (hre.wf g) false r hr hu hv s0 hf
  obtain ⟨k, hke, hkE⟩ := h2.eng
  have hl : (e.ec r (Nist.j0 (e.hk r) r.iv)).length = 16 := g _ _ _ j0_length
  have h3 : ({ s with aad := List.replicate s.aad.length 0, gh := ⟨0, 0, List.replicate 16 0, 0⟩, buf := List.replicate s.buf.length 0, counter := 0, tag := List.replicate 16 0 } : Gcm).Ready
      e 0 (e.ec r) (Nist.j0 (e.hk r) r.iv) 0 r.ad.length false := by
    refine ⟨h2.mode, h2.init, by simpa using h2.aad, rfl, h2.nonce, h2.ctr, h2.pre, h2.eng, 0, 0, by decide, ?_⟩
    have := absorbed_nil (k0 := 0) (k1 := 0) (y0 := 0) (t := []) (g := ⟨0, 0, List.replicate 16 0, 0⟩) rfl rfl (by simp) rfl
    rwa [acc, List.append_nil, unblk_zero] at this
  refine ⟨s, _, _, h1, ?_, h3.init, hl, fun c s1 hf1 => ?_⟩
  · rw [Gcm.initialize, restart_ok w, ok_bind, if_pos hiv]; rfl
  · obtain ⟨ks, n', hs⟩ := stream_any (e.ec r) (g _ _) hv (Nist.j0 (e.hk r) r.iv) c.length
    obtain ⟨gh, h4⟩ := open_ok g h3 c _ hl hs s1 hf1 (c ++ _) 0 (Holds.self _) [] (List.replicate c.length 0) [] (by simp)
    rw [if_pos (rawTag_zero _ _ _ _ _ hl), List.nil_append, List.append_nil, List.nil_append, List.append_nil] at h4
    exact ⟨_, _, h4, by rw [xorBytes_length, hs.1, Nat.min_self]⟩

/-- **C22 is false for nonce-only initialisation**, for every block cipher: with nonces of any size but 12 the nonce is ignored, one keystream and one tag
serve all of them. -/
theorem C22_nonce_ignored_false {e : Env} (g : e.Good) {st : Gcm} (hre : st.Reach e) (hc : st.ctrInit = true) (hi : st.init = false) {p : Profile} (hv : p.Valid) (msg : List Byte) :
    ∃ res, ∀ iv info s0 s1, 8 ≤ iv.length → iv.length ≠ 12 → iv ≠ List.replicate st.buf.length 0 → FairFor e p 16 s0 → FairFor e p msg.length s1 →
      ∃ st', st.message e true ⟨[], info, iv, none⟩ p s0 s1 msg 0 (List.replicate (msg.length + 16) 0) 0 msg.length = .ok (none, st', res) := by
  have hj : ∀ iv : List Byte, iv.length ≠ 12 → Nist.j0 0 iv = List.replicate 16 0 := by
    intro iv h
    rw [Nist.j0, if_neg h, Nist.ghash, eager_last _ _ _ _ (pad16_length _) (lens_length _ _), gstep_zero, unblk_zero]
  obtain ⟨ks, n', hs⟩ := stream_any (e.cip st.key []) (g _ _) hv (List.replicate 16 0) msg.length
  refine ⟨xorBytes ks msg ++ rawTag 0 (e.cip st.key []) (List.replicate 16 0) (adAcc 0 []) 0 (xorBytes ks msg), fun iv info s0 s1 h8 h12 hne hf0 hf1 => ?_⟩
  obtain ⟨s, h1, h2⟩ := start_nonce_ok g (hre.wf g) hc hi true ⟨[], info, iv, none⟩ rfl h8 hne hv s0 hf0
  simp only [hj iv h12] at h2
  obtain ⟨gh, h3⟩ := seal_ok g h2 msg hs s1 hf1 msg 0 (Holds.self _) [] (List.replicate (msg.length + 16) 0) [] (by simp)
  rw [List.nil_append, List.append_nil, List.nil_append, List.append_nil] at h3
  rw [Gcm.message, h1, ok_bind]
  exact ⟨_, h3⟩

/-- **C22 is false in the middle of a message**: if associated data was set and the message was not finished, after the next (successful) `Initialize` the first
`SetAssociatedData` throws, for every cipher and key. -/
theorem C22_pending_aad_false {e : Env} (g : e.Good) {st : Gcm} (hre : st.Reach e) (ha : st.aad ≠ []) (enc : Bool) (key info iv : List Byte) (a : Window) (hr : Req.Ok e ⟨key, info, iv, some a⟩)
    {p : Profile} (hv : p.Valid) (s0 : Nat → List Nat) (hf : FairFor e p 16 s0) :
    ∃ s s', st.initialize e enc key info iv none p s0 = .ok (none, s) ∧ st.start e enc ⟨key, info, iv, some a⟩ p s0 = .ok (some .illegalOperation, s') := by
  obtain ⟨s, h1, _, h2, _⟩ := initialize_ok g (hre.wf g) enc key info iv hr.key hr.legal hr.engLegal hr.iv hv s0 hf
  refine ⟨s, s, h1, ?_⟩
  rw [Gcm.start, h1, ok_bind]
  show s.setAssociatedData e a.buf a.off a.len = _
  rw [Gcm.setAssociatedData, if_neg (by simp [h2.init]), if_pos]
  · rfl
  · rw [h2.aad]; exact fun h => ha (List.eq_nil_of_length_eq_zero h)

/-- A request without associated data. -/
def reqB : Req := ⟨List.replicate 16 0, [], List.replicate 12 3, none⟩

theorem reqB_ok : reqB.Ok plusEnv := ⟨by decide, rfl, rfl, by decide⟩

/-- **C22 is false in the middle of a message**: a constructed instance and one that was initialised before (with the same parameters) seal the same 16-byte message
differently, because bytes 12 to 14 of the counter block keep their old values. -/
theorem C22_stale_nonce_false : ∃ st, Gcm.Reach plusEnv st ∧ ∃ s1 o1 s2 o2,
    Gcm.fresh.message plusEnv true reqB seqProfile (fun _ => []) (fun _ => []) (List.replicate 16 0) 0 (List.replicate 32 0) 0 16 = .ok (none, s1, o1) ∧
    st.message plusEnv true reqB seqProfile (fun _ => []) (fun _ => []) (List.replicate 16 0) 0 (List.replicate 32 0) 0 16 = .ok (none, s2, o2) ∧ o1 ≠ o2 := by
  have hsmall : SmallBlock seqProfile := fun h => by cases h
  have run : ∀ st : Gcm, st.Wf plusEnv → st.aad = [] → ∃ s0, st.initialize plusEnv true reqB.key reqB.info reqB.iv none seqProfile (fun _ => []) = .ok (none, s0) ∧
      s0.nonce = plusEnv.ec reqB (preBlock (plusEnv.hk reqB) reqB.iv st.nonce) ∧ s0.aad = [] ∧ ∃ s' t,
      st.message plusEnv true reqB seqProfile (fun _ => []) (fun _ => []) (List.replicate 16 0) 0 (List.replicate 32 0) 0 16 = .ok (none, s',
        xorBytes (ctrStream (plusEnv.ec reqB) (fun k => beCounter (preBlock (plusEnv.hk reqB) reqB.iv st.nonce) (1 + k)) 16) (List.replicate 16 0) ++ t) := by
    intro st w ha
    obtain ⟨s0, h0, _, h00, _⟩ := initialize_ok plus_good w true reqB.key reqB.info reqB.iv reqB_ok.key reqB_ok.legal reqB_ok.engLegal reqB_ok.iv seqProfile_valid (fun _ => []) (fair_seq _ _ _)
    obtain ⟨s, h1, _, h2, _⟩ := start_raw plus_good w ha true reqB reqB_ok seqProfile_valid (fun _ => []) (fair_seq _ _ _)
    have hs := stream_small (plusEnv.ec reqB) (plus_good _ _) seqProfile_valid hsmall (preBlock (plusEnv.hk reqB) reqB.iv st.nonce) 16
    obtain ⟨gh, h3⟩ := seal_ok plus_good h2 (List.replicate 16 0) hs (fun _ => []) (fair_seq _ _ _) (List.replicate 16 0) 0 (Holds.self _) [] (List.replicate 32 0) [] (by simp)
    rw [List.nil_append, List.append_nil, List.nil_append, List.append_nil] at h3
    have h4 : st.message plusEnv true reqB seqProfile (fun _ => []) (fun _ => []) (List.replicate 16 0) 0 (List.replicate 32 0) 0 16 =
        s.transform plusEnv seqProfile (fun _ => []) (List.replicate 16 0) 0 (List.replicate 32 0) 0 16 := by rw [Gcm.message, h1, ok_bind]
    have h5 := h4.trans h3
    exact ⟨s0, h0, h00.nonce, List.eq_nil_of_length_eq_zero (by rw [h00.aad, ha]; rfl), _, _, h5⟩
  obtain ⟨a, ha, han, haa, s1, t1, hm1⟩ := run .fresh (Gcm.Reach.wf plus_good .fresh) rfl
  have hra : Gcm.Reach plusEnv a := .init .fresh seqProfile_valid (fair_seq _ _ _) ha
  obtain ⟨_, _, _, _, s2, t2, hm2⟩ := run a (hra.wf plus_good) haa
  refine ⟨a, hra, s1, _, s2, _, hm1, hm2, fun h => ?_⟩
  have h := congrArg (List.take 16) h
  rw [han] at h
  revert h
  have e1 : preBlock (plusEnv.hk reqB) reqB.iv Gcm.fresh.nonce = List.replicate 12 3 ++ [0, 0, 0, 1] := rfl
  rw [e1]
  have e2 : preBlock (plusEnv.hk reqB) reqB.iv (plusEnv.ec reqB (List.replicate 12 3 ++ [0, 0, 0, 1])) = List.replicate 12 3 ++ [1, 1, 1, 1] := by
    rw [preBlock, if_pos (by decide)]; decide
  rw [e2, List.take_append_of_le_length (by decide), List.take_append_of_le_length (by decide)]
  decide

/-! ### C20 across profiles -/

/-- The identity as block cipher (any cipher would do that maps different blocks to different blocks). -/
def idEnv : Env := ⟨false, 0, fun _ _ b => b, only16, only16⟩

/-- A nonce of twelve zero bytes. -/
def reqZ : Req := ⟨List.replicate 16 0, [], List.replicate 12 0, none⟩

theorem reqZ_ok : reqZ.Ok idEnv := ⟨by decide, rfl, rfl, by decide⟩

/-- Two tasks of `0xFFFE` blocks. -/
abbrev wideZ : Profile := pair 0xFFFE

theorem wideZ_valid : wideZ.Valid := fun _ => ⟨by decide, by decide, ⟨0xFFFE, by decide⟩⟩

/-- **C20 is false across profiles**: every message of `2 * 0xFFFE` blocks sealed with the 2-task profile `wideZ` is accepted by the sequential opener, which returns
a different text. -/
theorem C20_cross_profile_false (msg : List Byte) (hm : msg.length = wideZ.blockSize) :
    ∃ res msg', Seals idEnv reqZ wideZ msg res ∧ Opens idEnv reqZ seqProfile res msg' ∧ msg' ≠ msg := by
  have g : idEnv.Good := fun _ _ _ h => h
  have hsmall : SmallBlock seqProfile := fun h => by cases h
  obtain ⟨ks, n', hs⟩ := stream_any (idEnv.ec reqZ) (g _ _) wideZ_valid (Nist.j0 (idEnv.hk reqZ) reqZ.iv) msg.length
  have ht := stream_small (idEnv.ec reqZ) (g _ _) seqProfile_valid hsmall (Nist.j0 (idEnv.hk reqZ) reqZ.iv) msg.length
  generalize ctrStream (idEnv.ec reqZ) (fun k => beCounter (Nist.j0 (idEnv.hk reqZ) reqZ.iv) (1 + k)) msg.length = ks' at ht
  have hl : (xorBytes ks msg).length = msg.length := by rw [xorBytes_length, hs.1, Nat.min_self]
  refine ⟨_, xorBytes ks' (xorBytes ks msg), seals_ok g reqZ reqZ_ok wideZ_valid msg ks n' hs, opens_ok g reqZ reqZ_ok seqProfile_valid _ ks' _ (by rw [hl]; exact ht), fun h => ?_⟩
  have h2 := congrArg (xorBytes ks') h
  rw [xor_twice ks' _ (by rw [hl, ht.1])] at h2
  have hJ : beCounter (Nist.j0 (idEnv.hk reqZ) reqZ.iv) 1 = List.replicate 15 0 ++ [2] := by
    rw [Nist.j0, if_pos (by decide)]; decide
  obtain ⟨sch, hf⟩ := fair_exists wideZ (ctrTurns 0 (wideZ.blockSize / wideZ.degree)) msg.length
  obtain ⟨n1, n2, o1, o2, e1, e2, hne⟩ := C17_wrong_counter .ctr 0 0xFFFE (by decide) (List.replicate 15 0 ++ [2]) (List.replicate 16 0) (by decide) (by decide) (by decide) (by decide) (by decide)
    msg hm (List.replicate msg.length 0) (by simp) sch hf
  have m1 := hs.2 0 msg rfl sch msg 0 [] (List.replicate msg.length 0) [] hf (Holds.self _) (by simp)
  have m2 := ht.2 0 msg rfl sch msg 0 [] (List.replicate msg.length 0) [] (fair_seq _ _ _) (Holds.self _) (by simp)
  rw [hJ, List.nil_append, List.append_nil, List.nil_append, List.append_nil] at m1 m2
  have e1' := e1.symm.trans m1
  have e2' := e2.symm.trans m2
  cases e1'; cases e2'
  exact hne h2

/-! ## C42: SP 800-38D -/

theorem inc32_eq {J : List Byte} (hJ : J.length = 16) {k : Nat} (h : beVal (J.drop 12) + k < 2 ^ 32) : Nist.inc32 J k = beCounter J k := by
  have hv : beVal J = beVal (J.take 12) * 256 ^ 4 + beVal (J.drop 12) := by
    have := beVal_append (J.take 12) (J.drop 12)
    rwa [List.take_append_drop, List.length_drop, hJ] at this
  have hlt := beVal_lt (J.take 12)
  rw [List.length_take, hJ, show min 12 16 = 12 from rfl] at hlt
  rw [beCounter]
  apply eq_beEnc
  · rw [Nist.inc32, List.length_append, List.length_take, beEnc_length, hJ]; rfl
  · rw [Nist.inc32, beVal_append, beEnc_length, beVal_beEnc, hv]
    generalize beVal (J.take 12) = a at *
    generalize beVal (J.drop 12) = b at *
    rw [Nat.mod_eq_of_lt (show b + k < 256 ^ 4 by omega)]
    rw [Nat.mod_eq_of_lt (by omega), Nat.add_assoc]

theorem ctrStream_congr (E : List Byte → List Byte) {f h : Nat → List Byte} {n : Nat} (hh : ∀ k, k < (n + 15) / 16 → f k = h k) : ctrStream E f n = ctrStream E h n := by
  rw [ctrStream, ctrStream]
  refine congrArg (List.take n) ?_
  rw [List.flatMap_def, List.flatMap_def]
  refine congrArg List.flatten (List.map_congr_left fun k hk => ?_)
  rw [hh k (List.mem_range.mp hk)]

/-- **C42 (partial: 12-byte nonce, no info string, at most `2^32 - 2` blocks, profile blocks of at most 16 * 0xFF00 bytes).** Ciphertext and tag are those of
Algorithm 4 of SP 800-38D, for every key, associated data and message, from every usable state. -/
theorem C42_sp800_38d_partial {e : Env} (g : e.Good) (r : Req) (hr : r.Ok e) (hi : r.info = []) (h12 : r.iv.length = 12) {p : Profile} (hv : p.Valid) (hs : SmallBlock p) (msg : List Byte)
    (hm : msg.length ≤ 16 * (2 ^ 32 - 2)) : Seals e r p msg ((Nist.seal (e.cip r.key []) r.iv r.ad msg).1 ++ (Nist.seal (e.cip r.key []) r.iv r.ad msg).2) := by
  have h := C22_result_partial g r hr hv hs msg
  rw [hi] at h
  have he : sealed (Nist.hkey (e.cip r.key [])) (e.cip r.key []) r.iv r.ad msg = Nist.seal (e.cip r.key []) r.iv r.ad msg := by
    rw [sealed, Nist.seal]
    have : ctrStream (e.cip r.key []) (fun k => beCounter (Nist.j0 (Nist.hkey (e.cip r.key [])) r.iv) (1 + k)) msg.length =
        ctrStream (e.cip r.key []) (fun k => Nist.inc32 (Nist.j0 (Nist.hkey (e.cip r.key [])) r.iv) (1 + k)) msg.length := by
      refine ctrStream_congr _ fun k hk => (inc32_eq j0_length ?_).symm
      rw [Nist.j0, if_pos h12, List.drop_append_of_le_length (by omega), List.drop_eq_nil_of_le (by omega), List.nil_append, show beVal [0, 0, 0, (1 : Byte)] = 1 from by decide]
      omega
    simp only [this]
  rwa [he] at h

/-- Blocks are combined with `80 00 … 00`, so that the hash key is the field's one. -/
def flipEnv : Env := ⟨false, 0, fun _ _ b => xorBytes b (0x80 :: List.replicate 15 0), only16, only16⟩

theorem flip_good : flipEnv.Good := fun _ _ b h => by
  show (xorBytes b _).length = 16
  rw [xorBytes_length, h]; rfl

/-- A 16-byte nonce. -/
def reqF : Req := ⟨List.replicate 16 0, [], List.replicate 12 0 ++ [0xFF, 0xFF, 0xFF, 0x7F], none⟩

theorem reqF_ok : reqF.Ok flipEnv := ⟨by decide, rfl, rfl, by decide⟩

theorem mul_one_block (x : BitVec 128) : Nist.mul x (BitVec.twoPow 128 127) = x := by
  apply poly_inj
  rw [nist_mul, poly_one, mul_one, poly_mod]

theorem reqF_pre : Nist.j0 (Nist.hkey (flipEnv.cip reqF.key [])) reqF.iv = List.replicate 12 0 ++ List.replicate 4 0xFF := by
  have hH : Nist.hkey (flipEnv.cip reqF.key []) = BitVec.twoPow 128 127 := by decide
  have hg : ∀ y b, Nist.gstep (BitVec.twoPow 128 127) y b = y ^^^ blk b := fun y b => mul_one_block _
  rw [hH, Nist.j0, if_neg (by decide), Nist.ghash, eager_last _ _ _ _ (pad16_length _) (lens_length _ _), hg]
  have hp : Nist.pad16 reqF.iv = reqF.iv := by decide
  rw [hp]
  have := eager_cons (step := Nist.gstep (BitVec.twoPow 128 127)) (B := 16) (by decide) (s := 0) (b := reqF.iv) (m := []) (by decide)
  rw [List.append_nil] at this
  rw [this, eager_short (by decide), hg]
  decide

/-- **C42 is false for other nonces**: the library carries out of the last four bytes of the counter. -/
theorem C42_counter_false : ∃ res, Seals flipEnv reqF seqProfile (List.replicate 16 0) res ∧
    res ≠ (Nist.seal (flipEnv.cip reqF.key []) reqF.iv [] (List.replicate 16 0)).1 ++ (Nist.seal (flipEnv.cip reqF.key []) reqF.iv [] (List.replicate 16 0)).2 := by
  refine ⟨_, C22_result_partial flip_good reqF reqF_ok seqProfile_valid (fun h => by cases h) _, fun h => ?_⟩
  have h := congrArg (List.take 16) h
  simp only [sealed, Nist.seal] at h
  rw [show reqF.info = [] from rfl, reqF_pre, List.take_append_of_le_length (by decide), List.take_append_of_le_length (by decide)] at h
  revert h
  decide

/-! ## C43: the info string -/

/-- **C43 is false**: with 12-byte nonces the info string has no influence on the ciphertext, for every block cipher, key and message. -/
theorem C43_info_ignored_false {e : Env} (g : e.Good) (r : Req) (hr : r.Ok e) (h12 : r.iv.length = 12) {p : Profile} (hv : p.Valid) (msg info : List Byte) :
    ∃ c t t', c.length = msg.length ∧ Seals e r p msg (c ++ t) ∧ Seals e { r with info := info } p msg (c ++ t') := by
  have hj : ∀ H, Nist.j0 H r.iv = r.iv ++ [0, 0, 0, 1] := fun H => by rw [Nist.j0, if_pos h12]
  obtain ⟨ks, n', hs⟩ := stream_any (e.ec r) (g _ _) hv (r.iv ++ [0, 0, 0, 1]) msg.length
  refine ⟨xorBytes ks msg, _, _, by rw [xorBytes_length, hs.1, Nat.min_self], seals_ok g r hr hv msg ks n' (by rw [hj]; exact hs),
    seals_ok g { r with info := info } ⟨hr.1, hr.2, hr.3, hr.4⟩ hv msg ks n' (by rw [hj]; exact hs)⟩

/-- The info string does change the cipher otherwise. -/
example : plusEnv.cip (List.replicate 16 7) [9] (List.replicate 16 0) ≠ plusEnv.cip (List.replicate 16 7) [] (List.replicate 16 0) := by decide

end Cex.Gcm
