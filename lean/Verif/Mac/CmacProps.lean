import Verif.Mac.CmacLemmas

/-!
# C27 CMAC

`Reach E` are the states an instance can be in: constructed, then any sequence of successful calls in any
order, with any keys. Every theorem starts from an arbitrary reachable state, so nothing is assumed about
what the instance did before `Initialize`.
-/

namespace Cex.Mac
open Cex Cex.Modes Cex.Stream Cex.Mac.Spec Cex.IntTools

/-- A sequence of `Update` calls. -/
def Cmac.updates (st : Cmac) (ws : List Window) : M Cmac := ws.foldlM (fun st w => st.update w.buf w.off w.len) st

/-- The states of a CMAC object: constructed, then any successful calls. -/
inductive Cmac.Reach : Cmac → Prop
  | fresh : Reach .fresh
  | init {st st' E} : Reach st → (∀ b, b.length = 16 → (E b).length = 16) → st.initialize true E = .ok st' → Reach st'
  | update {st st' inp io len} : Reach st → st.update inp io len = .ok st' → Reach st'
  | final {st st' out oo out'} : Reach st → st.finalize out oo = .ok (st', out') → Reach st'
  | finalSecure {st st' tag} : Reach st → st.finalizeSecure = .ok (st', tag) → Reach st'
  | reset {st st'} : Reach st → st.reset = .ok st' → Reach st'

theorem encBlock_wf {st st' : Cmac} {inp : List Byte} {io : Nat} (h : st.encBlock inp io = .ok st') :
    st'.buf = st.buf ∧ st'.state.length = st.state.length ∧ st'.iv.length = st.iv.length ∧ st'.init = st.init ∧ st'.enc = st.enc ∧ st'.lu = st.lu := by
  rw [Cmac.encBlock] at h
  obtain ⟨r, h1, h2⟩ := bind_ok h
  cases h2
  rw [cbcEncBlock] at h1
  obtain ⟨iv, e1, h1⟩ := bind_ok h1
  obtain ⟨out, e2, h1⟩ := bind_ok h1
  obtain ⟨iv2, e3, h1⟩ := bind_ok h1
  cases h1
  refine ⟨rfl, ?_, ?_, rfl, rfl, rfl⟩
  · rw [cipherBlock] at e2
    obtain ⟨_, _, e2⟩ := bind_ok e2
    exact blit_len e2
  · exact (copy_len e3).trans (xorInto_len e1)

theorem cmacLoop_wf (inp : List Byte) : ∀ (n io : Nat) (st : Cmac) (r : Cmac × Nat × Nat), cmacLoop inp io n st = .ok r →
    r.1.buf = st.buf ∧ r.1.state.length = st.state.length ∧ r.1.iv.length = st.iv.length ∧ r.1.init = st.init := by
  intro n
  induction n using Nat.strongRecOn with
  | ind n ih =>
    intro io st r h
    rw [cmacLoop] at h
    split at h
    · obtain ⟨s, h1, h2⟩ := bind_ok h
      obtain ⟨a1, a2, a3, a4, _⟩ := encBlock_wf h1
      obtain ⟨b1, b2, b3, b4⟩ := ih (n - 16) (by omega) _ _ _ h2
      exact ⟨b1.trans a1, b2.trans a2, b3.trans a3, b4.trans a4⟩
    · cases h; exact ⟨rfl, rfl, rfl, rfl⟩

theorem update_wf {st st' : Cmac} {inp : List Byte} {io len : Nat} (w : st.Wf) (h : st.update inp io len = .ok st') : st'.Wf := by
  rw [Cmac.update] at h
  split at h
  · cases h
  · rename_i hi
    split at h
    · cases h
    · split at h
      · cases h; exact w
      · obtain ⟨s1, h1, h⟩ := bind_ok h
        split at h
        · cases h
        · obtain ⟨s2, h2, h⟩ := bind_ok h
          have w1 : s1.buf.length = 16 ∧ s1.state.length = 16 ∧ s1.iv.length = 16 ∧ s1.init = true := by
            rw [Cmac.flush] at h1
            split at h1
            · obtain ⟨s, h3, h4⟩ := bind_ok h1
              cases h4
              obtain ⟨a1, a2, a3, a4, _⟩ := encBlock_wf h3
              exact ⟨(congrArg List.length a1).trans w.buf, a2.trans w.state, a3.trans w.iv, a4.trans (by simpa using hi)⟩
            · cases h1; exact ⟨w.buf, w.state, w.iv, by simpa using hi⟩
          have w2 : s2.1.buf.length = 16 ∧ s2.1.state.length = 16 ∧ s2.1.iv.length = 16 ∧ s2.1.init = true := by
            rw [Cmac.fill] at h2
            split at h2
            · obtain ⟨b, h3, h2⟩ := bind_ok h2
              obtain ⟨s, h4, h2⟩ := bind_ok h2
              obtain ⟨a1, a2, a3, a4, _⟩ := encBlock_wf h4
              obtain ⟨b1, b2, b3, b4⟩ := cmacLoop_wf _ _ _ _ _ h2
              refine ⟨?_, b2.trans (a2.trans w1.2.1), b3.trans (a3.trans w1.2.2.1), b4.trans (a4.trans w1.2.2.2)⟩
              rw [b1]
              exact (congrArg List.length a1).trans ((copy_len h3).trans w1.1)
            · cases h2; exact w1
          rw [Cmac.store] at h
          split at h
          · obtain ⟨b, h3, h⟩ := bind_ok h
            cases h
            exact ⟨(copy_len h3).trans w2.1, w2.2.1, w2.2.2.1, fun e => by rw [w2.2.2.2] at e; cases e⟩
          · cases h
            exact ⟨w2.1, w2.2.1, w2.2.2.1, fun e => by rw [w2.2.2.2] at e; cases e⟩

theorem finalize_wf {st st' : Cmac} {out out' : List Byte} {oo : Nat} (w : st.Wf) (h : st.finalize out oo = .ok (st', out')) : st'.Wf := by
  rw [Cmac.finalize] at h
  split at h
  · cases h
  · rename_i hi
    split at h
    · cases h
    · obtain ⟨b, h1, h⟩ := bind_ok h
      obtain ⟨s, h2, h⟩ := bind_ok h
      obtain ⟨o, h3, h⟩ := bind_ok h
      cases h
      obtain ⟨a1, a2, a3, a4, _⟩ := encBlock_wf h2
      refine ⟨?_, a2.trans w.state, a3.trans w.iv, fun e => absurd (a4.symm.trans e) hi⟩
      rw [a1]
      show b.length = 16
      rw [cmacMask] at h1
      obtain ⟨p, h4, h1⟩ := bind_ok h1
      have hp : p.length = 16 := by
        rw [cmacPad] at h4
        split at h4
        · obtain ⟨q, h5, h4⟩ := bind_ok h4
          exact loopN_ok (fun b => b.length = 16) (fun i s s' hs hw => (wr_len hw).trans hs) _ _ _ _ ((wr_len h5).trans w.buf) h4
        · cases h4; exact w.buf
      split at h1 <;> exact (xorInto_len h1).trans hp

theorem Cmac.Reach.wf {st : Cmac} (h : st.Reach) : st.Wf := by
  induction h with
  | fresh => exact ⟨rfl, rfl, rfl, fun _ => rfl⟩
  | init _ hE h w =>
    obtain ⟨st', h', ab⟩ := initialize_ok _ w _ hE
    rw [h'] at h; cases h
    obtain ⟨_, _, e⟩ := ab.buf
    exact ⟨e, ab.state, ab.ivlen, fun e => by rw [ab.init] at e; cases e⟩
  | update _ h w => exact update_wf w h
  | final _ h w => exact finalize_wf w h
  | finalSecure _ h w =>
    rw [Cmac.finalizeSecure] at h
    obtain ⟨r, h1, h⟩ := bind_ok h
    obtain ⟨s, h2, h⟩ := bind_ok h
    cases h
    have := finalize_wf w (st' := r.1) (out' := r.2) h1
    rw [reset_ok _ this] at h2
    cases h2
    exact ⟨rfl, rfl, rfl, fun _ => rfl⟩
  | reset _ h w =>
    rw [reset_ok _ w] at h
    cases h
    exact ⟨rfl, rfl, rfl, fun _ => rfl⟩

theorem updates_ok {E : List Byte → List Byte} (hE : ∀ b, b.length = 16 → (E b).length = 16) :
    ∀ (ws : List Window) (msg : List Byte) (st : Cmac), Absorbed E msg st →
      ∃ st', st.updates ws = .ok st' ∧ Absorbed E (msg ++ (ws.map Window.bytes).flatten) st'
  | [], msg, st, h => ⟨st, rfl, by simpa using h⟩
  | w :: ws, msg, st, h => by
    obtain ⟨s, h1, h2⟩ := update_ok hE h w.buf w.off w.bytes w.holds w.size
    rw [w.bytes_length] at h1
    obtain ⟨s', h3, h4⟩ := updates_ok hE ws _ s h2
    refine ⟨s', ?_, by simpa using h4⟩
    rw [Cmac.updates, List.foldlM_cons, h1]
    exact h3

/-- **C27 (first message after each initialisation).** From any reachable state, `Initialize` followed by any
`Update` calls whose windows concatenate to `msg`, followed by `Finalize` into any place of any large enough
output, writes exactly the RFC 4493 tag of `msg` there and nothing else. So the tag depends only on the
concatenation, and a second message computed after another `Initialize` gets its own tag.

Missing from C27: a second message on the same initialised instance without `Initialize`, see
`C27_second_message_false`. -/
theorem C27_cmac_partial {st : Cmac} (hr : st.Reach) (E : List Byte → List Byte) (hE : ∀ b, b.length = 16 → (E b).length = 16)
    (ws : List Window) (pre junk post : List Byte) (hj : junk.length = 16) (hsz : (pre ++ junk ++ post).length < 2 ^ 64) :
    ∃ s1 s2 s3, st.initialize true E = .ok s1 ∧ s1.updates ws = .ok s2 ∧
      s2.finalize (pre ++ junk ++ post) pre.length = .ok (s3, pre ++ cmac E (ws.map Window.bytes).flatten ++ post) := by
  obtain ⟨s1, h1, a1⟩ := initialize_ok st hr.wf E hE
  obtain ⟨s2, h2, a2⟩ := updates_ok hE ws [] s1 a1
  obtain ⟨s3, h3⟩ := finalize_ok hE a2 pre junk post hj hsz
  exact ⟨s1, s2, s3, h1, h2, h3⟩

/-- The same for the `SecureVector` overload of `Finalize`, which also resets: the instance then refuses
further use until it is initialised again. -/
theorem C27_secure_partial {st : Cmac} (hr : st.Reach) (E : List Byte → List Byte) (hE : ∀ b, b.length = 16 → (E b).length = 16)
    (ws : List Window) :
    ∃ s1 s2 s3, st.initialize true E = .ok s1 ∧ s1.updates ws = .ok s2 ∧
      s2.finalizeSecure = .ok (s3, cmac E (ws.map Window.bytes).flatten) ∧
      (∀ inp io len, s3.update inp io len = .error (.throws .notInitialized)) ∧
      (∀ out oo, s3.finalize out oo = .error (.throws .notInitialized)) := by
  obtain ⟨s1, h1, a1⟩ := initialize_ok st hr.wf E hE
  obtain ⟨s2, h2, a2⟩ := updates_ok hE ws [] s1 a1
  obtain ⟨s3, h3⟩ := finalize_ok hE a2 [] (List.replicate 16 0) [] (by simp) (by simp)
  simp only [List.nil_append, List.append_nil, List.length_nil] at h3
  have w2 : s2.Wf := by
    obtain ⟨_, _, e⟩ := a2.buf
    exact ⟨e, a2.state, a2.ivlen, fun e => by rw [a2.init] at e; cases e⟩
  have w3 : s3.Wf := finalize_wf w2 h3
  have hcall : s2.finalizeSecure = .ok ((⟨List.replicate 16 0, List.replicate 16 0, 0, false, ([], []), s3.enc, List.replicate 16 0⟩ : Cmac), cmac E (ws.map Window.bytes).flatten) := by
    rw [Cmac.finalizeSecure, h3, ok_bind, reset_ok _ w3]
    rfl
  exact ⟨s1, s2, _, h1, h2, hcall, fun _ _ _ => rfl, fun _ _ => rfl⟩

/-- C27 in full would also say that every further message computed on the same initialised instance gets its
own tag. -/
def C27_full : Prop :=
  ∀ (E : List Byte → List Byte), (∀ b, b.length = 16 → (E b).length = 16) → ∀ (m1 m2 : List Byte) s1 s2 s3 t1 t2,
    Cmac.fresh.initialize true E = .ok s1 → s1.compute m1 = .ok (s2, t1) → s2.compute m2 = .ok (s3, t2) →
    t1 = cmac E m1 ∧ t2 = cmac E m2

/-- The empty message twice, with the identity as the block cipher: the first tag is right (the padding block
10…0), the second is all zero because `Finalize` leaves the chaining value and the buffer as they are. -/
theorem C27_second_message_false : ¬ C27_full := by
  intro h
  have hrun : ∃ s1 s2 s3, Cmac.fresh.initialize true id = .ok s1 ∧ s1.compute [] = .ok (s2, 0x80 :: List.replicate 15 0) ∧
      s2.compute [] = .ok (s3, List.replicate 16 0) := ⟨_, _, _, rfl, rfl, rfl⟩
  obtain ⟨s1, s2, s3, h1, h2, h3⟩ := hrun
  have := (h id (fun _ h => h) [] [] s1 s2 s3 _ _ h1 h2 h3)
  rw [← this.1] at this
  exact absurd this.2 (by decide)

/-- A function on blocks to instantiate with: reverse the bytes and add one. -/
def flip (b : List Byte) : List Byte := b.reverse.map (· + 1)

/-- The hypotheses of `C27_cmac_partial` hold for a concrete run: an instance that has already been keyed, fed and
finalised is keyed again and gets 17 bytes in two pieces, the tag going to the middle of a larger buffer. -/
example : ∃ st : Cmac, st.Reach ∧ st.init = true ∧ st.pos = 3 ∧ ∃ s1 s2 s3, st.initialize true flip = .ok s1 ∧
    s1.updates [Window.whole [1, 2, 3] (by decide), ⟨List.replicate 20 7, 2, 14, by decide, by decide⟩] = .ok s2 ∧
    s2.finalize ([9] ++ List.replicate 16 5 ++ [8]) 1 =
      .ok (s3, [9] ++ cmac flip ([1, 2, 3] ++ List.replicate 14 7) ++ [8]) := by
  have hE : ∀ b, b.length = 16 → (flip b).length = 16 := by intro b h; simp [flip, h]
  have hrun : ∃ a b c : Cmac, Cmac.fresh.initialize true flip = .ok a ∧ a.update [1, 2, 3] 0 3 = .ok b ∧ ∃ o, b.finalize (List.replicate 16 0) 0 = .ok (c, o) ∧
      c.init = true ∧ c.pos = 3 := ⟨_, _, _, rfl, rfl, _, rfl, rfl, rfl⟩
  obtain ⟨a, b, c, h1, h2, o, h3, h4, h5⟩ := hrun
  have hr := Cmac.Reach.final (.update (.init .fresh hE h1) h2) h3
  obtain ⟨s1, s2, s3, r1, r2, r3⟩ := C27_cmac_partial hr flip hE
    [Window.whole [1, 2, 3] (by decide), ⟨List.replicate 20 7, 2, 14, by decide, by decide⟩] [9] (List.replicate 16 5) [8] rfl (by decide)
  exact ⟨c, hr, h4, h5, s1, s2, s3, r1, r2, r3⟩

end Cex.Mac
