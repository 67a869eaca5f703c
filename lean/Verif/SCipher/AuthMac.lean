import Verif.SCipher.AuthLemmas

/-!
# Authenticated mode: KMAC as the authenticator, and the derived keys
-/

namespace Cex.SCipher
open Cex Cex.IntTools Cex.Mac Cex.Modes Cex.Keccak Stream SCipher.Spec

variable {P : List Byte → M (List Byte)} {f : List Byte → List Byte} {r tag : Nat}

/-- The state after the last block of the message, before the permutation. -/
def lastState (f : List Byte → List Byte) (r n : Nat) (s0 m : List Byte) : List Byte :=
  xorBytes (eager r (Fips202.block f) s0 m).1 (lastBlock r (eager r (Fips202.block f) s0 m).2 (Sp800185.rightEncode (8 * n)) ++ List.replicate
    (200 - (lastBlock r (eager r (Fips202.block f) s0 m).2 (Sp800185.rightEncode (8 * n))).length) 0)

/-- The object has received `t.2` since its Keccak state was `t.1`. -/
structure KRep (f : List Byte → List Byte) (r tag : Nat) (s : Kmac) (t : List Byte × List Byte) : Prop where
  rate : s.rate = r
  tg : s.tag = tag
  init : s.init = true
  len : t.1.length = 200
  got : s.toBuffered.Got f r 200 t.1 t.2

theorem codeTag_last (s0 m : List Byte) (n : Nat) : codeTag f r s0 m n = Fips202.squeeze f r (f (lastState f r n s0 m)) n := by
  rw [codeTag, lastState, Fips202.block]

theorem lastState_len (p : Perm P f) (h0 : 0 < r) (hr : r ≤ 200) {s0 m : List Byte} {n : Nat} (h : s0.length = 200) : (lastState f r n s0 m).length = 200 := by
  have hl := lastBlock_len h0 (eager r (Fips202.block f) s0 m).2 (Sp800185.rightEncode (8 * n))
  exact xorBytes_state (eager_length p hr _ _ h) (b := lastBlock r (eager r (Fips202.block f) s0 m).2 (Sp800185.rightEncode (8 * n))) (by omega)

theorem codeTag_len (p : Perm P f) (h0 : 0 < r) (hr : r ≤ 200) {s0 m : List Byte} {n : Nat} (h : s0.length = 200) : (codeTag f r s0 m n).length = n := by
  rw [codeTag_last, squeeze_length p h0 hr _ _ (p.len _ (lastState_len p h0 hr h))]

theorem KRep.update (p : Perm P f) (h0 : 0 < r) (hr : r ≤ 200) {s : Kmac} {t} (h : KRep f r tag s t) (w : Window) :
    ∃ s', s.update P w.buf w.off w.len = .ok s' ∧ KRep f r tag s' (t.1, t.2 ++ w.bytes) := by
  have hle := w.le
  obtain ⟨b, h3, h4⟩ := update_got p h0 hr hr h.len h.got w.holds
  rw [w.bytes_length] at h3
  rw [Kmac.update, if_neg (by rw [h.init]; simp), subU_le (by omega) w.size, if_neg (by omega), h.rate, h3, ok_bind]
  exact ⟨_, rfl, rfl, h.tg, h.init, h.len, h4⟩

theorem KRep.final (p : Perm P f) (h0 : 0 < r) (hr : r ≤ 168) (htag : tag < 2 ^ 61) {s : Kmac} {t} (h : KRep f r tag s t) (junk : List Byte) (hj : junk.length = tag) :
    ∃ s', s.finalizeSecure P junk 0 = .ok (s', codeTag f r t.1 t.2 tag) ∧ KRep f r tag s' (Nat.repeat f (blocks r tag) (lastState f r tag t.1 t.2), []) := by
  have hr2 : r ≤ 200 := by omega
  have hs : s.st.length = 200 := by rw [h.got.st]; exact eager_length p hr2 _ _ h.len
  have hpos : s.pos < r := by rw [h.got.pos]; exact eager_rest_lt h0 _ _
  have hsub : subU junk.length 0 = junk.length := subU_le (by omega) (by omega)
  obtain ⟨b, h1, h2, h3⟩ := lastBuf_eq (s := s) (n := junk.length) h.got.buf (by rw [h.rate]; exact h0) (by rw [h.rate]; exact hpos) (by rw [h.rate]; exact hr) (by omega)
  rw [h.rate] at h3
  have hl := lastBlock_len h0 (s.buf.take s.pos) (Sp800185.rightEncode (8 * junk.length))
  have hfa := fastAbsorb_eq h3 hl.symm hs (by omega)
  have hX : xorBytes s.st (lastBlock r (s.buf.take s.pos) (Sp800185.rightEncode (8 * junk.length)) ++ List.replicate
      (200 - (lastBlock r (s.buf.take s.pos) (Sp800185.rightEncode (8 * junk.length))).length) 0) = lastState f r tag t.1 t.2 := by
    rw [lastState, h.got.st, h.got.rest, hj]
  rw [hX] at hfa
  have hx := lastState_len p h0 hr2 (n := tag) (m := t.2) h.len
  have he := expand_eq p h0 hr2 junk.length (lastState f r tag t.1 t.2) [] junk [] hx rfl
  rw [List.append_nil, List.nil_append, List.append_nil, List.nil_append, hj, ← codeTag_last] at he
  refine ⟨⟨⟨Nat.repeat f (blocks r tag) (lastState f r tag t.1 t.2), List.replicate 200 0, 0⟩, r, s.tag, s.init⟩, ?_, rfl, h.tg, h.init,
    repeat_len p _ hx, got_nil h0 List.length_replicate⟩
  rw [Kmac.finalizeSecure, if_neg (by rw [h.init]; simp), hsub, if_neg (by rw [h.tg]; omega)]
  simp only []
  rw [h1, ok_bind, h.rate, hfa, ok_bind, hj]
  rw [List.length_nil] at he
  rw [he, ok_bind, clear_all _ _ h2, ok_bind]
  rfl

/-- KMAC over several messages: a start state and the bytes since. `Finalize` leaves the squeezed state as
the start state of the next message (see `C30_reuse_false`). -/
def kmacChain (P : List Byte → M (List Byte)) (f : List Byte → List Byte) (r tag : Nat) : Chain (kmacOps P tag) where
  τ := List Byte × List Byte
  put t x := (t.1, t.2 ++ x)
  fin t := ((Nat.repeat f (blocks r tag) (lastState f r tag t.1 t.2), []), codeTag f r t.1 t.2 tag)
  Rep := KRep f r tag

theorem kmacChain_good (p : Perm P f) (hm : Mode r tag) : (kmacChain P f r tag).Good := by
  obtain ⟨h20, hr, h8, htr⟩ := hm.facts
  refine ⟨fun t => ?_, fun t a b => ?_, ?_, by show tag < 2 ^ 61; omega, ?_, ?_⟩
  · show (t.1, t.2 ++ []) = (t.1, t.2); rw [List.append_nil]
  · show (t.1, t.2 ++ a ++ b) = _; rw [List.append_assoc]; rfl
  · intro s t h
    exact codeTag_len p (by omega) (by omega) (KRep.len h)
  · intro s t h w
    exact KRep.update p (by omega) (by omega) h w
  · intro s t h junk hj
    exact KRep.final p (by omega) hr (by omega) h junk hj

/-- A keyed MAC. -/
theorem kmac_init (p : Perm P f) (hm : Mode r tag) (key : List Byte) (hk : 16 ≤ key.length) (hkl : key.length < 2 ^ 61) :
    ∃ s, (Kmac.fresh r tag).initialize P key [] [] = .ok s ∧ KRep f r tag s (keyState f r key [] [], []) := by
  obtain ⟨h20, hr, h8, htr⟩ := hm.facts
  obtain ⟨s, h1, h2⟩ := Kmac.init_inv (f := f) p (by omega) h20 h8 (Kmac.fresh_inv (tag := tag) (by omega)) hk (Or.inl rfl) (by omega)
    (by decide : 8 * ([] : List Byte).length < 2 ^ 64) (by decide : 8 * ([] : List Byte).length < 2 ^ 64) (fits_default h20 hr [] (by decide))
  have k := h2.keyed _ rfl
  exact ⟨s, h1, h2.rate, h2.tg, k.1, keyState_len p (by omega) key [] [], k.2⟩

/-! ## The derived keys -/

/-- The two keys: bytes of the cSHAKE stream of the cipher's key, under the cipher's name. The first starts
at 0, the second at the second block of the stream. -/
def subKeys (f : List Byte → List Byte) (r n : Nat) (key name : List Byte) : List Byte × List Byte :=
  (Sp800185.cshake f r key n name [], (Sp800185.cshake f r key (r + n) name []).drop r)

theorem initAll_ctr {s s' : Shake} {key cust info : List Byte} (hi : s.init = false) (h : s.initAll P key cust info = .ok s') : s'.ctr = s.ctr := by
  rw [Shake.initAll] at h
  split at h
  · cases h
  split at h
  · cases h
  obtain ⟨s1, e1, h⟩ := bind_ok h
  rw [hi, if_neg (by simp)] at e1
  cases e1
  obtain ⟨s2, e2, h⟩ := bind_ok h
  obtain ⟨st, _, h⟩ := bind_ok h
  cases h
  show s2.ctr = s.ctr
  split at e2
  · rw [Shake.custom] at e2
    obtain ⟨st', _, e2⟩ := bind_ok e2
    cases e2
    rfl
  · cases e2
    rfl

theorem deriveKeys_ok (p : Perm P f) {n : Nat} (hr : r ≤ 168) (h20 : 20 ≤ r) (h8 : r % 8 = 0) (h0 : 0 < n) (hn : n < r) {key name : List Byte} (hk : 4 ≤ key.length)
    (hf : Shake.Fits r [] name) (hnl : name.length < 2 ^ 60) :
    deriveKeys P r n key name = .ok (subKeys f r n key name) ∧ (subKeys f r n key name).1.length = n ∧ (subKeys f r n key name).2.length = n := by
  obtain ⟨g, e0, i0⟩ := Shake.new_inv (f := f) (r := r)
  have hg : g.init = false ∧ g.ctr = 0 := by
    rw [Shake.new, Shake.reset, clear_all _ _ List.length_replicate, ok_bind] at e0
    cases e0
    exact ⟨rfl, rfl⟩
  obtain ⟨g1, e1, i1⟩ := Shake.initAll_inv p (by omega) h20 h8 i0 hk (cust := []) (Or.inl rfl) (by decide) (by omega) hf
  have c1 : g1.ctr = 0 := by rw [initAll_ctr hg.1 e1, hg.2]
  have hd : n / r = 0 := Nat.div_eq_of_lt hn
  obtain ⟨g2, e2, i2, c2⟩ := Shake.generateAt_inv p (by omega) (by omega) i1 [] (List.replicate n 0) [] (by simp; omega) (by rw [List.length_replicate, hd, c1]; omega)
  rw [List.length_replicate, if_neg (by rw [Nat.mod_eq_of_lt hn]; omega), c1] at c2
  obtain ⟨g3, e3, i3, c3⟩ := Shake.generateAt_inv p (by omega) (by omega) i2 [] (List.replicate n 0) [] (by simp; omega) (by rw [List.length_replicate, hd, c2]; omega)
  have hb : blocks r n = 1 := by
    rw [blocks, show n + r - 1 = r + (n - 1) from by omega, Nat.add_div_left _ (by omega), Nat.div_eq_of_lt (by omega)]
  simp only [List.nil_append, List.append_nil, List.length_replicate, List.length_nil, hb, Nat.zero_add] at e2 e3
  have p0 : Shake.part f r key [] name 0 n = (subKeys f r n key name).1 := by rw [Shake.part, subKeys]; simp
  have p1 : Shake.part f r key [] name 1 n = (subKeys f r n key name).2 := by rw [Shake.part, subKeys]; simp
  rw [p0] at e2
  rw [p1] at e3
  refine ⟨?_, ?_, ?_⟩
  · rw [deriveKeys, e0, ok_bind, e1, ok_bind, Shake.generate_at _ _ (by simp; omega), List.length_replicate, e2, ok_bind]
    simp only []
    rw [Shake.generate_at _ _ (by simp; omega), List.length_replicate, e3, ok_bind]
    rfl
  · rw [← p0]; exact Shake.part_len p (by omega) (by omega) _ _ _ _ _
  · rw [← p1]; exact Shake.part_len p (by omega) (by omega) _ _ _ _ _

theorem chacha_fits : Shake.Fits 136 [] chachaName := Or.inr (by decide +kernel)
theorem csx_fits : Shake.Fits 72 [] csxName := Or.inr (by decide +kernel)

/-- `Initialize` of the authenticated ChaChaP20. -/
theorem chachaAuthInit_ok (p : Perm P f) {key nonce info : List Byte} (hk : key.length = 32) (hn : nonce.length = 8) (hi : info = [] ∨ info.length = 16) :
    ∃ st s, chachaAuthInit P key nonce info = .ok (st, s) ∧ chachaInit (subKeys f 136 32 key chachaName).1 nonce info = .ok (st, pairOf 32 0) ∧
      Auth.Is (kmacChain P f 136 32) s (pairOf 32 0) (keyState f 136 (subKeys f 136 32 key chachaName).2 [] [], []) 0 := by
  obtain ⟨h1, h2, h3⟩ := deriveKeys_ok p (r := 136) (n := 32) (by omega) (by omega) (by omega) (by omega) (by omega) (by omega : 4 ≤ key.length) chacha_fits (by decide)
  obtain ⟨st, h4, _⟩ := C51_chacha20 h2 hn hi
  obtain ⟨m, h5, h6⟩ := kmac_init p (show Mode 136 32 by simp [Mode]) (subKeys f 136 32 key chachaName).2 (by omega) (by omega)
  generalize subKeys f 136 32 key chachaName = ks at *
  have hi' : ¬(0 < info.length ∧ info.length ≠ 16) := by
    rcases hi with h | h
    · rw [h]; simp
    · omega
  have hcopy := h4
  rw [chachaInit, if_neg (by omega), if_neg (by omega), if_neg hi'] at hcopy
  simp only [] at hcopy
  obtain ⟨cu, g1, hcopy⟩ := bind_ok hcopy
  obtain ⟨st', g2, hcopy⟩ := bind_ok hcopy
  cases hcopy
  refine ⟨st, ⟨pairOf 32 0, m, 0, List.replicate 32 0⟩, ?_, h4, rfl, h6, rfl, List.length_replicate⟩
  rw [chachaAuthInit, if_neg (by omega), if_neg (by omega), if_neg hi']
  simp only []
  rw [g1, ok_bind, h1, ok_bind, g2, ok_bind, h5, ok_bind]
  rfl

/-- `Initialize` of the authenticated CSX512. -/
theorem csxAuthInit_ok (p : Perm P f) {key nonce info : List Byte} (hk : key.length = 64) (hn : nonce.length = 16) :
    ∃ st c s, csxAuthInit P key nonce info = .ok (st, s) ∧ csxInit (subKeys f 72 64 key csxName).1 nonce info = .ok (st, c) ∧
      Auth.Is (kmacChain P f 72 64) s c (keyState f 72 (subKeys f 72 64 key csxName).2 [] [], []) 0 := by
  obtain ⟨h1, h2, h3⟩ := deriveKeys_ok p (r := 72) (n := 64) (by omega) (by omega) (by omega) (by omega) (by omega) (by omega : 4 ≤ key.length) csx_fits (by decide)
  obtain ⟨st, c, h4, _⟩ := C51_csx512 0 info h2 hn
  obtain ⟨m, h5, h6⟩ := kmac_init p (show Mode 72 64 by simp [Mode]) (subKeys f 72 64 key csxName).2 (by omega) (by omega)
  generalize subKeys f 72 64 key csxName = ks at *
  have hcopy := h4
  rw [csxInit, if_neg (by omega), if_neg (by omega)] at hcopy
  simp only [] at hcopy
  obtain ⟨cu, g1, g2⟩ := bind_ok hcopy
  refine ⟨st, c, ⟨c, m, 0, List.replicate 64 0⟩, ?_, h4, rfl, h6, rfl, List.length_replicate⟩
  rw [csxAuthInit, if_neg (by omega), if_neg (by omega)]
  simp only []
  rw [g1, ok_bind, h1, ok_bind, g2, ok_bind, h5, ok_bind]
  rfl

end Cex.SCipher
