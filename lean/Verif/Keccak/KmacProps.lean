import Verif.Keccak.KmacLemmas

/-!
# C30 KMAC

`Run P r tag s g`: the KMAC object `s` has come about by construction and any sequence of successful calls. `g = some (key, iv, info, m)`:
it was initialised with these and has received `m` since, in any split. `g = none` otherwise (in particular after `Finalize`).
-/

namespace Cex.Keccak
open Cex Cex.IntTools Stream Cex.Mac

variable {P : List Byte → M (List Byte)} {f : List Byte → List Byte} {r tag : Nat}

/-- The function name that enters the hash: `Info`, or "KMAC". -/
def nameOf (info : List Byte) : List Byte := if info = [] then Sp800185.kmacName else info

/-- The encoded customization length comes to lie inside the rate. With the default name this always holds (`fits_default`). -/
def Fits (r : Nat) (iv info : List Byte) : Prop := nameEnd r (nameOf info).length + (Sp800185.leftEncode (8 * iv.length)).length ≤ r

/-- What `Initialize` and `Update` were called with. -/
abbrev Args := List Byte × List Byte × List Byte × List Byte

namespace Kmac

inductive Run (P : List Byte → M (List Byte)) (r tag : Nat) : Kmac → Option Args → Prop
  | new : Run P r tag (fresh r tag) none
  | reset {s s' g} : Run P r tag s g → s.reset = .ok s' → Run P r tag s' none
  | init {s s' g key iv info} : Run P r tag s g → 8 * key.length < 2 ^ 64 → 8 * iv.length < 2 ^ 64 → 8 * info.length < 2 ^ 64 → Fits r iv info →
      s.initialize P key iv info = .ok s' → Run P r tag s' (some (key, iv, info, []))
  | initBad {s s' g key iv info} : Run P r tag s g → 8 * key.length < 2 ^ 64 → s.initialize P key iv info = .ok s' → Run P r tag s' none
  | update {s s' g} (x : Window) : Run P r tag s g → s.update P x.buf x.off x.len = .ok s' → Run P r tag s' (g.map fun a => (a.1, a.2.1, a.2.2.1, a.2.2.2 ++ x.bytes))
  | final {s s' g pre junk out'} : Run P r tag s g → (pre ++ junk).length < 2 ^ 61 → s.finalize P (pre ++ junk) pre.length = .ok (s', out') → Run P r tag s' none
  | finalSecure {s s' g pre junk out'} : Run P r tag s g → (pre ++ junk).length < 2 ^ 61 → s.finalizeSecure P (pre ++ junk) pre.length = .ok (s', out') → Run P r tag s' none
  | compute {s s' g inp out out'} : Run P r tag s g → inp.length < 2 ^ 64 → out.length < 2 ^ 61 → s.compute P inp out = .ok (s', out') → Run P r tag s' none

end Kmac

/-- The state after absorbing name, customization and key. -/
def keyState (f : List Byte → List Byte) (r : Nat) (key iv info : List Byte) : List Byte :=
  Fips202.absorb f r (Fips202.absorb f r (List.replicate 200 0) (Sp800185.bytepad (Sp800185.encodeString (nameOf info) ++ Sp800185.encodeString iv) r))
    (Sp800185.bytepad (Sp800185.encodeString key) r)

/-- The tag of `n` bytes that the code computes. -/
def codeTag (f : List Byte → List Byte) (r : Nat) (s0 m : List Byte) (n : Nat) : List Byte :=
  Fips202.squeeze f r (Fips202.block f (eager r (Fips202.block f) s0 m).1 (lastBlock r (eager r (Fips202.block f) s0 m).2 (Sp800185.rightEncode (8 * n)))) n

theorem absorb_len (p : Perm P f) (hr : r ≤ 200) {s m : List Byte} (h : s.length = 200) : (Fips202.absorb f r s m).length = 200 := eager_length p hr _ _ h

theorem keyState_len (p : Perm P f) (hr : r ≤ 200) (key iv info : List Byte) : (keyState f r key iv info).length = 200 :=
  absorb_len p hr (absorb_len p hr List.length_replicate)

theorem feed_len (p : Perm P f) : ∀ (x : List Byte) (q q' : Feed), feed P r x q = .ok q' → q.st.length = 200 → q'.st.length = 200
  | [], q, q', h, hq => by cases h; exact hq
  | b :: x, q, q', h, hq => by
    rw [feed] at h
    obtain ⟨q1, h1, h⟩ := bind_ok h
    obtain ⟨pd, h2, h⟩ := bind_ok h
    refine feed_len p x _ q' h ?_
    show q1.st.length = 200
    split at h1
    · obtain ⟨st, h3, h1⟩ := bind_ok h1
      cases h1
      obtain ⟨a, h4, h3⟩ := bind_ok h3
      have := xorInto_len h4
      rw [p.run _ (by omega)] at h3
      cases h3
      exact p.len _ (by omega)
    · cases h1; exact hq

theorem customize_len (p : Perm P f) {cust name st st' : List Byte} (h : customize P cust name r st = .ok st') (hs : st.length = 200) : st'.length = 200 := by
  rw [customize] at h
  obtain ⟨a, _, h⟩ := bind_ok h
  obtain ⟨b, _, h⟩ := bind_ok h
  obtain ⟨q, h1, h⟩ := bind_ok h
  obtain ⟨c, _, h⟩ := bind_ok h
  obtain ⟨q2, h2, h⟩ := bind_ok h
  have l1 := feed_len p _ _ _ h1 hs
  have l2 := feed_len p _ _ _ h2 l1
  rw [flush] at h
  obtain ⟨d, _, h⟩ := bind_ok h
  obtain ⟨e, h3, h⟩ := bind_ok h
  have := xorInto_len h3
  rw [p.run _ (by omega)] at h
  cases h
  exact p.len _ (by omega)

namespace Kmac

/-- The invariant. -/
structure Inv (f : List Byte → List Byte) (r tag : Nat) (s : Kmac) (g : Option Args) : Prop where
  rate : s.rate = r
  tg : s.tag = tag
  got : ∃ s0 m, s0.length = 200 ∧ s.toBuffered.Got f r 200 s0 m
  zero : s.init = false → s.st = List.replicate 200 0 ∧ s.pos = 0
  keyed : ∀ a, g = some a → s.init = true ∧ s.toBuffered.Got f r 200 (keyState f r a.1 a.2.1 a.2.2.1) a.2.2.2

theorem Inv.st (p : Perm P f) (hr : r ≤ 200) {s : Kmac} {g} (h : s.Inv f r tag g) : s.st.length = 200 := by
  obtain ⟨s0, m, h1, h2⟩ := h.got
  rw [h2.st]; exact eager_length p hr _ _ h1

theorem Inv.buf {s : Kmac} {g} (h : s.Inv f r tag g) : s.buf.length = 200 := by
  obtain ⟨s0, m, h1, h2⟩ := h.got
  exact h2.buf

theorem Inv.forget {s : Kmac} {g} (h : s.Inv f r tag g) : s.Inv f r tag none := ⟨h.rate, h.tg, h.got, h.zero, by intro a e; cases e⟩

theorem fresh_inv (h0 : 0 < r) : (fresh r tag).Inv f r tag none :=
  ⟨rfl, rfl, ⟨_, [], List.length_replicate, got_nil h0 List.length_replicate⟩, fun _ => ⟨rfl, rfl⟩, by intro a e; cases e⟩

theorem reset_inv (p : Perm P f) (h0 : 0 < r) (hr : r ≤ 200) {s : Kmac} {g} (h : s.Inv f r tag g) : ∃ s', s.reset = .ok s' ∧ s'.Inv f r tag none ∧ s'.init = false := by
  rw [reset, clear_all _ _ h.buf, ok_bind, clear_all _ _ (h.st p hr), ok_bind]
  exact ⟨_, rfl, ⟨h.rate, h.tg, ⟨_, [], List.length_replicate, got_nil h0 List.length_replicate⟩, fun _ => ⟨rfl, rfl⟩, by intro a e; cases e⟩, rfl⟩

/-- The object before `Customize`: cleared. -/
theorem start_inv (p : Perm P f) (h0 : 0 < r) (hr : r ≤ 200) {s : Kmac} {g} (h : s.Inv f r tag g) :
    ∃ s', (if s.init then s.reset else pure s : M Kmac) = .ok s' ∧ s'.Inv f r tag none ∧ s'.init = false := by
  by_cases hi : s.init = true
  · rw [if_pos hi]; exact reset_inv p h0 hr h
  · rw [if_neg hi]; exact ⟨s, rfl, h.forget, by simpa using hi⟩

theorem init_inv (p : Perm P f) (hr : r < 200) (h20 : 20 ≤ r) (h8 : r % 8 = 0) {s : Kmac} {g} (h : s.Inv f r tag g) {key iv info : List Byte}
    (hk : 16 ≤ key.length) (hv : iv.length = 0 ∨ 4 ≤ iv.length) (hkl : 8 * key.length < 2 ^ 64) (hvl : 8 * iv.length < 2 ^ 64) (hnl : 8 * info.length < 2 ^ 64) (hfit : Fits r iv info) :
    ∃ s', s.initialize P key iv info = .ok s' ∧ s'.Inv f r tag (some (key, iv, info, [])) := by
  obtain ⟨s1, h1, h2, h3⟩ := start_inv p (by omega) (Nat.le_of_lt hr) h
  have hn : (if info.length > 0 then info else kmacName) = nameOf info := by
    cases info with
    | nil => rfl
    | cons a b => rw [if_pos (by simp), nameOf, if_neg (by simp)]
  have hnl2 : 8 * (nameOf info).length < 2 ^ 64 := by
    rw [nameOf]; split
    · decide
    · exact hnl
  have hc := customize_eq p hr h20 h8 (s := List.replicate 200 0) List.length_replicate iv (nameOf info) hvl hnl2 hfit
  rw [«initialize», if_neg (by omega), if_neg (by omega), h1, ok_bind, hn, h2.rate, (h2.zero h3).1, hc, ok_bind,
    loadKey_eq p hr h20 h8 (absorb_len p (Nat.le_of_lt hr) List.length_replicate) key hkl, ok_bind]
  have hg : Buffered.Got f r 200 (keyState f r key iv info) ⟨keyState f r key iv info, s1.buf, s1.pos⟩ [] := by
    rw [(h2.zero h3).2]; exact got_nil (by omega) h2.buf
  refine ⟨_, rfl, rfl, h2.tg, ⟨_, [], keyState_len p (Nat.le_of_lt hr) key iv info, hg⟩, (fun e => by cases e), ?_⟩
  intro a e
  cases e
  exact ⟨rfl, hg⟩

theorem update_inv (p : Perm P f) (h0 : 0 < r) (hr : r ≤ 200) {s : Kmac} {g} (h : s.Inv f r tag g) (hi : s.init = true) (x : Window) :
    ∃ s', s.update P x.buf x.off x.len = .ok s' ∧ s'.Inv f r tag (g.map fun a => (a.1, a.2.1, a.2.2.1, a.2.2.2 ++ x.bytes)) := by
  have hle := x.le
  rw [update, if_neg (by rw [hi]; simp), subU_le (by omega) x.size, if_neg (by omega), h.rate]
  obtain ⟨s0, m, h1, h2⟩ := h.got
  obtain ⟨b, h3, h4⟩ := update_got p h0 hr hr h1 h2 x.holds
  rw [x.bytes_length] at h3
  rw [h3, ok_bind]
  refine ⟨_, rfl, rfl, h.tg, ⟨s0, _, h1, h4⟩, (fun e => by rw [show s.init = false from e] at hi; cases hi), ?_⟩
  intro a e
  cases g with
  | none => cases e
  | some c =>
    cases e
    obtain ⟨b2, h5, h6⟩ := update_got p h0 hr hr (keyState_len p hr c.1 c.2.1 c.2.2.1) (h.keyed c rfl).2 x.holds
    rw [x.bytes_length, h3] at h5
    cases h5
    exact ⟨hi, h6⟩

theorem final_inv (p : Perm P f) (h0 : 0 < r) (hr : r ≤ 168) {s : Kmac} {g} (h : s.Inv f r tag g) (hi : s.init = true) (pre junk : List Byte)
    (hsz : (pre ++ junk).length < 2 ^ 61) (ht : tag ≤ junk.length) :
    ∃ s' t, s.finalizeSecure P (pre ++ junk) pre.length = .ok (s', pre ++ t) ∧ s'.Inv f r tag none ∧ s'.init = true ∧ t.length = junk.length ∧
      ∀ a, g = some a → t = codeTag f r (keyState f r a.1 a.2.1 a.2.2.1) a.2.2.2 junk.length := by
  have hr2 : r ≤ 200 := by omega
  have hs := h.st p hr2
  have hjl : junk.length < 2 ^ 61 := by rw [List.length_append] at hsz; omega
  have hpos : s.pos < r := by obtain ⟨s0, m, h1, h2⟩ := h.got; rw [h2.pos]; exact eager_rest_lt h0 _ _
  have hsub : subU (pre ++ junk).length pre.length = junk.length := by
    rw [subU_le (by simp) (by omega), List.length_append]; omega
  obtain ⟨b, h1, h2, h3⟩ := lastBuf_eq (s := s) (n := junk.length) h.buf (by rw [h.rate]; exact h0) (by rw [h.rate]; exact hpos) (by rw [h.rate]; exact hr) (by omega)
  rw [h.rate] at h3
  have hl := lastBlock_len h0 (s.buf.take s.pos) (Sp800185.rightEncode (8 * junk.length))
  have hx := xorBytes_state hs (b := lastBlock r (s.buf.take s.pos) (Sp800185.rightEncode (8 * junk.length))) (by omega)
  have hfa := fastAbsorb_eq h3 hl.symm hs (by omega)
  generalize hX : xorBytes s.st (lastBlock r (s.buf.take s.pos) (Sp800185.rightEncode (8 * junk.length)) ++ List.replicate
    (200 - (lastBlock r (s.buf.take s.pos) (Sp800185.rightEncode (8 * junk.length))).length) 0) = X at hx hfa
  have he := expand_eq p h0 hr2 junk.length X pre junk [] hx rfl
  rw [List.append_nil, List.append_nil] at he
  have heq : s.finalizeSecure P (pre ++ junk) pre.length =
      .ok (⟨⟨Nat.repeat f (blocks r junk.length) X, List.replicate 200 0, 0⟩, r, s.tag, s.init⟩, pre ++ Fips202.squeeze f r (f X) junk.length) := by
    rw [finalizeSecure, if_neg (by rw [hi]; simp), hsub, if_neg (by rw [h.tg]; omega)]
    simp only []
    rw [h1, ok_bind, h.rate, hfa, ok_bind, he, ok_bind, clear_all _ _ h2, ok_bind]
    rfl
  refine ⟨_, _, heq, ⟨rfl, h.tg, ⟨_, [], repeat_len p _ hx, got_nil h0 List.length_replicate⟩, (fun e => by rw [show s.init = false from e] at hi; cases hi),
    by intro a e; cases e⟩, hi, squeeze_length p h0 hr2 _ _ (p.len _ hx), ?_⟩
  intro a e
  have k := (h.keyed a e).2
  rw [codeTag, ← k.st, ← k.rest, Fips202.block, hX]

theorem finalVec_inv (p : Perm P f) (h0 : 0 < r) (hr : r ≤ 168) {s : Kmac} {g} (h : s.Inv f r tag g) (hi : s.init = true) (pre junk : List Byte)
    (hsz : (pre ++ junk).length < 2 ^ 61) (ht : tag ≤ junk.length) :
    ∃ s' t, s.finalize P (pre ++ junk) pre.length = .ok (s', pre ++ t) ∧ s'.Inv f r tag none ∧ s'.init = true ∧ t.length = junk.length ∧
      ∀ a, g = some a → t = codeTag f r (keyState f r a.1 a.2.1 a.2.2.1) a.2.2.2 junk.length := by
  have hsub : subU (pre ++ junk).length pre.length = junk.length := by
    rw [subU_le (by simp) (by omega), List.length_append]; omega
  have hjl : junk.length < 2 ^ 61 := by rw [List.length_append] at hsz; omega
  obtain ⟨s', t, h1, h2, h3, h4, h5⟩ := final_inv p h0 hr h hi [] (List.replicate junk.length 0) (by simpa using hjl) (by simpa using ht)
  rw [List.length_replicate] at h4 h5
  rw [List.nil_append, List.nil_append, List.length_nil] at h1
  have hc : copy t 0 (pre ++ junk) pre.length t.length = .ok (pre ++ t) := by
    have := copy_at (a := pre) (b := junk) (c := []) (Holds.self t) rfl rfl h4.symm
    simpa using this
  refine ⟨s', t, ?_, h2, h3, h4, h5⟩
  rw [finalize, hsub, h1, ok_bind]
  simp only []
  rw [hc, ok_bind]
  rfl

theorem compute_inv (p : Perm P f) (h0 : 0 < r) (hr : r ≤ 168) {s : Kmac} {g} (h : s.Inv f r tag g) (hi : s.init = true) (inp out : List Byte) (hin : inp.length < 2 ^ 64)
    (hsz : out.length < 2 ^ 61) (ht : tag ≤ out.length) :
    ∃ s' t, s.compute P inp out = .ok (s', t) ∧ s'.Inv f r tag none ∧ s'.init = true ∧ t.length = out.length ∧
      ∀ a, g = some a → t = codeTag f r (keyState f r a.1 a.2.1 a.2.2.1) (a.2.2.2 ++ inp) out.length := by
  obtain ⟨s1, h1, h2⟩ := update_inv p h0 (by omega) h hi (Window.whole inp hin)
  rw [Window.whole_bytes] at h2
  have hi1 : s1.init = true := by
    rw [update] at h1
    rw [if_neg (by rw [hi]; simp)] at h1
    split at h1
    · cases h1
    · obtain ⟨b, _, h1⟩ := bind_ok h1
      cases h1; exact hi
  obtain ⟨s2, t, h3, h4, h5, h6, h7⟩ := finalVec_inv p h0 hr h2 hi1 [] out (by simpa using hsz) ht
  refine ⟨s2, t, ?_, h4, h5, h6, ?_⟩
  · rw [compute, if_neg (by rw [hi]; simp), if_neg (by rw [h.tg]; omega)]
    have : s.update P inp 0 inp.length = .ok s1 := h1
    rw [this, ok_bind]
    exact h3
  · rintro a rfl
    exact h7 _ rfl

theorem update_init {s s' : Kmac} {inp : List Byte} {io len : Nat} (h : s.update P inp io len = .ok s') : s.init = true := by
  cases hi : s.init with
  | true => rfl
  | false => rw [update, if_pos hi] at h; cases h

theorem Run.inv (p : Perm P f) (hr : r ≤ 168) (h20 : 20 ≤ r) (h8 : r % 8 = 0) {s : Kmac} {g} (h : Run P r tag s g) : s.Inv f r tag g := by
  have h0 : 0 < r := by omega
  have hr2 : r ≤ 200 := by omega
  induction h with
  | new => exact fresh_inv h0
  | reset _ e ih =>
    obtain ⟨s1, h1, h2, _⟩ := reset_inv p h0 hr2 ih
    rw [e] at h1; cases h1; exact h2
  | @init s s' g key iv info _ hk hv hn hf e ih =>
    have hk16 : 16 ≤ key.length := by
      rcases Nat.lt_or_ge key.length 16 with hlt | hge
      · rw [«initialize», if_pos hlt] at e; cases e
      · exact hge
    have hv4 : iv.length = 0 ∨ 4 ≤ iv.length := by
      by_cases hc : iv.length ≠ 0 ∧ iv.length < 4
      · rw [«initialize», if_neg (by omega), if_pos hc] at e; cases e
      · omega
    obtain ⟨s1, h1, h2⟩ := init_inv p (by omega) h20 h8 ih hk16 hv4 hk hv hn hf
    rw [e] at h1; cases h1; exact h2
  | @initBad s s' g key iv info _ hk e ih =>
    obtain ⟨s1, h1, h2, h3⟩ := start_inv p h0 hr2 ih
    rw [«initialize»] at e
    split at e
    · cases e
    split at e
    · cases e
    rw [h1, ok_bind] at e
    obtain ⟨st, h4, e⟩ := bind_ok e
    have hl := customize_len p h4 (h2.st p hr2)
    rw [h2.rate, loadKey_eq p (by omega) h20 h8 hl key hk, ok_bind] at e
    cases e
    have hl2 : (Fips202.absorb f r st (Sp800185.bytepad (Sp800185.encodeString key) r)).length = 200 := absorb_len p hr2 hl
    refine ⟨rfl, h2.tg, ⟨_, [], hl2, ?_⟩, (fun e => by cases e), by intro a e; cases e⟩
    have := got_nil (f := f) h0 (s0 := Fips202.absorb f r st (Sp800185.bytepad (Sp800185.encodeString key) r)) h2.buf
    show Buffered.Got f r 200 _ ⟨_, s1.buf, s1.pos⟩ []
    rw [(h2.zero h3).2]; exact this
  | update x _ e ih =>
    obtain ⟨s1, h1, h2⟩ := update_inv p h0 hr2 ih (update_init e) x
    rw [e] at h1; cases h1; exact h2
  | @final s s' g pre junk out' _ hs e ih =>
    have hjl : junk.length < 2 ^ 61 := by rw [List.length_append] at hs; omega
    have hsub : subU (pre ++ junk).length pre.length = junk.length := by rw [subU_le (by simp) (by omega), List.length_append]; omega
    have hsub2 : subU (List.replicate junk.length (0 : Byte)).length 0 = junk.length := by rw [List.length_replicate, subU_le (by omega) (by omega)]; rfl
    have hi : s.init = true := by
      cases hi : s.init with
      | true => rfl
      | false => rw [finalize, finalizeSecure, if_pos hi] at e; cases e
    have ht : tag ≤ junk.length := by
      rcases Nat.lt_or_ge junk.length tag with hlt | hge
      · rw [finalize, finalizeSecure, if_neg (by rw [hi]; simp), hsub, hsub2, if_pos (by rw [ih.tg]; omega)] at e; cases e
      · exact hge
    obtain ⟨s1, t, h1, h2, _⟩ := finalVec_inv p h0 hr ih hi pre junk hs ht
    rw [e] at h1; cases h1; exact h2
  | @finalSecure s s' g pre junk out' _ hs e ih =>
    have hsub : subU (pre ++ junk).length pre.length = junk.length := by rw [subU_le (by simp) (by omega), List.length_append]; omega
    have hi : s.init = true := by
      cases hi : s.init with
      | true => rfl
      | false => rw [finalizeSecure, if_pos hi] at e; cases e
    have ht : tag ≤ junk.length := by
      rcases Nat.lt_or_ge junk.length tag with hlt | hge
      · rw [finalizeSecure, if_neg (by rw [hi]; simp), hsub, if_pos (by rw [ih.tg]; omega)] at e; cases e
      · exact hge
    obtain ⟨s1, t, h1, h2, _⟩ := final_inv p h0 hr ih hi pre junk hs ht
    rw [e] at h1; cases h1; exact h2
  | @compute s s' g inp out out' _ hin hs e ih =>
    have hi : s.init = true := by
      cases hi : s.init with
      | true => rfl
      | false => rw [Kmac.compute, if_pos hi] at e; cases e
    have ht : tag ≤ out.length := by
      rcases Nat.lt_or_ge out.length tag with hlt | hge
      · rw [Kmac.compute, if_neg (by rw [hi]; simp), if_pos (by rw [ih.tg]; omega)] at e; cases e
      · exact hge
    obtain ⟨s1, t, h1, h2, _⟩ := compute_inv p h0 hr ih hi inp out hin hs ht
    rw [e] at h1; cases h1; exact h2

end Kmac

theorem absorb_append (h0 : 0 < r) (s a b : List Byte) (ha : a.length % r = 0) : Fips202.absorb f r s (a ++ b) = Fips202.absorb f r (Fips202.absorb f r s a) b := by
  have : (eager r (Fips202.block f) s a).2 = [] := List.eq_nil_of_length_eq_zero ((eager_rest_mod h0 s a).trans ha)
  rw [Fips202.absorb, eager_append, this]; rfl

theorem bytepad_mod (h0 : 0 < r) (x : List Byte) : (Sp800185.bytepad x r).length % r = 0 := by
  rw [Sp800185.bytepad, List.length_append, Sp800185.fill, List.length_replicate]
  generalize (Sp800185.leftEncode r ++ x).length = n
  have h1 := Nat.mod_lt n h0
  by_cases hz : n % r = 0
  · rw [hz, Nat.sub_zero, Nat.mod_self, Nat.add_zero, hz]
  · rw [Nat.mod_eq_of_lt (show r - n % r < r by omega)]
    have := Nat.div_add_mod n r
    rw [show n + (r - n % r) = r * (n / r) + r from by omega, Nat.add_mod_right, Nat.mul_mod_right]

/-- The code's tag is the KMAC of SP 800-185 when the encoded output length and one more byte fit behind the buffered bytes. -/
theorem codeTag_spec (h0 : 0 < r) (key iv info m : List Byte) (n : Nat) (h : m.length % r + (Sp800185.rightEncode (8 * n)).length < r) :
    codeTag f r (keyState f r key iv info) m n = Sp800185.cshake f r (Sp800185.kmacText r key m n) n (nameOf info) iv := by
  have hn : nameOf info ≠ [] := by rw [nameOf]; split <;> simp_all [Sp800185.kmacName]
  rw [Sp800185.cshake, if_neg (fun e => hn e.1), Fips202.sponge, Sp800185.kmacText, codeTag]
  congr 1
  generalize hB1 : Sp800185.bytepad (Sp800185.encodeString (nameOf info) ++ Sp800185.encodeString iv) r = B1
  generalize hB2 : Sp800185.bytepad (Sp800185.encodeString key) r = B2
  generalize hre : Sp800185.rightEncode (8 * n) = re at h
  have h1 : B1.length % r = 0 := by rw [← hB1]; exact bytepad_mod h0 _
  have h2 : B2.length % r = 0 := by rw [← hB2]; exact bytepad_mod h0 _
  have hlm : (B1 ++ (B2 ++ m ++ re)).length % r = m.length % r + re.length := by
    simp only [List.length_append]
    rw [Nat.add_mod, h1, Nat.zero_add, Nat.mod_mod, Nat.add_assoc, Nat.add_mod, h2, Nat.zero_add, Nat.mod_mod, Nat.add_mod, ← Nat.add_mod,
      ← Nat.mod_add_mod, Nat.mod_eq_of_lt h]
  have hrest := eager_rest_mod (step := Fips202.block f) h0 (keyState f r key iv info) m
  rw [lastBlock_fit (l := (B1 ++ (B2 ++ m ++ re)).length) h0 _ _ (by rw [hrest]; exact h) (by rw [hrest]; exact hlm)]
  generalize hpad : Fips202.pad r 0x04 (B1 ++ (B2 ++ m ++ re)).length = pd
  have hpl : pd.length = r - (m.length % r + re.length) := by rw [← hpad, pad_length h0, hlm]
  rw [show B1 ++ (B2 ++ m ++ re) ++ pd = B1 ++ (B2 ++ (m ++ (re ++ pd))) from by simp, absorb_append h0 _ _ _ h1, absorb_append h0 _ _ _ h2]
  rw [show Fips202.absorb f r (Fips202.absorb f r (List.replicate 200 0) B1) B2 = keyState f r key iv info from by rw [keyState, hB1, hB2]]
  have hb : ((eager r (Fips202.block f) (keyState f r key iv info) m).2 ++ (re ++ pd)).length = r := by simp only [List.length_append, hrest, hpl]; omega
  rw [Fips202.absorb, eager_append, eager_one (b := (eager r (Fips202.block f) (keyState f r key iv info) m).2 ++ (re ++ pd)) h0 hb, List.append_assoc]

/-- With the default name every customization fits. -/
theorem fits_default (h20 : 20 ≤ r) (hr : r ≤ 168) (iv : List Byte) (hv : 8 * iv.length < 2 ^ 64) : Fits r iv [] := by
  have h1 : Sp800185.byteLen r = 1 := by rw [Sp800185.byteLen, if_pos (by omega)]
  have h2 : Sp800185.byteLen (8 * iv.length) ≤ 8 := byteLen_le (by omega) (by decide)
  have h3 : Sp800185.byteLen (8 * 4) = 1 := by decide +kernel
  have h4 : nameEnd r 4 = 8 := by
    rw [nameEnd, leftEncode_length, leftEncode_length, h1, h3, Nat.mod_eq_of_lt (by omega)]
  rw [Fits, show (nameOf []).length = 4 from rfl, h4, leftEncode_length]
  omega

/-! ## The property -/

/-- The three modes: rate and tag size of KMAC128, KMAC256 and KMAC512. -/
def Mode (r tag : Nat) : Prop := (r, tag) ∈ [(168, 16), (136, 32), (72, 64)]

theorem Mode.facts (h : Mode r tag) : 20 ≤ r ∧ r ≤ 168 ∧ r % 8 = 0 ∧ tag + 8 ≤ r := by
  simp only [Mode, List.mem_cons, Prod.mk.injEq, List.not_mem_nil, or_false] at h
  rcases h with ⟨rfl, rfl⟩ | ⟨rfl, rfl⟩ | ⟨rfl, rfl⟩ <;> decide

/-- `Initialize` with an admissible key and customization and the default name succeeds in every state. -/
theorem C30_initialize (p : Perm P f) (hm : Mode r tag) (s : Kmac) (g) (h : Kmac.Run P r tag s g) (key iv : List Byte) (hk : 16 ≤ key.length)
    (hv : iv.length = 0 ∨ 4 ≤ iv.length) (hkl : key.length < 2 ^ 61) (hvl : iv.length < 2 ^ 61) :
    ∃ s', s.initialize P key iv [] = .ok s' ∧ Kmac.Run P r tag s' (some (key, iv, [], [])) := by
  obtain ⟨h20, hr, h8, _⟩ := hm.facts
  have hf := fits_default h20 hr iv (by omega)
  obtain ⟨s', h1, _⟩ := Kmac.init_inv p (by omega) h20 h8 (h.inv p hr h20 h8) hk hv (by omega) (by omega) (by decide : 8 * ([] : List Byte).length < 2 ^ 64) hf
  exact ⟨s', h1, .init h (by omega) (by omega) (by decide) hf h1⟩

/-- For every message, key and output length, both `Finalize` overloads stay inside their buffers and fill the output from the offset on; the tag is a function of key,
customization, name, message and output length. -/
theorem C30_total (p : Perm P f) (hm : Mode r tag) (s : Kmac) (key iv info m : List Byte) (h : Kmac.Run P r tag s (some (key, iv, info, m))) (pre junk : List Byte)
    (hj : tag ≤ junk.length) (hsz : (pre ++ junk).length < 2 ^ 61) :
    (∀ x : Window, ∃ s', s.update P x.buf x.off x.len = .ok s') ∧
    (∃ s', s.finalize P (pre ++ junk) pre.length = .ok (s', pre ++ codeTag f r (keyState f r key iv info) m junk.length)) ∧
    (∃ s', s.finalizeSecure P (pre ++ junk) pre.length = .ok (s', pre ++ codeTag f r (keyState f r key iv info) m junk.length)) := by
  obtain ⟨h20, hr, h8, _⟩ := hm.facts
  have i := h.inv p hr h20 h8
  have hi := (i.keyed _ rfl).1
  refine ⟨fun x => ?_, ?_, ?_⟩
  · obtain ⟨s', h1, _⟩ := Kmac.update_inv p (by omega) (by omega) i hi x
    exact ⟨s', h1⟩
  · obtain ⟨s', t, h1, _, _, _, h2⟩ := Kmac.finalVec_inv p (by omega) hr i hi pre junk hsz hj
    rw [h2 _ rfl] at h1
    exact ⟨s', h1⟩
  · obtain ⟨s', t, h1, _, _, _, h2⟩ := Kmac.final_inv p (by omega) hr i hi pre junk hsz hj
    rw [h2 _ rfl] at h1
    exact ⟨s', h1⟩

/-- C30 where it holds: if the message, cut at the rate, leaves room for the encoded output length and one byte, the tag is KMAC of SP 800-185. (The full statement, for every
message length, is false: `C30_collision`, `C30_lengths`.) -/
theorem C30_kmac_partial (p : Perm P f) (hm : Mode r tag) (s : Kmac) (key iv m : List Byte) (h : Kmac.Run P r tag s (some (key, iv, [], m))) (pre junk : List Byte)
    (hj : tag ≤ junk.length) (hsz : (pre ++ junk).length < 2 ^ 61) (hroom : m.length % r + (Sp800185.rightEncode (8 * junk.length)).length < r) :
    (∃ s', s.finalize P (pre ++ junk) pre.length = .ok (s', pre ++ Sp800185.kmac f r key m junk.length iv)) ∧
    (∃ s', s.finalizeSecure P (pre ++ junk) pre.length = .ok (s', pre ++ Sp800185.kmac f r key m junk.length iv)) := by
  have := (C30_total p hm s key iv [] m h pre junk hj hsz).2
  rw [codeTag_spec (by have := hm.facts; omega) key iv [] m _ hroom] at this
  exact this

/-- The same with a function name given by the user (`Info`), as long as name and customization fit: cSHAKE with that name. -/
theorem C30_named_partial (p : Perm P f) (hm : Mode r tag) (s : Kmac) (key iv info m : List Byte) (h : Kmac.Run P r tag s (some (key, iv, info, m))) (pre junk : List Byte)
    (hj : tag ≤ junk.length) (hsz : (pre ++ junk).length < 2 ^ 61) (hroom : m.length % r + (Sp800185.rightEncode (8 * junk.length)).length < r) :
    ∃ s', s.finalize P (pre ++ junk) pre.length = .ok (s', pre ++ Sp800185.cshake f r (Sp800185.kmacText r key m junk.length) junk.length (nameOf info) iv) := by
  have := (C30_total p hm s key iv info m h pre junk hj hsz).2.1
  rw [codeTag_spec (by have := hm.facts; omega) key iv info m _ hroom] at this
  exact this

/-- For outputs below 32 bytes it is enough that the message leaves 3 bytes, for outputs below 8192 bytes 4 bytes. -/
theorem C30_room {n : Nat} (hn : n < 8192) (m : List Byte) (h : m.length % r + 3 < r) : m.length % r + (Sp800185.rightEncode (8 * n)).length < r := by
  have := byteLen_le (x := 8 * n) (k := 2) (by omega) (by decide)
  rw [rightEncode_length]; omega

theorem eager_tail (h0 : 0 < r) (s0 m x : List Byte) (h : m.length % r + x.length < r) :
    eager r (Fips202.block f) s0 (m ++ x) = ((eager r (Fips202.block f) s0 m).1, (eager r (Fips202.block f) s0 m).2 ++ x) := by
  rw [eager_append, eager_short (by rw [List.length_append, eager_rest_mod h0]; exact h)]

/-- C30 is false. KMAC512, 64 byte tags: for every key, customization and message `m` of length 69 modulo 72, `m` and `m ‖ 02 00` have the same tag. -/
theorem C30_collision (p : Perm P f) (s t : Kmac) (key iv info m : List Byte) (hm : m.length % 72 = 69)
    (hs : Kmac.Run P 72 64 s (some (key, iv, info, m))) (ht : Kmac.Run P 72 64 t (some (key, iv, info, m ++ [2, 0]))) (out : List Byte) (ho : out.length = 64) :
    ∃ s' t' d, s.finalize P out 0 = .ok (s', d) ∧ t.finalize P out 0 = .ok (t', d) := by
  have hmode : Mode 72 64 := by simp [Mode]
  obtain ⟨s', h1⟩ := (C30_total p hmode s key iv info m hs [] out (by omega) (by simp [ho])).2.1
  obtain ⟨t', h2⟩ := (C30_total p hmode t key iv info _ ht [] out (by omega) (by simp [ho])).2.1
  have e : codeTag f 72 (keyState f 72 key iv info) (m ++ [2, 0]) 64 = codeTag f 72 (keyState f 72 key iv info) m 64 := by
    rw [codeTag, codeTag, eager_tail (by decide) _ _ _ (by simp; omega)]
    have hl := eager_rest_mod (step := Fips202.block f) (B := 72) (by decide) (keyState f 72 key iv info) m
    generalize (eager 72 (Fips202.block f) (keyState f 72 key iv info) m).2 = rest at *
    have hre : Sp800185.rightEncode (8 * 64) = [2, 0, 2] := by decide +kernel
    have hlb : lastBlock 72 (rest ++ [2, 0]) [2, 0, 2] = lastBlock 72 rest [2, 0, 2] := by
      obtain ⟨v, hv⟩ : ∃ v : List Byte, List.replicate 72 (0 : Byte) = v := ⟨_, rfl⟩
      simp only [lastBlock, List.append_assoc, hv]
      rw [List.take_append, List.take_append (l₁ := rest), List.drop_append, List.drop_append (l₁ := rest), List.drop_of_length_le (show rest.length ≤ _ - 1 by omega), hl, hm]
      rfl
    rw [hre, hlb]
  rw [List.nil_append] at h1 h2
  rw [ho] at h1 h2
  rw [e] at h2
  exact ⟨s', t', _, h1, h2⟩

/-- C30 is false. KMAC256: for messages of length 135 modulo 136, the 32-byte tag is the start of the 33-byte tag: the output length is not separated. -/
theorem C30_lengths (p : Perm P f) (s : Kmac) (key iv info m : List Byte) (hm : m.length % 136 = 135) (hs : Kmac.Run P 136 32 s (some (key, iv, info, m)))
    (out out2 : List Byte) (ho : out.length = 32) (ho2 : out2.length = 33) :
    ∃ s' s'' d x, s.finalize P out 0 = .ok (s', d) ∧ s.finalize P out2 0 = .ok (s'', d ++ [x]) := by
  have hmode : Mode 136 32 := by simp [Mode]
  obtain ⟨s', h1⟩ := (C30_total p hmode s key iv info m hs [] out (by omega) (by simp [ho])).2.1
  obtain ⟨s'', h2⟩ := (C30_total p hmode s key iv info m hs [] out2 (by omega) (by simp [ho2])).2.1
  have hks := keyState_len p (r := 136) (by decide) key iv info
  have hl := eager_rest_mod (step := Fips202.block f) (B := 136) (by decide) (keyState f 136 key iv info) m
  have hst := eager_length p (r := 136) (by decide) (keyState f 136 key iv info) m hks
  rw [List.nil_append, ho] at h1
  rw [List.nil_append, ho2] at h2
  have hre : Sp800185.rightEncode (8 * 32) = [1, 0, 2] := by decide +kernel
  have hre2 : Sp800185.rightEncode (8 * 33) = [1, 8, 2] := by decide +kernel
  rw [codeTag, squeeze_lt (by decide), hre] at h1
  rw [codeTag, squeeze_lt (by decide), hre2] at h2
  generalize (eager 136 (Fips202.block f) (keyState f 136 key iv info) m).2 = rest at *
  generalize (eager 136 (Fips202.block f) (keyState f 136 key iv info) m).1 = st at *
  have hlb : lastBlock 136 rest [1, 8, 2] = lastBlock 136 rest [1, 0, 2] := by
    obtain ⟨v, hv⟩ : ∃ v : List Byte, List.replicate 136 (0 : Byte) = v := ⟨_, rfl⟩
    simp only [lastBlock, List.append_assoc, hv]
    rw [List.take_append, List.take_append (l₁ := rest), List.drop_append, List.drop_append (l₁ := rest), List.drop_of_length_le (show rest.length ≤ _ - 1 by omega), hl, hm]
    rfl
  rw [hlb] at h2
  have hb := block_length p hst (b := lastBlock 136 rest [1, 0, 2]) (by rw [lastBlock_len (by decide)]; decide)
  rw [List.take_succ_eq_append_getElem (by rw [hb]; decide)] at h2
  exact ⟨s', s'', _, _, h1, h2⟩

end Cex.Keccak
