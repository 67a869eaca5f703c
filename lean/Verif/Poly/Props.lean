import Verif.Poly.Lemmas
import Verif.Mac.Interface

/-!
# C31 Poly1305

`Run s g`: the object `s` has come about by construction and any sequence of successful calls. `g = some (key, m)`: it was initialised with `key` and has received
`m` since, in any split, without a finalizer call. `g = none` otherwise.
-/

namespace Cex.Poly
open Cex Cex.IntTools Cex.Rfc8439 Stream Cex.Mac Cex.Keccak

namespace Poly1305

inductive Run : Poly1305 → Option (List Byte × List Byte) → Prop
  | new (st) : Run (fresh st) none
  | reset {s s' g} : Run s g → s.reset = .ok s' → Run s' none
  | init {s s' g key} : Run s g → s.initialize key = .ok s' → Run s' (some (key, []))
  | update {s s' g} (w : Window) : Run s g → s.update w.buf w.off w.len = .ok s' → Run s' (g.map fun a => (a.1, a.2 ++ w.bytes))
  | final {s s' g pre junk post out'} : Run s g → junk.length = 16 → (pre ++ junk ++ post).length < 2 ^ 64 →
      s.finalize (pre ++ junk ++ post) pre.length = .ok (s', out') → Run s' none
  | finalSecure {s s' g pre junk post out'} : Run s g → junk.length = 16 → (pre ++ junk ++ post).length < 2 ^ 64 →
      s.finalizeSecure (pre ++ junk ++ post) pre.length = .ok (s', out') → Run s' none
  | compute {s s' g inp out out'} : Run s g → inp.length < 2 ^ 64 → out.length < 2 ^ 64 → s.compute inp out = .ok (s', out') → Run s' none

/-- The invariant. -/
structure Inv (s : Poly1305) (g : Option (List Byte × List Byte)) : Prop where
  buf : s.buf.length = 16
  pos : s.pos < 16
  zero : s.init = false → s.pos = 0
  keyed : ∀ k m, g = some (k, m) → s.init = true ∧ s.r.Clamped ∧ s.r.val = clampR k ∧ s.p0.toNat + 2 ^ 64 * s.p1.toNat = padS k ∧ s.Got ⟨0, 0, 0⟩ m

theorem Inv.forget {s : Poly1305} {g} (h : s.Inv g) : s.Inv none := ⟨h.buf, h.pos, h.zero, by intro k m e; cases e⟩

theorem fresh_inv (st) : (fresh st).Inv none := ⟨List.length_replicate, show 0 < 16 by decide, fun _ => rfl, by intro k m e; cases e⟩

theorem reset_inv {s : Poly1305} {g} (h : s.Inv g) : ∃ s', s.reset = .ok s' ∧ s'.Inv none ∧ s'.init = false := by
  rw [reset, clear_all _ _ h.buf, ok_bind]
  exact ⟨_, rfl, ⟨List.length_replicate, by simp, fun _ => rfl, by intro k m e; cases e⟩, rfl⟩

theorem small_zero : Limbs.Small ⟨0, 0, 0⟩ := by unfold Limbs.Small; decide

theorem init_inv {s : Poly1305} {g} (h : s.Inv g) {key : List Byte} (hk : 32 ≤ key.length) : ∃ s', s.initialize key = .ok s' ∧ s'.Inv (some (key, [])) := by
  have hs : ∃ s1, (if s.init then s.reset else pure s : M Poly1305) = .ok s1 ∧ s1.Inv none ∧ s1.init = false := by
    by_cases hi : s.init = true
    · rw [if_pos hi]; exact reset_inv h
    · rw [if_neg hi]; exact ⟨s, rfl, h.forget, by simpa using hi⟩
  obtain ⟨s1, h1, h2, h3⟩ := hs
  have hA : Holds key 0 (key.take 16) := (Holds.self key).takeN 16
  have hB : Holds key 16 ((key.drop 16).take 16) := by
    have := ((Holds.self key).dropN (n := 16) (by omega)).takeN 16
    rwa [Nat.zero_add] at this
  have lA : (key.take 16).length = 16 := by rw [List.length_take]; omega
  have lB : ((key.drop 16).take 16).length = 16 := by rw [List.length_take, List.length_drop]; omega
  obtain ⟨a1, a2⟩ := read_words hA lA
  obtain ⟨b1, b2⟩ := read_words hB lB
  have vA := words_val lA
  have vB := words_val lB
  rw [Nat.zero_add] at a2
  rw [«initialize», if_neg (by omega), a1, ok_bind, a2, ok_bind, h1, ok_bind, b1, ok_bind, b2, ok_bind]
  obtain ⟨c1, c2⟩ := clampLimbs_val (leUnrep 64 ((key.take 16).take 8)) (leUnrep 64 (((key.take 16).drop 8).take 8))
  refine ⟨_, rfl, ⟨h2.buf, h2.pos, (fun e => by cases e), ?_⟩⟩
  intro k m e
  cases e
  refine ⟨rfl, c1, ?_, vB, ?_⟩
  · rw [vA] at c2; exact c2
  · exact got_nil h2.buf (h2.zero h3)

theorem update_inv {s : Poly1305} {g} (h : s.Inv g) (hi : s.init = true) (w : Window) :
    ∃ s', s.update w.buf w.off w.len = .ok s' ∧ s'.Inv (g.map fun a => (a.1, a.2 ++ w.bytes)) ∧ s'.init = true := by
  obtain ⟨s1, h1, h2, e1, e2, e3, e4⟩ := update_got (got_shape h.buf h.pos) hi w
  refine ⟨s1, h1, ⟨h2.buf, h2.pos_lt, (fun e => by rw [e] at e4; cases e4), ?_⟩, e4⟩
  intro k m e
  cases g with
  | none => cases e
  | some c =>
    cases e
    obtain ⟨k1, k2, k3, k4, k5⟩ := h.keyed c.1 c.2 rfl
    obtain ⟨s2, h3, h4, _⟩ := update_got k5 hi w
    rw [h1] at h3
    cases h3
    exact ⟨e4, e1 ▸ k2, e1 ▸ k3, by rw [e2, e3]; exact k4, h4⟩

theorem final_inv {s : Poly1305} {g} (h : s.Inv g) (hi : s.init = true) {pre junk post : List Byte} (hj : junk.length = 16) (hsz : (pre ++ junk ++ post).length < 2 ^ 64) :
    ∃ s' t, s.finalize (pre ++ junk ++ post) pre.length = .ok (s', pre ++ t ++ post) ∧ s'.Inv none ∧ t.length = 16 ∧ ∀ k m, g = some (k, m) → t = poly1305 k m := by
  have hsub : subU (pre ++ junk ++ post).length pre.length = 16 + post.length := by
    rw [subU_le (by simp) hsz]; simp only [List.length_append]; omega
  obtain ⟨s1, h1, e1, e2, e3, e4, e5, e6, _⟩ := last_got (got_shape h.buf h.pos)
  rw [finalize, if_neg (by rw [hi]; simp), hsub, if_neg (by omega), h1, ok_bind]
  have hw := write_words (pre := pre) (post := post) hj (finPad s1.p0 s1.p1 (finSelect (finCarry s1.h))).1 (finPad s1.p0 s1.p1 (finSelect (finCarry s1.h))).2
  obtain ⟨o, w1, w2⟩ := bind_ok hw
  simp only []
  rw [w1, ok_bind, w2, ok_bind]
  refine ⟨s1, _, rfl, ⟨e5, by rw [e6]; exact h.pos, (fun e => by rw [e4, hi] at e; cases e), by intro k m e; cases e⟩,
    by rw [List.length_append, leRep_length, leRep_length], ?_⟩
  intro k m e
  obtain ⟨k1, k2, k3, k4, k5⟩ := h.keyed k m e
  obtain ⟨s2, h2, _, _, _, _, _, _, h3⟩ := last_got k5
  rw [h1] at h2
  cases h2
  obtain ⟨q1, q2⟩ := h3 k2 small_zero
  rw [finish_val q1, q2, e2, e3, k4, k3, poly1305]
  rfl

theorem finalSecure_inv {s : Poly1305} {g} (h : s.Inv g) (hi : s.init = true) {pre junk post : List Byte} (hj : junk.length = 16) :
    ∃ s' t, s.finalizeSecure (pre ++ junk ++ post) pre.length = .ok (s', pre ++ t ++ post) ∧ s'.Inv none ∧ t.length = 16 ∧ ∀ k m, g = some (k, m) → t = poly1305 k m := by
  obtain ⟨s', t, h1, h2, h3, h4⟩ := final_inv h hi (pre := []) (junk := List.replicate 16 0) (post := []) rfl (by decide)
  rw [List.append_nil, List.append_nil, List.nil_append, List.nil_append] at h1
  refine ⟨s', t, ?_, h2, h3, h4⟩
  rw [finalizeSecure, show s.finalize (List.replicate 16 0) 0 = _ from h1, ok_bind]
  simp only []
  rw [copy_at (Holds.self t) rfl h3.symm (by rw [hj, h3]), ok_bind]
  rfl

theorem compute_inv {s : Poly1305} {g} (h : s.Inv g) (hi : s.init = true) {inp out : List Byte} (hin : inp.length < 2 ^ 64) (ho : 16 ≤ out.length) (hout : out.length < 2 ^ 64) :
    ∃ s' t, s.compute inp out = .ok (s', t ++ out.drop 16) ∧ s'.Inv none ∧ t.length = 16 ∧ ∀ k m, g = some (k, m) → t = poly1305 k (m ++ inp) := by
  obtain ⟨s1, h1, h2, h3⟩ := update_inv h hi (Window.whole inp hin)
  rw [Window.whole_bytes] at h2
  obtain ⟨s', t, h4, h5, h6, h7⟩ := final_inv h2 h3 (pre := []) (junk := out.take 16) (post := out.drop 16) (by rw [List.length_take]; omega)
    (by rw [List.nil_append, List.take_append_drop]; exact hout)
  rw [List.nil_append, List.nil_append, List.take_append_drop] at h4
  refine ⟨s', t, ?_, h5, h6, ?_⟩
  · rw [compute, if_neg (by rw [hi]; simp), if_neg (by omega), show s.update inp 0 inp.length = _ from h1, ok_bind]
    exact h4
  · intro k m e
    exact h7 k (m ++ inp) (by rw [e]; rfl)

theorem Run.inv {s : Poly1305} {g} (h : Run s g) : s.Inv g := by
  induction h with
  | new st => exact fresh_inv st
  | reset _ e ih =>
    obtain ⟨s1, h1, h2, _⟩ := reset_inv ih
    rw [e] at h1; cases h1; exact h2
  | @init s s' g key _ e ih =>
    have hk : 32 ≤ key.length := by
      rcases Nat.lt_or_ge key.length 32 with hlt | hge
      · rw [«initialize», if_pos hlt] at e; cases e
      · exact hge
    obtain ⟨s1, h1, h2⟩ := init_inv ih hk
    rw [e] at h1; cases h1; exact h2
  | @update s s' g w _ e ih =>
    have hi : s.init = true := by
      cases hi : s.init with
      | true => rfl
      | false => rw [Poly1305.update, if_pos hi] at e; cases e
    obtain ⟨s1, h1, h2, _⟩ := update_inv ih hi w
    rw [e] at h1; cases h1; exact h2
  | @final s s' g pre junk post out' _ hj hs e ih =>
    have hi : s.init = true := by
      cases hi : s.init with
      | true => rfl
      | false => rw [finalize, if_pos hi] at e; cases e
    obtain ⟨s1, t, h1, h2, _⟩ := final_inv ih hi hj hs
    rw [e] at h1; cases h1; exact h2
  | @finalSecure s s' g pre junk post out' _ hj hs e ih =>
    have hi : s.init = true := by
      cases hi : s.init with
      | true => rfl
      | false => rw [finalizeSecure, finalize, if_pos hi] at e; cases e
    obtain ⟨s1, t, h1, h2, _⟩ := finalSecure_inv (pre := pre) (post := post) ih hi hj
    rw [e] at h1; cases h1; exact h2
  | @compute s s' g inp out out' _ hin ho e ih =>
    have hi : s.init = true := by
      cases hi : s.init with
      | true => rfl
      | false => rw [Poly1305.compute, if_pos hi] at e; cases e
    have hl : 16 ≤ out.length := by
      rcases Nat.lt_or_ge out.length 16 with hlt | hge
      · rw [Poly1305.compute, if_neg (by rw [hi]; simp), if_pos hlt] at e; cases e
      · exact hge
    obtain ⟨s1, t, h1, h2, _⟩ := compute_inv ih hi hin hl ho
    rw [e] at h1; cases h1; exact h2

end Poly1305

open Poly1305

/-- From every reachable state, whatever was done with the object before, a key of at least 32 bytes can be loaded. -/
theorem C31_poly1305_init {s : Poly1305} {g} (h : Run s g) (key : List Byte) (hk : 32 ≤ key.length) : ∃ s', s.initialize key = .ok s' ∧ Run s' (some (key, [])) := by
  obtain ⟨s', h1, _⟩ := init_inv h.inv hk
  exact ⟨s', h1, .init h h1⟩

/-- Any window of data can be added to a keyed object. -/
theorem C31_poly1305_update {s : Poly1305} {k m : List Byte} (h : Run s (some (k, m))) (w : Window) :
    ∃ s', s.update w.buf w.off w.len = .ok s' ∧ Run s' (some (k, m ++ w.bytes)) := by
  obtain ⟨s', h1, _⟩ := update_inv h.inv (h.inv.keyed k m rfl).1 w
  exact ⟨s', h1, .update w h h1⟩

/-- The tag is the one of RFC 8439 for the data received since the key was loaded, however it was split; nothing beside the 16 bytes is changed. -/
theorem C31_poly1305_tag {s : Poly1305} {k m : List Byte} (h : Run s (some (k, m))) (pre junk post : List Byte) (hj : junk.length = 16) (hs : (pre ++ junk ++ post).length < 2 ^ 64) :
    ∃ s', s.finalize (pre ++ junk ++ post) pre.length = .ok (s', pre ++ poly1305 k m ++ post) := by
  obtain ⟨s', t, h1, _, _, h4⟩ := final_inv h.inv (h.inv.keyed k m rfl).1 hj hs
  exact ⟨s', by rw [h1, h4 k m rfl]⟩

/-- The same for the overload with a `SecureVector`. -/
theorem C31_poly1305_tag_secure {s : Poly1305} {k m : List Byte} (h : Run s (some (k, m))) (pre junk post : List Byte) (hj : junk.length = 16) :
    ∃ s', s.finalizeSecure (pre ++ junk ++ post) pre.length = .ok (s', pre ++ poly1305 k m ++ post) := by
  obtain ⟨s', t, h1, _, _, h4⟩ := finalSecure_inv (pre := pre) (post := post) h.inv (h.inv.keyed k m rfl).1 hj
  exact ⟨s', by rw [h1, h4 k m rfl]⟩

/-- The same for `Compute`. -/
theorem C31_poly1305_compute {s : Poly1305} {k m : List Byte} (h : Run s (some (k, m))) (inp out : List Byte) (hin : inp.length < 2 ^ 64) (ho : 16 ≤ out.length)
    (hout : out.length < 2 ^ 64) : ∃ s', s.compute inp out = .ok (s', poly1305 k (m ++ inp) ++ out.drop 16) := by
  obtain ⟨s', t, h1, _, _, h4⟩ := compute_inv h.inv (h.inv.keyed k m rfl).1 hin ho hout
  exact ⟨s', by rw [h1, h4 k m rfl]⟩

/-- Short keys, short output buffers, data that is not there, and unkeyed objects are refused. -/
theorem C31_poly1305_refuses {s : Poly1305} :
    (∀ key, key.length < 32 → s.initialize key = .error (.throws .invalidKey))
      ∧ (∀ inp io len, s.init = false → s.update inp io len = .error (.throws .notInitialized))
      ∧ (∀ out oo, s.init = false → s.finalize out oo = .error (.throws .notInitialized))
      ∧ (∀ inp out, s.init = false → s.compute inp out = .error (.throws .notInitialized))
      ∧ (∀ inp io len, s.init = true → io ≤ inp.length → inp.length < 2 ^ 64 → inp.length - io < len → s.update inp io len = .error (.throws .invalidSize))
      ∧ (∀ out oo, s.init = true → oo ≤ out.length → out.length < 2 ^ 64 → out.length - oo < 16 → s.finalize out oo = .error (.throws .invalidSize)) := by
  refine ⟨?_, ?_, ?_, ?_, ?_, ?_⟩
  · intro key h; rw [«initialize», if_pos h]; rfl
  · intro inp io len h; rw [update, if_pos h]; rfl
  · intro out oo h; rw [finalize, if_pos h]; rfl
  · intro inp out h; rw [Poly1305.compute, if_pos h]; rfl
  · intro inp io len hi h1 h2 h3; rw [update, if_neg (by rw [hi]; simp), subU_le h1 h2, if_pos h3]; rfl
  · intro out oo hi h1 h2 h3; rw [finalize, if_neg (by rw [hi]; simp), subU_le h1 h2, if_pos h3]; rfl

/-- After construction and after `Reset` the object is unkeyed. -/
theorem C31_poly1305_reset {s : Poly1305} {g} (h : Run s g) : ∃ s', s.reset = .ok s' ∧ s'.init = false ∧ Run s' none := by
  obtain ⟨s', h1, _, h2⟩ := reset_inv h.inv
  exact ⟨s', h1, h2, .reset h h1⟩

/-- Poly1305 behind the MAC interface. -/
def polyOps : MacOps := ⟨Poly1305, 16, fun s k => s.initialize k, fun s => s.update, fun s => s.finalizeSecure, fun s => s.reset⟩

theorem poly1305_length (k m : List Byte) : (poly1305 k m).length = 16 := leEnc_length _ _

/-- Every construction proved for an arbitrary `MacOps.Macs` holds with Poly1305. -/
theorem C31_poly1305_macs : polyOps.Macs poly1305 (fun _ => True) (fun n => 32 ≤ n) Inv where
  size k m := poly1305_length k m
  tag_lt := by decide
  init h k hk := init_inv h hk
  update h w := by
    obtain ⟨s', h1, h2, _⟩ := update_inv h (h.keyed _ _ rfl).1 w
    exact ⟨s', h1, h2⟩
  finalize h _ pre junk post hj := by
    obtain ⟨s', t, h1, h2, _, h4⟩ := finalSecure_inv (pre := pre) (post := post) h (h.keyed _ _ rfl).1 hj
    exact ⟨s', none, by rw [← h4 _ _ rfl]; exact h1, h2⟩
  reset h := by
    obtain ⟨s', h1, h2, _⟩ := reset_inv h
    exact ⟨s', none, h1, h2⟩

/-! ## Donna128 -/

/-- The product is exact, sums that fit are exact, and `CarryShift` is the quotient when that fits 64 bits. -/
theorem C31_donna_exact (a b : BitVec 64) (x y : Donna) :
    (Donna.mul a b).val = a.toNat * b.toNat ∧ (x.val + y.val < 2 ^ 128 → (x.add y).val = x.val + y.val)
      ∧ (x.val + a.toNat < 2 ^ 128 → (x.add64 a).val = x.val + a.toNat)
      ∧ ∀ k, 0 < k → k < 64 → x.val < 2 ^ (64 + k) → (x.carryShift k).toNat = x.val / 2 ^ k :=
  ⟨Donna.mul_val a b, Donna.add_val x y, Donna.add64_val x a, Donna.carry_val x⟩

/-- `operator>>` by itself is not a right shift: it exchanges the halves first. -/
theorem C31_donna_shr_not_shift : ∃ (x : Donna) (k : Nat), 0 < k ∧ k < 64 ∧ (x.shr k).val ≠ x.val / 2 ^ k :=
  ⟨⟨2, 0⟩, 1, by decide, by decide, by decide +kernel⟩

/-! ## Examples -/

/-- The key of RFC 8439, section 2.5.2. -/
def rfcKey : List Byte := [0x85, 0xd6, 0xbe, 0x78, 0x57, 0x55, 0x6d, 0x33, 0x7f, 0x44, 0x52, 0xfe, 0x42, 0xd5, 0x06, 0xa8,
  0x01, 0x03, 0x80, 0x8a, 0xfb, 0x0d, 0xb2, 0xfd, 0x4a, 0xbf, 0xf6, 0xaf, 0x41, 0x49, 0xf5, 0x1b]

/-- "Cryptographic Forum Research Group" -/
def rfcMsg : List Byte := [0x43, 0x72, 0x79, 0x70, 0x74, 0x6f, 0x67, 0x72, 0x61, 0x70, 0x68, 0x69, 0x63, 0x20, 0x46, 0x6f,
  0x72, 0x75, 0x6d, 0x20, 0x52, 0x65, 0x73, 0x65, 0x61, 0x72, 0x63, 0x68, 0x20, 0x47, 0x72, 0x6f, 0x75, 0x70]

def rfcTag : List Byte := [0xa8, 0x06, 0x1d, 0xc1, 0x30, 0x51, 0x36, 0xc6, 0xc2, 0x2b, 0x8b, 0xaf, 0x0c, 0x01, 0x27, 0xa9]

/-- The specification gives the tag of RFC 8439, section 2.5.2. -/
theorem C31_example_spec : poly1305 rfcKey rfcMsg = rfcTag := by
  rw [poly1305, show clampR rfcKey = 0x806d5400e52447c036d555408bed685 by decide +kernel, show padS rfcKey = 0x1bf54941aff6bf4afdb20dfb8a800301 by decide +kernel]
  rw [acc_cons (by decide), acc_cons (by decide), acc_cons (by decide), show ((rfcMsg.drop 16).drop 16).drop 16 = [] by decide, acc_nil]
  decide +kernel

/-- And so does the code, with the message given in two pieces. -/
theorem C31_example_code : (do
    let s ← (fresh (⟨1, 2, 3⟩, ⟨4, 5, 6⟩, 7, 8)).initialize rfcKey
    let s ← s.update rfcMsg 0 21
    let s ← s.update rfcMsg 21 13
    let q ← s.finalize (List.replicate 16 0) 0
    return q.2) = (.ok rfcTag : M (List Byte)) := by decide +kernel

/-- A second tag needs a new key (as Poly1305.h:63 says): without it a second call of `Finalize` gives another tag. -/
theorem C31_poly1305_reuse : (do
    let s ← (fresh (⟨0, 0, 0⟩, ⟨0, 0, 0⟩, 0, 0)).initialize rfcKey
    let s ← s.update rfcMsg 0 34
    let q ← s.finalize (List.replicate 16 0) 0
    let q2 ← q.1.finalize (List.replicate 16 0) 0
    return decide (q2.2 = q.2)) = (.ok false : M Bool) := by decide +kernel

end Cex.Poly
