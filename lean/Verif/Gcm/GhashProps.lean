import Verif.Gcm.GhashLemmas

/-!
# C23 GHASH and C28 GMAC

Both theorems start from any state an object can be in, whatever was done with it before.
-/

namespace Cex.Gcm
open Cex Cex.IntTools Cex.Mac Stream Polynomial

/-! ## C23 -/

/-- The states of a GHASH object. -/
inductive Gh.Reach (simd : Bool) : Gh → Prop
  | fresh : Reach simd .fresh
  | init {g} (k0 k1) : Reach simd g → Reach simd (g.initialize k0 k1)
  | update {g g' inp io len out out'} : Reach simd g → g.update simd inp io len out = .ok (g', out') → Reach simd g'
  | final {g g' out out' ad txt} : Reach simd g → g.finalize simd out ad txt = .ok (g', out') → Reach simd g'
  | clear {g g'} : Reach simd g → g.clear = .ok g' → Reach simd g'
  | reset {g g'} : Reach simd g → g.reset = .ok g' → Reach simd g'

theorem gh_update_len {simd : Bool} {g g' : Gh} {inp out out' : List Byte} {io len : Nat} (hb : g.buf.length = 16)
    (h : g.update simd inp io len out = .ok (g', out')) : g'.buf.length = 16 := by
  rw [Gh.update] at h
  split at h
  · cases h; exact hb
  · obtain ⟨s1, h1, h⟩ := bind_ok h
    split at h
    · cases h
    · obtain ⟨s2, h2, h⟩ := bind_ok h
      have w1 : s1.1.buf.length = 16 := by
        rw [Gh.flush] at h1
        split at h1
        · obtain ⟨_, _, h1⟩ := bind_ok h1; cases h1; exact hb
        · cases h1; exact hb
      have w2 : s2.1.buf.length = 16 := by
        rw [Gh.fill] at h2
        split at h2
        · obtain ⟨b, h3, h2⟩ := bind_ok h2
          obtain ⟨_, _, h2⟩ := bind_ok h2
          obtain ⟨_, _, h2⟩ := bind_ok h2
          cases h2
          exact (copy_len h3).trans w1
        · cases h2; exact w1
      rw [Gh.store] at h
      split at h
      · obtain ⟨b, h3, h⟩ := bind_ok h; cases h; exact (copy_len h3).trans w2
      · cases h; exact w2

theorem gh_finalize_len {simd : Bool} {g g' : Gh} {out out' : List Byte} {ad txt : Nat} (hb : g.buf.length = 16)
    (h : g.finalize simd out ad txt = .ok (g', out')) : g'.buf.length = 16 := by
  rw [Gh.finalize] at h
  obtain ⟨s, h1, h⟩ := bind_ok h
  obtain ⟨_, _, h⟩ := bind_ok h
  obtain ⟨_, _, h⟩ := bind_ok h
  cases h
  rw [Gh.last] at h1
  split at h1
  · obtain ⟨b, h2, h1⟩ := bind_ok h1
    obtain ⟨_, _, h1⟩ := bind_ok h1
    obtain ⟨_, _, h1⟩ := bind_ok h1
    cases h1
    split at h2
    · exact (clear_len h2).trans hb
    · cases h2; exact hb
  · cases h1; exact hb

theorem gh_clear_ok (g : Gh) : g.clear = .ok { g with buf := List.replicate g.buf.length 0, pos := 0 } := by
  rw [Gh.clear, clear_whole]; rfl

theorem gh_reset_ok (g : Gh) : g.reset = .ok ⟨0, 0, List.replicate g.buf.length 0, 0⟩ := by
  rw [Gh.reset, clear_whole]; rfl

theorem Gh.Reach.len {simd : Bool} {g : Gh} (h : g.Reach simd) : g.buf.length = 16 := by
  induction h with
  | fresh => rfl
  | init _ _ _ ih => exact ih
  | update _ h ih => exact gh_update_len ih h
  | final _ h ih => exact gh_finalize_len ih h
  | clear _ h ih => rw [gh_clear_ok] at h; cases h; rw [List.length_replicate, ih]
  | reset _ h ih => rw [gh_reset_ok] at h; cases h; rw [List.length_replicate, ih]

/-- A sequence of `Update` calls on one accumulator. -/
def Gh.updates (simd : Bool) (g : Gh) (out : List Byte) (ws : List Window) : M (Gh × List Byte) :=
  ws.foldlM (fun s w => s.1.update simd w.buf w.off w.len s.2) (g, out)

theorem gh_updates_ok {k0 k1 : BitVec 64} {y0 : BitVec 128} {t : List Byte} (simd : Bool) : ∀ (ws : List Window) (msg : List Byte) (g : Gh) (out : List Byte),
    Absorbed k0 k1 y0 t msg g out → ∃ g' out', g.updates simd out ws = .ok (g', out') ∧ Absorbed k0 k1 y0 t (msg ++ (ws.map Window.bytes).flatten) g' out'
  | [], msg, g, out, h => ⟨g, out, rfl, by simpa using h⟩
  | w :: ws, msg, g, out, h => by
    obtain ⟨g1, o1, h1, h2⟩ := gh_update_ok simd h w.buf w.off w.bytes w.holds
    rw [w.bytes_length] at h1
    obtain ⟨g2, o2, h3, h4⟩ := gh_updates_ok simd ws _ g1 o1 h2
    refine ⟨g2, o2, ?_, by simpa using h4⟩
    rw [Gh.updates, List.foldlM_cons, h1]
    exact h3

theorem unblk_zero : unblk 0 = List.replicate 16 0 := by decide

/-- The value hashed for associated data and text. -/
theorem gcmString_step (H : BitVec 128) (aad c : List Byte) : Nist.ghash H (Nist.gcmString aad c) =
    Nist.gstep H (eager 16 (Nist.gstep H) (eager 16 (Nist.gstep H) 0 (Nist.pad16 aad)).1 (Nist.pad16 c)).1 (Nist.lens aad.length c.length) := by
  rw [Nist.ghash, Nist.gcmString, eager_last _ _ _ _ (by rw [List.length_append, Nat.add_mod, pad16_length, pad16_length]) (lens_length _ _),
    eager_pad_append _ _ _ _ (pad16_length aad)]

/-- The number of blocks of the hashed string. -/
theorem gcmString_length (aad c : List Byte) : (Nist.gcmString aad c).length = 16 * ((aad.length + 15) / 16 + (c.length + 15) / 16 + 1) := by
  simp only [Nist.gcmString, List.length_append, Nist.pad16, List.length_replicate, lens_length]
  omega

/-- **C23.** From any reachable state, after `Clear`, with the key `k0 k1` loaded and a zero accumulator in the first 16 bytes of
any vector: hashing associated data with `Multiply`, then any sequence of `Update` calls, then `Finalize` with the two lengths
succeeds on both multiplication paths and leaves in the accumulator the GHASH of `pad(A) || pad(C) || [len A] || [len C]`, `C` being
the concatenation of the update windows. That value is the polynomial whose coefficients are the 16-byte blocks, evaluated at the
hash key in GF(2)[x] modulo `x^128 + x^7 + x^2 + x + 1`. The rest of the vector is untouched. -/
theorem C23_ghash (simd : Bool) {g : Gh} (hr : g.Reach simd) (k0 k1 : BitVec 64) (aad : Window) (ws : List Window) (t : List Byte) :
    ∃ g1 o1 g2 o2 g3 z, g.clear = .ok g1 ∧ (g1.initialize k0 k1).multiply simd aad.buf aad.off aad.len (List.replicate 16 0 ++ t) = .ok o1 ∧
      (g1.initialize k0 k1).updates simd o1 ws = .ok (g2, o2) ∧
      g2.finalize simd o2 aad.len (ws.map Window.bytes).flatten.length = .ok (g3, unblk z ++ t) ∧
      z = Nist.ghash (cat k0 k1) (Nist.gcmString aad.bytes (ws.map Window.bytes).flatten) ∧
      poly z = Nist.hashSum (cat k0 k1) (Nist.gcmString aad.bytes (ws.map Window.bytes).flatten)
        ((aad.bytes.length + 15) / 16 + ((ws.map Window.bytes).flatten.length + 15) / 16 + 1) := by
  have hm := multiply_ok simd (({ g with buf := List.replicate g.buf.length 0, pos := 0 } : Gh).initialize k0 k1) aad.buf t aad.len aad.bytes aad.off 0 aad.bytes_length aad.holds
  rw [show acc 0 t = List.replicate 16 0 ++ t by rw [acc, unblk_zero]] at hm
  obtain ⟨g2, o2, h2, ab⟩ := gh_updates_ok (t := t) simd ws []
    (({ g with buf := List.replicate g.buf.length 0, pos := 0 } : Gh).initialize k0 k1) _ (absorbed_nil (k0 := k0) (k1 := k1) rfl rfl (by simp [Gh.initialize, hr.len]) rfl)
  obtain ⟨b, _, h3⟩ := gh_finalize_ok simd ab aad.len (ws.map Window.bytes).flatten.length
  rw [List.nil_append] at h3
  refine ⟨_, _, g2, o2, _, _, gh_clear_ok g, hm, h2, h3, ?_, ?_⟩
  · rw [gcmString_step, aad.bytes_length]; rfl
  · rw [← ghash_sum _ _ _ (gcmString_length _ _), gcmString_step, aad.bytes_length]; rfl

/-- C23, the multiplication by itself: on every code path a 16-byte block becomes the block of the product polynomial. -/
theorem C23_multiplication (simd : Bool) (h0 h1 : BitVec 64) (b : List Byte) (hb : b.length = 16) :
    ∃ z, permute simd h0 h1 b = .ok (unblk z) ∧ poly z = (poly (blk b) * poly (cat h0 h1)) %ₘ P :=
  ⟨_, permute_eq simd h0 h1 b hb, nist_mul _ _⟩

/-- The hypotheses of `C23_ghash` are met by a used object: keyed, updated, not cleared. -/
example : ∃ g : Gh, g.Reach true ∧ g.pos = 5 ∧ g.h0 = 7 := by
  have ab := absorbed_nil (k0 := 7) (k1 := 9) (y0 := 0) (t := []) (g := Gh.fresh.initialize 7 9) rfl rfl rfl rfl
  obtain ⟨g', o', h1, ab2⟩ := gh_update_ok true ab [1, 2, 3, 4, 5] 0 [1, 2, 3, 4, 5] (Holds.self _)
  refine ⟨g', .update (.init 7 9 .fresh) h1, ?_, ab2.key0⟩
  rw [ab2.pos, lazy_short (by simp)]; rfl

/-! ## C28 -/

/-- The states of a GMAC object: constructed, then any successful calls with any keys and salts. -/
inductive Gmac.Reach (simd : Bool) : Gmac → Prop
  | fresh : Reach simd .fresh
  | init {st st' E iv} : Reach simd st → (∀ b, b.length = 16 → (E b).length = 16) → st.initialize simd true E iv = .ok st' → Reach simd st'
  | update {st st' inp io len} : Reach simd st → st.update simd inp io len = .ok st' → Reach simd st'
  | final {st st' out oo out'} : Reach simd st → st.finalize simd out oo = .ok (st', out') → Reach simd st'
  | reset {st st'} : Reach simd st → st.reset = .ok st' → Reach simd st'

/-- What holds of every reachable state. -/
structure Gmac.Wf (st : Gmac) : Prop where
  buf : st.gh.buf.length = 16
  state : st.state.length = 16
  idle : st.init = false → st.gh.pos = 0 ∧ st.state = List.replicate 16 0 ∧ st.counter = 0

/-- The instance is keyed with `E` and `iv` and has absorbed `msg`. -/
structure Gmac.Keyed (E : List Byte → List Byte) (iv msg : List Byte) (st : Gmac) : Prop where
  init : st.init = true
  nonce : st.nonce = E (Nist.j0 (Nist.hkey E) iv)
  counter : st.counter = msg.length % 2 ^ 64
  hash : ∃ k0 k1, cat k0 k1 = Nist.hkey E ∧ Absorbed k0 k1 0 [] msg st.gh st.state

theorem gmac_reset_ok (st : Gmac) (hb : st.gh.buf.length = 16) (hs : st.state.length = 16) :
    st.reset = .ok ⟨⟨0, 0, List.replicate 16 0, 0⟩, List.replicate 16 0, List.replicate st.nonce.length 0, 0, false⟩ := by
  rw [Gmac.reset, gh_reset_ok, ok_bind, clear_whole, ok_bind, clear_whole, hb, hs]; rfl

theorem gh_multiply_out {simd : Bool} {g : Gh} {m : List Byte} (y : BitVec 128) :
    g.multiply simd m 0 m.length (unblk y) = .ok (unblk (eager 16 (Nist.gstep (cat g.h0 g.h1)) y (Nist.pad16 m)).1) := by
  have := multiply_ok simd g m [] m.length m 0 y rfl (Holds.self m)
  simpa [acc] using this

theorem j0_length {H : BitVec 128} {iv : List Byte} : (Nist.j0 H iv).length = 16 := by
  rw [Nist.j0]
  split
  · rename_i h; simp [h]
  · exact unblk_length _

theorem gmacLong_ok (simd : Bool) (gh : Gh) (nonce : List Byte) (hb : gh.buf.length = 16) (hp : gh.pos = 0) (h12 : nonce.length ≠ 12) (hn : 12 ≤ nonce.length) :
    ∃ buf, buf.length = 16 ∧ gmacLong simd gh nonce = .ok ({ gh with buf := buf }, Nist.j0 (cat gh.h0 gh.h1) nonce) := by
  have hm := gh_multiply_out (simd := simd) (g := gh) (m := nonce) 0
  rw [unblk_zero] at hm
  have ab := absorbed_nil (k0 := gh.h0) (k1 := gh.h1) (y0 := (eager 16 (Nist.gstep (cat gh.h0 gh.h1)) 0 (Nist.pad16 nonce)).1) (t := []) (g := gh) rfl rfl hb hp
  obtain ⟨buf, hbl, hf⟩ := gh_finalize_ok simd ab 0 nonce.length
  rw [acc, acc, List.append_nil, List.append_nil, pad16_nil, eager_short (m := []) (by simp)] at hf
  have hj : unblk (Nist.gstep (cat gh.h0 gh.h1) (eager 16 (Nist.gstep (cat gh.h0 gh.h1)) 0 (Nist.pad16 nonce)).1 (Nist.lens 0 nonce.length)) = Nist.j0 (cat gh.h0 gh.h1) nonce := by
    rw [Nist.j0, if_neg h12, Nist.ghash, eager_last _ _ _ _ (pad16_length _) (lens_length _ _)]
  rw [hj] at hf
  refine ⟨buf, hbl, ?_⟩
  rw [gmacLong, hm, ok_bind, hf, ok_bind]
  simp only []
  have hfin : ∀ n : List Byte, n.length = 16 → copy (Nist.j0 (cat gh.h0 gh.h1) nonce) 0 n 0 16 = .ok (Nist.j0 (cat gh.h0 gh.h1) nonce) := fun n hn =>
    copy_whole (Holds.self _) j0_length.symm (by rw [hn, j0_length])
  have hvl : ∀ (n : List Byte), (vresize n 16).length = 16 := by
    intro n; rw [vresize, List.length_append, List.length_take, List.length_replicate]; omega
  by_cases h16 : nonce.length = 16
  · rw [if_neg (by omega), pure_eq_ok, ok_bind, hfin _ h16]; rfl
  · rw [if_pos h16]
    by_cases hgt : 16 < nonce.length
    · rw [if_pos hgt]
      obtain ⟨n, hc⟩ : ∃ n, clear nonce 16 (nonce.length - 16) = .ok n := by
        rw [clear, if_neg (by omega), blit_ok (by rw [List.length_replicate]; omega)]; exact ⟨_, rfl⟩
      rw [hc]
      simp only [ok_bind, pure_eq_ok]
      rw [hfin _ (hvl n)]; rfl
    · rw [if_neg hgt]
      simp only [ok_bind, pure_eq_ok]
      rw [hfin _ (hvl nonce)]; rfl

theorem gmacShort_ok (iv : List Byte) (h : iv.length = 12) (H : BitVec 128) : gmacShort iv = .ok (Nist.j0 H iv) := by
  have hv : vresize iv 16 = iv ++ [0, 0, 0, 0] := by
    rw [vresize, List.take_of_length_le (by omega), h]; rfl
  have hs : (iv ++ [0, 0, 0, 0]).set 15 (1 : Byte) = iv ++ [0, 0, 0, 1] := by
    rw [List.set_append, if_neg (by omega), h]; rfl
  rw [gmacShort, hv, wr_ok _ (by rw [List.length_append, h]; decide), hs, Nist.j0, if_pos h]

theorem gmac_initialize_ok (simd : Bool) (st : Gmac) (w : st.Wf) (E : List Byte → List Byte) (hE : ∀ b, b.length = 16 → (E b).length = 16) (iv : List Byte) (hiv : 12 ≤ iv.length) :
    ∃ st', st.initialize simd true E iv = .ok st' ∧ st'.Keyed E iv [] := by
  rw [Gmac.initialize, if_neg (by simp), if_neg (by omega)]
  obtain ⟨s1, e1, b1, b2, b3, b4⟩ : ∃ s1, (if st.init then st.reset else pure st) = .ok s1 ∧ s1.gh.buf.length = 16 ∧ s1.gh.pos = 0 ∧
      s1.state = List.replicate 16 0 ∧ s1.counter = 0 := by
    by_cases hi : st.init = true
    · rw [if_pos hi, gmac_reset_ok st w.buf w.state]
      exact ⟨_, rfl, rfl, rfl, rfl, rfl⟩
    · rw [if_neg hi]
      obtain ⟨c1, c2, c3⟩ := w.idle (by simpa using hi)
      exact ⟨st, rfl, w.buf, c1, c2, c3⟩
  rw [e1, ok_bind]
  have hE0 := hE (List.replicate 16 0) (by simp)
  have ht : blit (List.replicate 16 (0 : Byte)) 0 (E (List.replicate 16 0)) = .ok (E (List.replicate 16 0)) := by
    have := blit_at (a := []) (b := List.replicate 16 (0 : Byte)) (c := []) (s := E (List.replicate 16 0)) (off := 0) rfl (by rw [hE0]; simp)
    simpa using this
  rw [ht, ok_bind]
  obtain ⟨k0, k1, r0, r1, hk⟩ : ∃ k0 k1, beBytesTo64 (E (List.replicate 16 0)) 0 = .ok k0 ∧ beBytesTo64 (E (List.replicate 16 0)) 8 = .ok k1 ∧ cat k0 k1 = Nist.hkey E := by
    rw [Nist.hkey]
    generalize E (List.replicate 16 0) = h at hE0
    have hsplit : h = [] ++ h.take 8 ++ h.drop 8 := by simp
    have hsplit2 : h = h.take 8 ++ h.drop 8 ++ [] := by simp
    obtain ⟨k0, r0, v0⟩ := C01_be64_read.1 [] (h.take 8) (h.drop 8) (by rw [List.length_take]; omega)
    obtain ⟨k1, r1, v1⟩ := C01_be64_read.1 (h.take 8) (h.drop 8) [] (by rw [List.length_drop]; omega)
    rw [← hsplit] at r0
    rw [← hsplit2, show (h.take 8).length = 8 by rw [List.length_take]; omega] at r1
    refine ⟨k0, k1, r0, r1, ?_⟩
    have e := beVal_append (h.take 8) (h.drop 8)
    rw [List.take_append_drop, show (h.drop 8).length = 8 by rw [List.length_drop]; omega, ← v0, ← v1] at e
    have hlt := beVal_lt h
    rw [hE0] at hlt
    apply BitVec.eq_of_toNat_eq
    rw [cat_toNat, blk, BitVec.toNat_ofNat, Nat.mod_eq_of_lt (by omega), e, show (256 : Nat) ^ 8 = 2 ^ 64 from rfl]
  rw [r0, ok_bind, r1, ok_bind]
  simp only []
  have hc : copy iv 0 (vresize s1.nonce iv.length) 0 iv.length = .ok iv :=
    copy_whole (Holds.self iv) rfl (by rw [vresize, List.length_append, List.length_take, List.length_replicate]; omega)
  rw [hc, ok_bind]
  obtain ⟨gh, e2, g0, g1, gb, gp⟩ : ∃ gh : Gh, (if iv.length = 12 then do
        let n ← gmacShort iv
        return (s1.gh.initialize k0 k1, n)
      else gmacLong simd (s1.gh.initialize k0 k1) iv) = .ok (gh, Nist.j0 (Nist.hkey E) iv) ∧ gh.h0 = k0 ∧ gh.h1 = k1 ∧ gh.buf.length = 16 ∧ gh.pos = 0 := by
    by_cases h12 : iv.length = 12
    · rw [if_pos h12, gmacShort_ok iv h12 (Nist.hkey E)]
      exact ⟨_, rfl, rfl, rfl, b1, b2⟩
    · rw [if_neg h12]
      obtain ⟨buf, hbl, hl⟩ := gmacLong_ok simd (s1.gh.initialize k0 k1) iv b1 b2 h12 hiv
      rw [hl, show cat (s1.gh.initialize k0 k1).h0 (s1.gh.initialize k0 k1).h1 = Nist.hkey E from hk]
      exact ⟨_, rfl, rfl, rfl, hbl, b2⟩
  rw [e2, ok_bind]
  simp only []
  have hj := j0_length (H := Nist.hkey E) (iv := iv)
  rw [slice_holds (Holds.self _) hj.symm, ok_bind]
  have hbl : blit (Nist.j0 (Nist.hkey E) iv) 0 (E (Nist.j0 (Nist.hkey E) iv)) = .ok (E (Nist.j0 (Nist.hkey E) iv)) := by
    have := blit_at (a := []) (b := Nist.j0 (Nist.hkey E) iv) (c := []) (s := E (Nist.j0 (Nist.hkey E) iv)) (off := 0) rfl (by rw [hE _ hj, hj])
    simpa using this
  rw [hbl, ok_bind]
  refine ⟨_, rfl, ⟨rfl, rfl, by simp [b4], k0, k1, hk, ?_⟩⟩
  have := absorbed_nil (k0 := k0) (k1 := k1) (y0 := 0) (t := []) (g := gh) g0 g1 gb gp
  rw [acc, unblk_zero, List.append_nil] at this
  rw [b3]
  exact this

theorem gmac_update_ok (simd : Bool) {E : List Byte → List Byte} {iv msg : List Byte} {st : Gmac} (h : st.Keyed E iv msg) (inp : List Byte) (io : Nat) (x : List Byte)
    (hin : Holds inp io x) (hsz : inp.length < 2 ^ 64) : ∃ st', st.update simd inp io x.length = .ok st' ∧ st'.Keyed E iv (msg ++ x) := by
  obtain ⟨h1, h2, h3, k0, k1, hk, ab⟩ := h
  have hle := hin.le
  rw [Gmac.update, if_neg (by simp [h1]), if_neg (by rw [subU_le (by omega) hsz]; omega)]
  by_cases hx : x.length = 0
  · rw [if_neg (by omega), List.eq_nil_of_length_eq_zero hx, List.append_nil]
    exact ⟨st, rfl, h1, h2, h3, k0, k1, hk, ab⟩
  · rw [if_pos hx]
    obtain ⟨g', o', e, ab'⟩ := gh_update_ok simd ab inp io x hin
    rw [e, ok_bind]
    refine ⟨_, rfl, h1, h2, ?_, k0, k1, hk, ab'⟩
    show (st.counter + x.length) % 2 ^ 64 = _
    rw [h3, List.length_append]; omega

theorem gmac_finalize_ok (simd : Bool) {E : List Byte → List Byte} (hE : ∀ b, b.length = 16 → (E b).length = 16) {iv msg : List Byte} {st : Gmac} (h : st.Keyed E iv msg)
    (pre junk post : List Byte) (hj : junk.length = 16) (hsz : (pre ++ junk ++ post).length < 2 ^ 64) :
    st.finalize simd (pre ++ junk ++ post) pre.length =
      .ok (⟨⟨0, 0, List.replicate 16 0, 0⟩, List.replicate 16 0, List.replicate 16 0, 0, false⟩, pre ++ Nist.gmac E iv msg ++ post) := by
  obtain ⟨h1, h2, h3, k0, k1, hk, ab⟩ := h
  have hsub : ¬ subU (pre ++ junk ++ post).length pre.length < 16 := by
    rw [subU_le (by simp) hsz]; simp; omega
  rw [Gmac.finalize, if_neg (by simp [h1]), if_neg hsub]
  obtain ⟨buf, hbl, hf⟩ := gh_finalize_ok simd ab st.counter 0
  have hl : Nist.lens st.counter 0 = Nist.lens msg.length 0 := by
    rw [Nist.lens, Nist.lens, h3, ← beEnc_mod 8 (8 * (msg.length % 2 ^ 64)), ← beEnc_mod 8 (8 * msg.length)]
    congr 2; omega
  have hz : Nist.gstep (cat k0 k1) (eager 16 (Nist.gstep (cat k0 k1)) 0 (Nist.pad16 msg)).1 (Nist.lens st.counter 0) = Nist.ghash (Nist.hkey E) (Nist.gcmString msg []) := by
    rw [gcmString_step, hl, hk, pad16_nil, eager_short (s := (eager 16 (Nist.gstep (Nist.hkey E)) 0 (Nist.pad16 msg)).1) (by simp)]; rfl
  rw [hf, hz, ok_bind, acc, List.append_nil]
  simp only []
  have hjl := hE _ (j0_length (H := Nist.hkey E) (iv := iv))
  have hx := xorInto_at (a := []) (d := unblk (Nist.ghash (Nist.hkey E) (Nist.gcmString msg []))) (c := []) (off := 0) (n := 16)
    (Holds.self st.nonce) rfl (by rw [h2, hjl]) (by rw [h2, hjl, unblk_length])
  simp only [List.nil_append, List.append_nil] at hx
  rw [hx, ok_bind]
  have htag : xorBytes (unblk (Nist.ghash (Nist.hkey E) (Nist.gcmString msg []))) st.nonce = Nist.gmac E iv msg := by rw [h2, Nist.gmac]
  have htl : (Nist.gmac E iv msg).length = 16 := by rw [Nist.gmac, xorBytes_length, unblk_length, hjl]; rfl
  rw [htag, copy_at (Holds.self _) rfl htl.symm (by rw [hj, htl]), ok_bind, gmac_reset_ok _ hbl htl, ok_bind]
  simp only [h2, hjl]
  rfl

theorem block_len {simd : Bool} {g : Gh} {src out out' : List Byte} {so : Nat} (h : g.block simd src so out = .ok out') : out'.length = out.length := by
  rw [Gh.block] at h
  obtain ⟨o, h1, h⟩ := bind_ok h
  rw [Gh.permute] at h
  obtain ⟨_, _, h⟩ := bind_ok h
  obtain ⟨_, _, h⟩ := bind_ok h
  exact (blit_len h).trans (xorInto_len h1)

theorem loop_len {simd : Bool} {g : Gh} {inp : List Byte} : ∀ (n io : Nat) (out : List Byte) (r : List Byte × Nat × Nat), Gh.loop simd g inp io n out = .ok r →
    r.1.length = out.length := by
  intro n
  induction n using Nat.strongRecOn with
  | ind n ih =>
    intro io out r h
    rw [Gh.loop] at h
    split at h
    · obtain ⟨o, h1, h2⟩ := bind_ok h
      exact (ih (n - 16) (by omega) _ _ _ h2).trans (block_len h1)
    · cases h; rfl

theorem gh_update_out {simd : Bool} {g g' : Gh} {inp out out' : List Byte} {io len : Nat} (h : g.update simd inp io len out = .ok (g', out')) : out'.length = out.length := by
  rw [Gh.update] at h
  split at h
  · cases h; rfl
  · obtain ⟨s1, h1, h⟩ := bind_ok h
    split at h
    · cases h
    · obtain ⟨s2, h2, h⟩ := bind_ok h
      have w1 : s1.2.length = out.length := by
        rw [Gh.flush] at h1
        split at h1
        · obtain ⟨_, h3, h1⟩ := bind_ok h1; cases h1; exact block_len h3
        · cases h1; rfl
      have w2 : s2.2.1.length = s1.2.length := by
        rw [Gh.fill] at h2
        split at h2
        · obtain ⟨b, h3, h2⟩ := bind_ok h2
          obtain ⟨_, h4, h2⟩ := bind_ok h2
          obtain ⟨_, h5, h2⟩ := bind_ok h2
          cases h2
          exact (loop_len _ _ _ _ h5).trans (block_len h4)
        · cases h2; rfl
      rw [Gh.store] at h
      split at h
      · obtain ⟨b, h3, h⟩ := bind_ok h; cases h; exact w2.trans w1
      · cases h; exact w2.trans w1

theorem gh_finalize_out {simd : Bool} {g g' : Gh} {out out' : List Byte} {ad txt : Nat} (h : g.finalize simd out ad txt = .ok (g', out')) : out'.length = out.length := by
  rw [Gh.finalize] at h
  obtain ⟨s, h1, h⟩ := bind_ok h
  obtain ⟨_, _, h⟩ := bind_ok h
  obtain ⟨_, h3, h⟩ := bind_ok h
  cases h
  refine (block_len h3).trans ?_
  rw [Gh.last] at h1
  split at h1
  · obtain ⟨b, h2, h1⟩ := bind_ok h1
    obtain ⟨_, h4, h1⟩ := bind_ok h1
    obtain ⟨_, h5, h1⟩ := bind_ok h1
    cases h1
    rw [Gh.permute] at h5
    obtain ⟨_, _, h5⟩ := bind_ok h5
    obtain ⟨_, _, h5⟩ := bind_ok h5
    exact (blit_len h5).trans (xorInto_len h4)
  · cases h1; rfl

theorem Gmac.Keyed.wf {E : List Byte → List Byte} {iv msg : List Byte} {st : Gmac} (h : st.Keyed E iv msg) : st.Wf := by
  obtain ⟨h1, _, _, k0, k1, _, ab⟩ := h
  obtain ⟨_, _, e⟩ := ab.buf
  exact ⟨e, by rw [ab.out, acc, List.append_nil, unblk_length], fun e => by rw [h1] at e; cases e⟩

theorem Gmac.Reach.wf {simd : Bool} {st : Gmac} (h : st.Reach simd) : st.Wf := by
  induction h with
  | fresh => exact ⟨rfl, rfl, fun _ => ⟨rfl, rfl, rfl⟩⟩
  | @init st st' E iv _ hE h w =>
    by_cases hiv : 12 ≤ iv.length
    · obtain ⟨s, h', k⟩ := gmac_initialize_ok simd st w E hE iv hiv
      rw [h'] at h; cases h
      exact k.wf
    · rw [Gmac.initialize, if_neg (by simp), if_pos (by omega)] at h; cases h
  | @update st st' inp io len _ h w =>
    rw [Gmac.update] at h
    split at h
    · cases h
    · rename_i hi
      split at h
      · cases h
      · split at h
        · obtain ⟨r, h1, h⟩ := bind_ok h
          cases h
          exact ⟨gh_update_len w.buf h1, (gh_update_out h1).trans w.state, fun e => absurd e hi⟩
        · cases h; exact w
  | @final st st' out oo out' _ h w =>
    rw [Gmac.finalize] at h
    split at h
    · cases h
    · split at h
      · cases h
      · obtain ⟨r, h1, h⟩ := bind_ok h
        obtain ⟨s, h2, h⟩ := bind_ok h
        obtain ⟨o, h3, h⟩ := bind_ok h
        obtain ⟨q, h4, h⟩ := bind_ok h
        cases h
        rw [gmac_reset_ok _ (gh_finalize_len w.buf h1) ((xorInto_len h2).trans ((gh_finalize_out h1).trans w.state))] at h4
        cases h4
        exact ⟨rfl, rfl, fun _ => ⟨rfl, rfl, rfl⟩⟩
  | reset _ h w =>
    rw [gmac_reset_ok _ w.buf w.state] at h
    cases h
    exact ⟨rfl, rfl, fun _ => ⟨rfl, rfl, rfl⟩⟩

/-- A sequence of `Update` calls. -/
def Gmac.updates (simd : Bool) (st : Gmac) (ws : List Window) : M Gmac := ws.foldlM (fun st w => st.update simd w.buf w.off w.len) st

theorem gmac_updates_ok (simd : Bool) {E : List Byte → List Byte} {iv : List Byte} : ∀ (ws : List Window) (msg : List Byte) (st : Gmac), st.Keyed E iv msg →
    ∃ st', st.updates simd ws = .ok st' ∧ st'.Keyed E iv (msg ++ (ws.map Window.bytes).flatten)
  | [], msg, st, h => ⟨st, rfl, by simpa using h⟩
  | w :: ws, msg, st, h => by
    obtain ⟨s, h1, h2⟩ := gmac_update_ok simd h w.buf w.off w.bytes w.holds w.size
    rw [w.bytes_length] at h1
    obtain ⟨s', h3, h4⟩ := gmac_updates_ok simd ws _ s h2
    refine ⟨s', ?_, by simpa using h4⟩
    rw [Gmac.updates, List.foldlM_cons, h1]
    exact h3

/-- **C28.** From any reachable state, `Initialize` with a key and a salt of at least 12 bytes, then any sequence of `Update` calls, then
`Finalize` into any place of any large enough output, writes there exactly the SP 800-38D tag of the concatenated data with an empty
text, `GHASH_H(pad(A) || [len A] || [0]) ⊕ E(J0)`, and nothing else. Afterwards the instance refuses further use until it is initialised
again, so no tag is computed with leftovers. -/
theorem C28_gmac (simd : Bool) {st : Gmac} (hr : st.Reach simd) (E : List Byte → List Byte) (hE : ∀ b, b.length = 16 → (E b).length = 16) (iv : List Byte) (hiv : 12 ≤ iv.length)
    (ws : List Window) (pre junk post : List Byte) (hj : junk.length = 16) (hsz : (pre ++ junk ++ post).length < 2 ^ 64) :
    ∃ s1 s2 s3, st.initialize simd true E iv = .ok s1 ∧ s1.updates simd ws = .ok s2 ∧
      s2.finalize simd (pre ++ junk ++ post) pre.length = .ok (s3, pre ++ Nist.gmac E iv (ws.map Window.bytes).flatten ++ post) ∧
      (∀ inp io len, s3.update simd inp io len = .error (.throws .notInitialized)) ∧
      (∀ out oo, s3.finalize simd out oo = .error (.throws .notInitialized)) := by
  obtain ⟨s1, h1, a1⟩ := gmac_initialize_ok simd st hr.wf E hE iv hiv
  obtain ⟨s2, h2, a2⟩ := gmac_updates_ok simd ws [] s1 a1
  exact ⟨s1, s2, _, h1, h2, gmac_finalize_ok simd hE a2 pre junk post hj hsz, fun _ _ _ => rfl, fun _ _ => rfl⟩

/-- The one-call `Compute` gives the same tag. -/
theorem C28_compute (simd : Bool) {st : Gmac} (hr : st.Reach simd) (E : List Byte → List Byte) (hE : ∀ b, b.length = 16 → (E b).length = 16) (iv : List Byte) (hiv : 12 ≤ iv.length)
    (msg : List Byte) (hm : msg.length < 2 ^ 64) (out : List Byte) (ho : 16 ≤ out.length) (hsz : out.length < 2 ^ 64) :
    ∃ s1 s2, st.initialize simd true E iv = .ok s1 ∧ s1.compute simd msg out = .ok (s2, Nist.gmac E iv msg ++ out.drop 16) := by
  obtain ⟨s1, h1, a1⟩ := gmac_initialize_ok simd st hr.wf E hE iv hiv
  obtain ⟨s2, h2, a2⟩ := gmac_update_ok simd a1 msg 0 msg (Holds.self _) hm
  have hf := gmac_finalize_ok simd hE a2 [] (out.take 16) (out.drop 16) (by rw [List.length_take]; omega) (by simpa using hsz)
  rw [List.nil_append, List.take_append_drop, List.nil_append, List.nil_append] at hf
  refine ⟨s1, ⟨⟨0, 0, List.replicate 16 0, 0⟩, List.replicate 16 0, List.replicate 16 0, 0, false⟩, h1, ?_⟩
  rw [Gmac.compute, if_neg (by simp [a1.init]), if_neg (by omega), h2, ok_bind]
  exact hf

/-- GMAC is the tag GCM assigns to the data as associated data: the GHASH of C23 with an empty text. -/
theorem C28_is_ghash (E : List Byte → List Byte) (iv aad : List Byte) :
    ∃ z, Nist.gmac E iv aad = xorBytes (unblk z) (E (Nist.j0 (Nist.hkey E) iv)) ∧
      poly z = Nist.hashSum (Nist.hkey E) (Nist.pad16 aad ++ Nist.lens aad.length 0) ((aad.length + 15) / 16 + 1) := by
  refine ⟨_, rfl, ?_⟩
  have h := ghash_sum (Nist.hkey E) (Nist.gcmString aad []) _ (gcmString_length aad [])
  rw [h, Nist.gcmString, pad16_nil, List.append_nil]
  rfl

/-- The hypotheses of `C28_gmac` are met by an instance that was initialised, fed and neither finalised nor reset. -/
example : ∃ st : Gmac, st.Reach false ∧ st.init = true ∧ st.gh.pos = 3 := by
  obtain ⟨s1, h1, a1⟩ := gmac_initialize_ok false .fresh (Gmac.Reach.fresh (simd := false)).wf (fun b => b.map (· + 1)) (by simp) (List.replicate 20 7) (by simp)
  obtain ⟨s2, h2, a2⟩ := gmac_update_ok false a1 [1, 2, 3] 0 [1, 2, 3] (Holds.self _) (by simp)
  refine ⟨s2, .update (.init .fresh (by simp) h1) h2, a2.init, ?_⟩
  obtain ⟨k0, k1, _, ab⟩ := a2.hash
  rw [ab.pos, lazy_short (by simp)]; rfl

end Cex.Gcm
