import Verif.Gcm.GcmModel
import Verif.Gcm.GcmSpec
import Verif.Gcm.GhashProps
import Verif.Modes.CtrAny

/-! # Lemmas about GCM -/

namespace Cex.Gcm
open Cex Cex.IntTools Cex.Modes Cex.Modes.Spec Stream

/-- The block cipher maps blocks to blocks. -/
def Env.Good (e : Env) : Prop := ∀ k i b, b.length = 16 → (e.cip k i b).length = 16

/-- The tag for any hash key, pre-counter block, accumulator `y0` before the text, and recorded length `n` of associated data. -/
def rawTag (H : BitVec 128) (E : List Byte → List Byte) (J : List Byte) (y0 : BitVec 128) (n : Nat) (c : List Byte) : List Byte :=
  xorBytes (unblk (Nist.gstep H (eager 16 (Nist.gstep H) y0 (Nist.pad16 c)).1 (Nist.lens n c.length))) (E J)

theorem rawTag_nist (H : BitVec 128) (E : List Byte → List Byte) (J aad c : List Byte) :
    rawTag H E J (eager 16 (Nist.gstep H) 0 (Nist.pad16 aad)).1 aad.length c = Nist.tag H E J aad c := by
  rw [rawTag, Nist.tag, gcmString_step]

/-- The pre-counter block the code computes, given the old content of the member `Nonce`. -/
def preBlock (H : BitVec 128) (iv old : List Byte) : List Byte :=
  if iv.length = 12 then iv ++ (old.drop 12).take 3 ++ [0x01] else Nist.j0 H iv

theorem preBlock_length {H : BitVec 128} {iv old : List Byte} (ho : old.length = 16) : (preBlock H iv old).length = 16 := by
  rw [preBlock]
  split
  · rename_i h; simp [h, ho]
  · exact j0_length

theorem preBlock_clean (H : BitVec 128) (iv : List Byte) : preBlock H iv (List.replicate 16 0) = Nist.j0 H iv := by
  rw [preBlock]
  split
  · rename_i h; rw [Nist.j0, if_pos h, List.append_assoc]; rfl
  · rfl

theorem preBlock_other {H : BitVec 128} {iv old : List Byte} (h : iv.length ≠ 12) : preBlock H iv old = Nist.j0 H iv := by rw [preBlock, if_neg h]

/-- What holds of every reachable state. -/
structure Gcm.Wf (e : Env) (st : Gcm) : Prop where
  nonce : st.nonce.length = 16
  tag : st.tag.length = 16
  buf : st.gh.buf.length = 16
  idle : st.init = false → st.aad = [] ∧ st.nonce = List.replicate 16 0
  keyed : st.ctrInit = true → e.engLegal st.key.length = true
  eng : ∀ k, st.eng = some k → e.engLegal k.1.length = true

/-- The instance is about to process a text with hash key `H`, block encryption `E`, pre-counter block `J`, accumulator `y0` and recorded
length `n` of associated data. -/
structure Gcm.Ready (e : Env) (H : BitVec 128) (E : List Byte → List Byte) (J : List Byte) (y0 : BitVec 128) (n : Nat) (enc : Bool) (st : Gcm) : Prop where
  mode : st.enc = enc
  init : st.init = true
  aad : st.aad.length = n
  counter : st.counter = 0
  nonce : st.nonce = E J
  ctr : st.ctr = beCounter J 1
  pre : J.length = 16
  eng : ∃ k, st.eng = some k ∧ e.cip k.1 k.2 = E
  hash : ∃ k0 k1, cat k0 k1 = H ∧ Absorbed k0 k1 y0 [] [] st.gh st.tag

theorem restart_ok {e : Env} {st : Gcm} (w : st.Wf e) : st.restart = .ok { st with
    aad := List.replicate st.aad.length 0, gh := ⟨0, 0, List.replicate 16 0, 0⟩, buf := List.replicate st.buf.length 0, counter := 0, tag := List.replicate 16 0 } := by
  rw [Gcm.restart, clear_whole, ok_bind, gh_reset_ok, ok_bind, clear_whole, ok_bind, clear_whole, ok_bind, w.buf, w.tag]; rfl

theorem noLostCarry_block (k : Kind) {p : Profile} (hv : p.Valid) (nonce : List Byte) : NoLostCarry k p nonce 16 := by
  intro hp t i ht hi
  obtain ⟨m, hm, hd, hs, hb⟩ := hv.split hp
  have h1 : p.blockSize ≤ 16 := by
    by_contra h
    rw [Nat.div_eq_of_lt (by omega)] at ht
    omega
  have h2 : p.degree * m ≤ 1 := by omega
  have h3 : p.degree ≤ 1 := by
    have : p.degree * 1 ≤ p.degree * m := Nat.mul_le_mul_left _ (by omega)
    omega
  have h4 : i = 0 := by omega
  subst h4
  rw [Nat.mul_zero]
  exact ⟨by cases k <;> simp only [Kind.fits] <;> omega, C03_small (by omega)⟩

/-- `preCounter` computes `preBlock`. -/
theorem preCounter_ok (e : Env) (st : Gcm) (hn : st.nonce.length = 16) (hb : st.gh.buf.length = 16) (hp : st.gh.pos = 0) :
    ∃ buf, buf.length = 16 ∧ st.preCounter e = .ok { st with gh := { st.gh with buf := buf }, nonce := preBlock (cat st.gh.h0 st.gh.h1) st.buf st.nonce } := by
  rw [Gcm.preCounter, preBlock]
  by_cases h12 : st.buf.length = 12
  · rw [if_pos h12, if_pos h12]
    refine ⟨st.gh.buf, hb, ?_⟩
    have hc : copy st.buf 0 st.nonce 0 st.buf.length = .ok (st.buf ++ st.nonce.drop 12) := by
      have := copy_at (a := []) (b := st.nonce.take 12) (c := st.nonce.drop 12) (off := 0) (Holds.self st.buf) rfl rfl (by rw [List.length_take]; omega)
      rwa [List.nil_append, List.take_append_drop, List.nil_append] at this
    rw [hc, ok_bind, wr_ok _ (by rw [List.length_append, List.length_drop]; omega), ok_bind]
    have hd : (st.nonce.drop 12).length = 4 := by rw [List.length_drop]; omega
    have : (st.buf ++ st.nonce.drop 12).set 15 (1 : Byte) = st.buf ++ (st.nonce.drop 12).take 3 ++ [1] := by
      rw [List.set_append, if_neg (by omega), h12, List.append_assoc]
      congr 1
      generalize st.nonce.drop 12 = d at hd
      match d, hd with
      | [a, b, c, x], _ => rfl
    rw [this]; rfl
  · rw [if_neg h12, if_neg h12]
    have hm := gh_multiply_out (simd := e.simd) (g := st.gh) (m := st.buf) 0
    rw [unblk_zero] at hm
    have ab := absorbed_nil (k0 := st.gh.h0) (k1 := st.gh.h1) (y0 := (eager 16 (Nist.gstep (cat st.gh.h0 st.gh.h1)) 0 (Nist.pad16 st.buf)).1) (t := []) (g := st.gh) rfl rfl hb hp
    obtain ⟨buf, hbl, hf⟩ := gh_finalize_ok e.simd ab 0 st.buf.length
    rw [acc, acc, List.append_nil, List.append_nil, pad16_nil, eager_short (m := []) (by simp)] at hf
    have hj : unblk (Nist.gstep (cat st.gh.h0 st.gh.h1) (eager 16 (Nist.gstep (cat st.gh.h0 st.gh.h1)) 0 (Nist.pad16 st.buf)).1 (Nist.lens 0 st.buf.length)) =
        Nist.j0 (cat st.gh.h0 st.gh.h1) st.buf := by
      rw [Nist.j0, if_neg h12, Nist.ghash, eager_last _ _ _ _ (pad16_length _) (lens_length _ _)]
    rw [hj] at hf
    refine ⟨buf, hbl, ?_⟩
    rw [hm, ok_bind, hf, ok_bind]
    have hc : copy (Nist.j0 (cat st.gh.h0 st.gh.h1) st.buf) 0 st.nonce 0 st.nonce.length = .ok (Nist.j0 (cat st.gh.h0 st.gh.h1) st.buf) :=
      copy_whole (Holds.self _) (by rw [hn, j0_length]) (by rw [hn, j0_length])
    simp only [hc, ok_bind, pure_eq_ok]

/-- The fairness of the schedules of one call. -/
abbrev FairFor (e : Env) (p : Profile) (len : Nat) (scheds : Nat → List Nat) : Prop := Fair p (ctrTurns e.W (p.blockSize / p.degree)) len scheds

/-- The second half of `Initialize`. -/
theorem load_ok {e : Env} (g : e.Good) (st : Gcm) (hn : st.nonce.length = 16) (hb : st.gh.buf.length = 16) (hp : st.gh.pos = 0) (hc : st.counter = 0)
    (ht : st.tag = List.replicate 16 0) (hk : e.engLegal st.key.length = true) (enc : Bool) (iv : List Byte) {p : Profile} (hv : p.Valid) (scheds : Nat → List Nat)
    (hf : FairFor e p 16 scheds) :
    ∃ st', st.load e enc iv p scheds = .ok (none, st') ∧
      st'.Ready e (cat st.gh.h0 st.gh.h1) (e.cip st.key []) (preBlock (cat st.gh.h0 st.gh.h1) iv st.nonce) 0 st.aad.length enc ∧
      st'.key = st.key ∧ st'.ctrInit = true ∧ st'.aad = st.aad ∧ st'.eng = some (st.key, []) ∧ st'.buf = iv ∧ st'.gh.h0 = st.gh.h0 ∧ st'.gh.h1 = st.gh.h1 := by
  rw [Gcm.load, copy_whole (Holds.self iv) rfl (by rw [vresize, List.length_append, List.length_take, List.length_replicate]; omega), ok_bind]
  obtain ⟨buf, hbl, hpre⟩ := preCounter_ok e { st with enc := enc, buf := iv } hn hb hp
  rw [hpre, ok_bind]
  simp only []
  rw [if_neg (by rw [hk]; simp)]
  have hJ := preBlock_length (H := cat st.gh.h0 st.gh.h1) (iv := iv) hn
  generalize preBlock (cat st.gh.h0 st.gh.h1) iv st.nonce = J at *
  rw [slice_holds (Holds.self J) hJ.symm, ok_bind]
  have hct := ctrTransform_ok .ctr e.W ⟨e.cip st.key [], e.cip st.key []⟩ (g st.key []) p hv J (List.replicate 16 0) (List.replicate 16 0) 0 hJ (Holds.self _)
    [] J [] 0 rfl (by rw [hJ]; rfl) (noLostCarry_block .ctr hv J) scheds hf
  have hst : ctrStream (e.cip st.key []) (Kind.ctr.cnt J) 16 = e.cip st.key [] J := by
    have h1 : ctrStream (e.cip st.key []) (Kind.ctr.cnt J) 16 = (e.cip st.key [] (Kind.ctr.cnt J 0)).take 16 := by simp [ctrStream]
    rw [h1, cnt_zero .ctr hJ, List.take_of_length_le (Nat.le_of_eq (g _ _ _ hJ))]
  have hx : xorBytes (e.cip st.key [] J) (List.replicate 16 0) = e.cip st.key [] J := by
    have := xorBytes_zeros (e.cip st.key [] J)
    rwa [g _ _ _ hJ] at this
  rw [List.length_replicate] at hct
  simp only [hst, hx, List.append_nil, List.nil_append] at hct
  simp only [Gcm.cipher, hct, ok_bind, pure_eq_ok]
  refine ⟨_, rfl, ⟨rfl, rfl, rfl, hc, rfl, rfl, hJ, ⟨_, rfl, rfl⟩, st.gh.h0, st.gh.h1, rfl, ?_⟩, rfl, rfl, rfl, rfl, rfl, rfl, rfl⟩
  have := absorbed_nil (k0 := st.gh.h0) (k1 := st.gh.h1) (y0 := 0) (t := []) (g := { st.gh with buf := buf }) rfl rfl hbl hp
  rw [acc, unblk_zero, List.append_nil] at this
  rw [ht]
  exact this

theorem Gcm.Ready.wf {e : Env} (g : e.Good) {H : BitVec 128} {E J y0 n enc} {st : Gcm} (h : st.Ready e H E J y0 n enc) (hk : st.ctrInit = true → e.engLegal st.key.length = true)
    (he : ∀ k, st.eng = some k → e.engLegal k.1.length = true) : st.Wf e := by
  obtain ⟨k, _, hE⟩ := h.eng
  obtain ⟨k0, k1, _, ab⟩ := h.hash
  obtain ⟨_, _, hb⟩ := ab.buf
  refine ⟨by rw [h.nonce, ← hE, g _ _ _ h.pre], by rw [ab.out, acc, List.append_nil, unblk_length], hb, fun hi => ?_, hk, he⟩
  rw [h.init] at hi; cases hi

/-- `hkey` as two words. -/
theorem hkey_words (E : List Byte → List Byte) (hE : ∀ b, b.length = 16 → (E b).length = 16) :
    ∃ t k0 k1, blit (List.replicate 16 (0 : Byte)) 0 (E (List.replicate 16 0)) = .ok t ∧ beBytesTo64 t 0 = .ok k0 ∧ beBytesTo64 t 8 = .ok k1 ∧ cat k0 k1 = Nist.hkey E := by
  have hE0 := hE (List.replicate 16 0) (by simp)
  have ht : blit (List.replicate 16 (0 : Byte)) 0 (E (List.replicate 16 0)) = .ok (E (List.replicate 16 0)) := by
    have := blit_at (a := []) (b := List.replicate 16 (0 : Byte)) (c := []) (s := E (List.replicate 16 0)) (off := 0) rfl (by rw [hE0]; simp)
    simpa using this
  refine ⟨E (List.replicate 16 0), ?_⟩
  rw [Nist.hkey]
  generalize E (List.replicate 16 0) = h at hE0 ht
  have hsplit : h = [] ++ h.take 8 ++ h.drop 8 := by simp
  have hsplit2 : h = h.take 8 ++ h.drop 8 ++ [] := by simp
  obtain ⟨k0, r0, v0⟩ := C01_be64_read.1 [] (h.take 8) (h.drop 8) (by rw [List.length_take]; omega)
  obtain ⟨k1, r1, v1⟩ := C01_be64_read.1 (h.take 8) (h.drop 8) [] (by rw [List.length_drop]; omega)
  rw [← hsplit] at r0
  rw [← hsplit2, show (h.take 8).length = 8 by rw [List.length_take]; omega] at r1
  refine ⟨k0, k1, ht, r0, r1, ?_⟩
  have e := beVal_append (h.take 8) (h.drop 8)
  rw [List.take_append_drop, show (h.drop 8).length = 8 by rw [List.length_drop]; omega, ← v0, ← v1] at e
  have hlt := beVal_lt h
  rw [hE0] at hlt
  apply BitVec.eq_of_toNat_eq
  rw [cat_toNat, blk, BitVec.toNat_ofNat, Nat.mod_eq_of_lt (by omega), e, show (256 : Nat) ^ 8 = 2 ^ 64 from rfl]

/-- `Initialize` with a key, from any well-formed state. -/
theorem initialize_ok {e : Env} (g : e.Good) {st : Gcm} (w : st.Wf e) (enc : Bool) (key info iv : List Byte) (hkey : key ≠ []) (hl : e.legal key.length = true)
    (hel : e.engLegal key.length = true) (hiv : 8 ≤ iv.length) {p : Profile} (hv : p.Valid) (scheds : Nat → List Nat) (hf : FairFor e p 16 scheds) :
    ∃ st', st.initialize e enc key info iv none p scheds = .ok (none, st') ∧ st'.Wf e ∧
      st'.Ready e (Nist.hkey (e.cip key info)) (e.cip key []) (preBlock (Nist.hkey (e.cip key info)) iv st.nonce) 0 st.aad.length enc ∧
      st'.key = key ∧ st'.ctrInit = true ∧ st'.buf = iv := by
  have hk0 : ¬ key.length = 0 := fun h => hkey (List.eq_nil_of_length_eq_zero h)
  obtain ⟨t, k0, k1, h1, h2, h3, h4⟩ := hkey_words (e.cip key info) (g key info)
  rw [Gcm.initialize, restart_ok w, ok_bind, if_neg (by omega)]
  simp only []
  rw [if_neg hk0, if_neg (by simp [hl]), if_neg (by simp [hel]), h1, ok_bind, h2, ok_bind, h3, ok_bind,
    copy_whole (Holds.self key) rfl (by rw [vresize, List.length_append, List.length_take, List.length_replicate]; omega), ok_bind]
  obtain ⟨st', r1, r2, r3, r4, r5, r6, r7, _⟩ := load_ok g { st with
    aad := List.replicate st.aad.length 0, gh := (⟨0, 0, List.replicate 16 0, 0⟩ : Gh).initialize k0 k1, buf := List.replicate st.buf.length 0, counter := 0,
    tag := List.replicate 16 0, key := key, eng := some (key, info) } w.nonce rfl rfl rfl rfl hel enc iv hv scheds hf
  simp only [Gh.initialize, h4, List.length_replicate] at r2
  refine ⟨st', r1, r2.wf g (fun _ => by rw [r3]; exact hel) (fun k hk => ?_), r2, r3, r4, r7⟩
  rw [r6] at hk
  cases hk
  exact hel

/-- `Initialize` with a nonce only: the hash key is zero. -/
theorem initialize_nonce_ok {e : Env} (g : e.Good) {st : Gcm} (w : st.Wf e) (hci : st.ctrInit = true) (enc : Bool) (info iv : List Byte) (hne : iv ≠ List.replicate st.buf.length 0)
    (hiv : 8 ≤ iv.length) {p : Profile} (hv : p.Valid) (scheds : Nat → List Nat) (hf : FairFor e p 16 scheds) :
    ∃ st', st.initialize e enc [] info iv none p scheds = .ok (none, st') ∧ st'.Wf e ∧
      st'.Ready e 0 (e.cip st.key []) (preBlock 0 iv st.nonce) 0 st.aad.length enc ∧ st'.key = st.key ∧ st'.ctrInit = true ∧ st'.buf = iv := by
  rw [Gcm.initialize, restart_ok w, ok_bind, if_neg (by omega)]
  simp only []
  rw [if_pos (show ([] : List Byte).length = 0 from rfl), if_neg hne, if_neg (by simp [hci])]
  obtain ⟨st', r1, r2, r3, r4, r5, r6, r7, _⟩ := load_ok g { st with
    aad := List.replicate st.aad.length 0, gh := ⟨0, 0, List.replicate 16 0, 0⟩, buf := List.replicate st.buf.length 0, counter := 0,
    tag := List.replicate 16 0 } w.nonce rfl rfl rfl rfl (w.keyed hci) enc iv hv scheds hf
  simp only [List.length_replicate, show cat (0 : BitVec 64) 0 = 0 by decide] at r2
  refine ⟨st', r1, r2.wf g (fun _ => by rw [r3]; exact w.keyed hci) (fun k hk => ?_), r2, r3, r4, r7⟩
  rw [r6] at hk
  cases hk
  exact w.keyed hci

theorem setAssociatedData_ok {e : Env} {H : BitVec 128} {E J enc} {st : Gcm} (h : st.Ready e H E J 0 0 enc) (inp : List Byte) (off : Nat) (aad : List Byte) (hin : Holds inp off aad) :
    ∃ st', st.setAssociatedData e inp off aad.length = .ok (none, st') ∧
      st'.Ready e H E J (eager 16 (Nist.gstep H) 0 (Nist.pad16 aad)).1 aad.length enc ∧ st'.key = st.key ∧ st'.ctrInit = st.ctrInit ∧ st'.eng = st.eng ∧ st'.aad = aad ∧
      st'.buf = st.buf := by
  obtain ⟨k0, k1, hk, ab⟩ := h.hash
  have hout := ab.out
  rw [lazy_short (by simp)] at hout
  rw [Gcm.setAssociatedData, if_neg (by simp [h.init]), if_neg (by rw [h.aad]; simp),
    copy_whole hin rfl (by rw [vresize, List.length_append, List.length_take, List.length_replicate]; omega), ok_bind, hout,
    multiply_ok e.simd st.gh aad [] aad.length aad 0 0 rfl (Holds.self _), ok_bind]
  refine ⟨_, rfl, ⟨h.mode, h.init, rfl, h.counter, h.nonce, h.ctr, h.pre, h.eng, k0, k1, hk, ?_⟩, rfl, rfl, rfl, rfl, rfl⟩
  obtain ⟨_, _, hb⟩ := ab.buf
  have hp := ab.pos
  rw [lazy_short (by simp)] at hp
  have := absorbed_nil (k0 := k0) (k1 := k1) (y0 := (eager 16 (Nist.gstep (cat k0 k1)) 0 (Nist.pad16 aad)).1) (t := []) (g := st.gh) ab.key0 ab.key1 hb hp
  rw [hk] at this
  rw [ab.key0, ab.key1, hk]
  exact this

/-- The state after a finished message. -/
def Gcm.done (st : Gcm) (gh : Gh) (ctr tag : List Byte) : Gcm :=
  { st with aad := [], nonce := List.replicate 16 0, tag := tag, counter := 0, init := false, gh := { gh with buf := List.replicate 16 0, pos := 0 }, ctr := ctr }

/-- `Finalize` once the text `c` was hashed. -/
theorem finalize_ok {e : Env} (g : e.Good) {H : BitVec 128} {E J y0 n enc} {st : Gcm} (h : st.Ready e H E J y0 n enc) (c : List Byte) {k0 k1 : BitVec 64} (hk : cat k0 k1 = H)
    (gh : Gh) (tag ctr : List Byte) (ab : Absorbed k0 k1 y0 [] c gh tag) (cnt : Nat) (hcnt : cnt % 2 ^ 64 = c.length % 2 ^ 64) (pre junk post : List Byte) (hj : junk.length = 16) :
    ({ st with gh := gh, tag := tag, counter := cnt, ctr := ctr } : Gcm).finalize e (pre ++ junk ++ post) pre.length =
      .ok (none, st.done gh ctr (rawTag H E J y0 n c), pre ++ rawTag H E J y0 n c ++ post) := by
  rw [Gcm.finalize, if_neg (by simp [h.init])]
  simp only []
  obtain ⟨buf, hbl, hf⟩ := gh_finalize_ok e.simd ab st.aad.length cnt
  have hl : Nist.lens st.aad.length cnt = Nist.lens n c.length := by
    rw [Nist.lens, Nist.lens, h.aad, ← beEnc_mod 8 (8 * cnt), ← beEnc_mod 8 (8 * c.length)]
    congr 2; omega
  rw [hl, hk] at hf
  obtain ⟨k, hke, hE⟩ := h.eng
  have hnl : st.nonce.length = 16 := by rw [h.nonce, ← hE, g _ _ _ h.pre]
  rw [hf, ok_bind, acc, List.append_nil]
  simp only []
  have hx := xorInto_at (a := []) (d := unblk (Nist.gstep H (eager 16 (Nist.gstep H) y0 (Nist.pad16 c)).1 (Nist.lens n c.length))) (c := []) (off := 0) (n := 16)
    (Holds.self st.nonce) rfl hnl.symm (by rw [hnl, unblk_length])
  simp only [List.nil_append, List.append_nil] at hx
  have htag : xorBytes (unblk (Nist.gstep H (eager 16 (Nist.gstep H) y0 (Nist.pad16 c)).1 (Nist.lens n c.length))) st.nonce = rawTag H E J y0 n c := by rw [h.nonce, rawTag]
  have htl : (rawTag H E J y0 n c).length = 16 := by rw [← htag, xorBytes_length, unblk_length, hnl]; rfl
  rw [hx, htag, ok_bind, gh_clear_ok, ok_bind, clear_whole, ok_bind, copy_at (Holds.self _) rfl htl.symm (by rw [hj, htl]), ok_bind, hnl]
  simp only [Gcm.done, hbl, pure_eq_ok]

theorem rawTag_length {e : Env} (g : e.Good) {H : BitVec 128} {E J y0 n enc} {st : Gcm} (h : st.Ready e H E J y0 n enc) (c : List Byte) : (rawTag H E J y0 n c).length = 16 := by
  obtain ⟨k, hke, hE⟩ := h.eng
  rw [rawTag, xorBytes_length, unblk_length, ← hE, g _ _ _ h.pre]; rfl

theorem verify_ok {e : Env} (g : e.Good) {H : BitVec 128} {E J y0 n enc} {st : Gcm} (h : st.Ready e H E J y0 n enc) (c : List Byte) {k0 k1 : BitVec 64} (hk : cat k0 k1 = H)
    (gh : Gh) (tag : List Byte) (ab : Absorbed k0 k1 y0 [] c gh tag) (cnt : Nat) (hcnt : cnt % 2 ^ 64 = c.length % 2 ^ 64) (inp : List Byte) (off : Nat) (t : List Byte)
    (hin : Holds inp off t) (ht : t.length = 16) :
    ({ st with gh := gh, tag := tag, counter := cnt } : Gcm).verify e inp off =
      .ok (none, st.done gh st.ctr (if rawTag H E J y0 n c = t then t else List.replicate 16 0), decide (rawTag H E J y0 n c = t)) := by
  have htl := rawTag_length g h c
  have hf := finalize_ok g h c hk gh tag st.ctr ab cnt hcnt [] (List.replicate 16 0) [] (by simp)
  simp only [List.nil_append, List.append_nil, List.length_nil] at hf
  rw [Gcm.verify, hf, ok_bind]
  simp only []
  have hcl : clear (st.done gh st.ctr (rawTag H E J y0 n c)).tag 0 16 = .ok (List.replicate 16 0) := by
    have := clear_whole (st.done gh st.ctr (rawTag H E J y0 n c)).tag
    rwa [show (st.done gh st.ctr (rawTag H E J y0 n c)).tag.length = 16 from htl] at this
  rw [hcl, ok_bind]
  have hcmp := C04_compare (rawTag H E J y0 n c) inp 0 off 16 (by omega) (by have := hin.le; omega)
  have hw : (inp.drop off).take 16 = t := by
    obtain ⟨a, b, e1, e2⟩ := hin
    rw [e1, ← e2, ← ht]; simp
  rw [hw, List.drop_zero, List.take_of_length_le (Nat.le_of_eq htl)] at hcmp
  rw [hcmp, ok_bind]
  have hvr : vresize (List.replicate 16 (0 : Byte)) 16 = List.replicate 16 0 := by rw [vresize]; simp
  rw [hvr]
  by_cases heq : rawTag H E J y0 n c = t
  · rw [if_pos (by simp [heq]), if_pos heq, copy_whole (Holds.self _) htl.symm (by rw [htl]; simp), ok_bind, heq]
    simp [Gcm.done]
  · rw [if_neg (by simp [heq]), if_neg heq]
    simp [Gcm.done, heq]

/-- A keystream for texts of `len` bytes: what one CTR call does, whatever the SIMD width. -/
def KeyStream (E : List Byte → List Byte) (p : Profile) (J : List Byte) (len : Nat) (ks n' : List Byte) : Prop :=
  ks.length = len ∧ ∀ (W : Nat) (msg : List Byte), msg.length = len →
    Maps p (ctrTurns W (p.blockSize / p.degree)) (ctrCall ⟨E, E⟩ .ctr W p (beCounter J 1)) msg n' (xorBytes ks msg)

theorem stream_any (E : List Byte → List Byte) (hE : ∀ b, b.length = 16 → (E b).length = 16) {p : Profile} (hv : p.Valid) (J : List Byte) (len : Nat) :
    ∃ ks n', KeyStream E p J len ks n' := by
  obtain ⟨ks, n', h1, _, h3⟩ := ctr_any .ctr ⟨E, E⟩ hE p hv (beCounter J 1) (cnt_length .ctr J 1) len
  exact ⟨ks, n', h1, h3⟩

theorem stream_small (E : List Byte → List Byte) (hE : ∀ b, b.length = 16 → (E b).length = 16) {p : Profile} (hv : p.Valid) (hs : SmallBlock p) (J : List Byte) (len : Nat) :
    KeyStream E p J len (ctrStream E (fun k => beCounter J (1 + k)) len) (beCounter J (1 + (len + 15) / 16)) := by
  have hJ1 : (beCounter J 1).length = 16 := cnt_length .ctr J 1
  have e1 : Kind.ctr.cnt (beCounter J 1) = fun k => beCounter J (1 + k) := by funext k; exact cnt_add .ctr J 1 k
  refine ⟨?_, ?_⟩
  · rw [← e1]
    exact ctrStream_length E hE .ctr (beCounter J 1) len
  · rintro W msg rfl scheds inp io pre junk post hf hin hj
    have := ctrTransform_ok .ctr W ⟨E, E⟩ hE p hv (beCounter J 1) inp msg io hJ1 hin pre junk post pre.length rfl hj (noLostCarry_of_small hv hs _ _) scheds hf
    rw [ctrCall, this, e1]

theorem cipher_ok {e : Env} {H : BitVec 128} {E J y0 n enc} {st s : Gcm} (h : st.Ready e H E J y0 n enc) (h1 : s.eng = st.eng) (h2 : s.ctr = st.ctr) {p : Profile} {ks n' : List Byte}
    (msg : List Byte) (hs : KeyStream E p J msg.length ks n') (scheds : Nat → List Nat) (hf : FairFor e p msg.length scheds) (inp : List Byte) (io : Nat) (hin : Holds inp io msg)
    (pre junk post : List Byte) (hj : junk.length = msg.length) :
    s.cipher e p scheds inp io (pre ++ junk ++ post) pre.length msg.length = .ok ({ s with ctr := n' }, pre ++ xorBytes ks msg ++ post) := by
  obtain ⟨k, hke, hE⟩ := h.eng
  have := hs.2 e.W msg rfl scheds inp io pre junk post hf hin hj
  rw [ctrCall] at this
  rw [Gcm.cipher, h1, hke]
  simp only [hE, h2, h.ctr, this, ok_bind, pure_eq_ok]

/-- Encrypting. -/
theorem seal_ok {e : Env} (g : e.Good) {H : BitVec 128} {E J y0 n} {st : Gcm} (h : st.Ready e H E J y0 n true) {p : Profile} {ks n' : List Byte}
    (msg : List Byte) (hs : KeyStream E p J msg.length ks n') (scheds : Nat → List Nat) (hf : FairFor e p msg.length scheds) (inp : List Byte) (io : Nat) (hin : Holds inp io msg)
    (pre junk post : List Byte) (hj : junk.length = msg.length + 16) :
    ∃ gh, st.transform e p scheds inp io (pre ++ junk ++ post) pre.length msg.length =
      .ok (none, st.done gh n' (rawTag H E J y0 n (xorBytes ks msg)), pre ++ (xorBytes ks msg ++ rawTag H E J y0 n (xorBytes ks msg)) ++ post) := by
  have hxl : (xorBytes ks msg).length = msg.length := by rw [xorBytes_length, hs.1, Nat.min_self]
  have hj1 : (junk.take msg.length).length = msg.length := by rw [List.length_take]; omega
  have hj2 : (junk.drop msg.length).length = 16 := by rw [List.length_drop]; omega
  have e1 : pre ++ junk ++ post = pre ++ junk.take msg.length ++ (junk.drop msg.length ++ post) := by
    simp only [List.append_assoc, List.append_cancel_left_eq]
    rw [← List.append_assoc, List.take_append_drop]
  rw [Gcm.transform, e1]
  simp only []
  rw [if_pos h.mode, cipher_ok h (s := { st with counter := (st.counter + msg.length) % 2 ^ 64 }) rfl rfl msg hs scheds hf inp io hin pre (junk.take msg.length) _ hj1, ok_bind]
  simp only []
  obtain ⟨k0, k1, hk, ab⟩ := h.hash
  obtain ⟨gh, tag, hu, ab2⟩ := gh_update_ok e.simd ab (pre ++ xorBytes ks msg ++ (junk.drop msg.length ++ post)) pre.length (xorBytes ks msg) ⟨pre, _, rfl, rfl⟩
  rw [hxl] at hu
  rw [hu, ok_bind]
  rw [List.nil_append] at ab2
  have hfin := finalize_ok g h (xorBytes ks msg) hk gh tag n' ab2 ((st.counter + msg.length) % 2 ^ 64) (by rw [h.counter, hxl]; omega) (pre ++ xorBytes ks msg)
    (junk.drop msg.length) post hj2
  rw [List.length_append, hxl] at hfin
  refine ⟨gh, ?_⟩
  simp only [List.append_assoc] at hfin ⊢
  exact hfin

/-- Decrypting, with the right tag or another. -/
theorem open_ok {e : Env} (g : e.Good) {H : BitVec 128} {E J y0 n} {st : Gcm} (h : st.Ready e H E J y0 n false) {p : Profile} {ks n' : List Byte}
    (c t : List Byte) (ht : t.length = 16) (hs : KeyStream E p J c.length ks n') (scheds : Nat → List Nat) (hf : FairFor e p c.length scheds) (inp : List Byte) (io : Nat)
    (hin : Holds inp io (c ++ t)) (pre junk post : List Byte) (hj : junk.length = c.length) :
    ∃ gh, st.transform e p scheds inp io (pre ++ junk ++ post) pre.length c.length =
      if rawTag H E J y0 n c = t then .ok (none, st.done gh n' t, pre ++ xorBytes ks c ++ post)
      else .ok (some .authenticationFailure, st.done gh st.ctr (List.replicate 16 0), pre ++ junk ++ post) := by
  obtain ⟨k0, k1, hk, ab⟩ := h.hash
  have hin1 : Holds inp io c := by
    have := hin.takeN c.length
    simpa using this
  have hin2 : Holds inp (io + c.length) t := by
    have := hin.dropN (n := c.length) (by simp)
    simpa using this
  obtain ⟨gh, tag, hu, ab2⟩ := gh_update_ok e.simd ab inp io c hin1
  rw [List.nil_append] at ab2
  have hv := verify_ok g h c hk gh tag ab2 ((st.counter + c.length) % 2 ^ 64) (by rw [h.counter]; omega) inp (io + c.length) t hin2 ht
  refine ⟨gh, ?_⟩
  rw [Gcm.transform]
  simp only []
  rw [if_neg (by simp [h.mode]), hu, ok_bind]
  simp only []
  rw [hv, ok_bind]
  simp only []
  by_cases heq : rawTag H E J y0 n c = t
  · rw [if_pos (by simp [heq]), if_pos heq, if_pos heq,
      cipher_ok h (s := st.done gh st.ctr t) rfl rfl c hs scheds hf inp io hin1 pre junk post hj, ok_bind]
    rfl
  · rw [if_neg (by simp [heq]), if_neg heq, if_neg heq]; rfl

theorem done_wf {e : Env} {st : Gcm} (w : st.Wf e) (gh : Gh) (ctr : List Byte) {tag : List Byte} (ht : tag.length = 16) : (st.done gh ctr tag).Wf e :=
  ⟨by simp [Gcm.done], ht, by simp [Gcm.done], fun _ => ⟨rfl, rfl⟩, w.keyed, w.eng⟩

end Cex.Gcm
