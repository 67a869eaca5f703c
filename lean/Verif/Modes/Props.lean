import Verif.Modes.Session
import Verif.Options.Props

/-!
# Properties C11-C18 of the block cipher modes

Common hypotheses: the cipher maps 16-byte blocks to 16-byte blocks; for ECB and CBC its decryption
inverts its encryption on blocks; the parallel profile satisfies `Profile.Valid` (C19 shows the gate in
`Initialize` guarantees it). `Fair` schedules are all interleavings in which every task completes, which
is what `ParallelFor` waits for.
-/

namespace Cex.Modes
open Cex Cex.Par Cex.Modes.Spec Cex.IntTools

/-- Encryption and decryption are inverse on 16-byte blocks. -/
structure Cipher.Good (c : Cipher) : Prop where
  enc_len : ∀ b, b.length = 16 → (c.enc b).length = 16
  dec_len : ∀ b, b.length = 16 → (c.dec b).length = 16
  inv : ∀ b, b.length = 16 → c.dec (c.enc b) = b

/-- A small cipher to instantiate the theorems with: add one to every byte. -/
def toy : Cipher := ⟨fun b => b.map (· + 1), fun b => b.map (· - 1)⟩

theorem toy_good : toy.Good where
  enc_len := by intro b h; simp [toy, h]
  dec_len := by intro b h; simp [toy, h]
  inv := by intro b _; simp [toy, Function.comp_def, BitVec.add_sub_cancel]

/-- A concrete valid parallel profile: two tasks of two blocks each. -/
def duo : Profile := ⟨true, 64, 2⟩

theorem duo_valid : duo.Valid := fun _ => ⟨by decide, by decide, ⟨2, rfl⟩⟩

theorem duo_small : SmallBlock duo := fun _ => by decide

/-- Encrypting `msg` in any aligned split of calls from state `s` gives ciphertext `ct` and state `s'`, and
decrypting `ct` in any aligned split of calls from `s` gives back `msg` and the same final state. -/
def RoundTrip {σ : Type} (r : Nat) (pe : Profile) (te : Nat) (enc : σ → Call σ) (pd : Profile) (td : Nat) (dec : σ → Call σ)
    (s : σ) (msg : List Byte) : Prop :=
  ∃ ct s', ct.length = msg.length ∧
    (∀ ms, ms.flatten = msg → (∀ m ∈ ms, Aligned r m) → ∃ cs, Session pe te enc s ms s' cs ∧ cs.flatten = ct) ∧
    (∀ cs, cs.flatten = ct → (∀ m ∈ cs, Aligned r m) → ∃ ms, Session pd td dec s cs s' ms ∧ ms.flatten = msg)

theorem roundTrip_of {σ : Type} {r : Nat} {pe pd : Profile} {te td : Nat} {enc dec : σ → Call σ}
    {F G : σ → List Byte → σ × List Byte} {good : σ → Prop} (hf : Follows pe te enc F good r) (hg : Follows pd td dec G good r)
    {s : σ} (hs : good s) {msg : List Byte} (hl : (F s msg).2.length = msg.length) (hi : G s (F s msg).2 = ((F s msg).1, msg)) :
    RoundTrip r pe te enc pd td dec s msg := by
  refine ⟨(F s msg).2, (F s msg).1, hl, ?_, ?_⟩
  · rintro ms rfl ha
    exact hf.session ms s hs ha
  · intro cs hc ha
    have := hg.session cs s hs ha
    rw [hc, hi] at this
    exact this

/-! ## C11 ECB -/

/-- **C11.** ECB: decrypting what was encrypted restores the message, for any split into calls, any SIMD
width and any (different) valid parallel profiles on the two sides, under every schedule. -/
theorem C11_ecb_inverse (c : Cipher) (hc : c.Good) (W W' thr thr' : Nat) (p q : Profile) (hp : p.Valid) (hq : q.Valid)
    (msg : List Byte) (ha : Aligned 16 msg) :
    RoundTrip 16 p (ecbTurns W thr (p.blockSize / p.degree / 16)) (ecbCall W thr p c.enc)
      q (ecbTurns W' thr' (q.blockSize / q.degree / 16)) (ecbCall W' thr' q c.dec) () msg := by
  have hb := pieces_blocks ha
  have hb' : Blocks 16 ((pieces 16 msg).map c.enc) := by
    intro x hx
    obtain ⟨y, hy, rfl⟩ := List.mem_map.mp hx
    exact hc.enc_len _ (hb y hy)
  refine roundTrip_of (ecb_follows W thr p hp c.enc hc.enc_len) (ecb_follows W' thr' q hq c.dec hc.dec_len) trivial ?_ ?_
  · simp only [ecbF]
    rw [hb'.length, List.length_map, ← hb.length, pieces_flatten ha]
  · simp only [ecbF, pieces_of_blocks (by decide : (16 : Nat) ≠ 0) hb', List.map_map]
    have : (pieces 16 msg).map (c.dec ∘ c.enc) = pieces 16 msg := by
      conv => rhs; rw [← List.map_id (pieces 16 msg)]
      exact List.map_congr_left (fun x hx => hc.inv x (hb x hx))
    rw [this, pieces_flatten ha]

/-- **C11.** ECB: every valid parallel profile under every schedule gives the bytes of the sequential engine,
each block being the block function of the corresponding input block. -/
theorem C11_ecb_parallel (g : List Byte → List Byte) (hg : ∀ b, b.length = 16 → (g b).length = 16) (W thr : Nat) (p : Profile)
    (hp : p.Valid) (bs : List (List Byte)) (hb : Blocks 16 bs) :
    Maps p (ecbTurns W thr (p.blockSize / p.degree / 16)) (ecbCall W thr p g ()) bs.flatten () (bs.map g).flatten ∧
    Maps seqProfile 0 (ecbCall 0 0 seqProfile g ()) bs.flatten () (bs.map g).flatten := by
  have h1 := (ecb_follows W thr p hp g hg).maps () bs.flatten trivial (blocks_aligned hb)
  have h2 := (ecb_follows 0 0 seqProfile seqProfile_valid g hg).maps () bs.flatten trivial (blocks_aligned hb)
  simp only [ecbF, pieces_of_blocks (by decide : (16 : Nat) ≠ 0) hb] at h1 h2
  refine ⟨h1, ?_⟩
  intro scheds inp io pre junk post _
  exact h2 scheds inp io pre junk post (fair_seq _ _ _)

example : RoundTrip 16 duo (ecbTurns 4 3 2) (ecbCall 4 3 duo toy.enc) seqProfile (ecbTurns 0 0 0) (ecbCall 0 0 seqProfile toy.dec) ()
    (List.replicate 80 7) :=
  C11_ecb_inverse toy toy_good 4 0 3 0 duo seqProfile duo_valid seqProfile_valid _ ⟨5, by decide⟩

/-! ## C12, C13 CBC -/

theorem cbc_inv (c : Cipher) (hc : c.Good) : ∀ (bs : List (List Byte)) (iv : List Byte), Blocks 16 bs → iv.length = 16 →
    cbcDec c.dec iv (cbcEnc c.enc iv bs) = bs
  | [], _, _, _ => rfl
  | b :: bs, iv, hb, hiv => by
    obtain ⟨h1, h2⟩ := hb.cons
    have hx : (xorBytes iv b).length = 16 := by rw [xorBytes_length, h1, hiv]; rfl
    rw [cbcEnc, cbcDec, cbc_inv c hc bs _ h2 (hc.enc_len _ hx), hc.inv _ hx, xorBytes_comm, xorBytes_cancel (by rw [h1, hiv])]

/-- **C12.** CBC: decrypting with the same IV, in any split of calls, what was encrypted in any split of calls
restores the message, for all valid profiles, SIMD widths and schedules. -/
theorem C12_cbc_inverse (c : Cipher) (hc : c.Good) (W W' : Nat) (p q : Profile) (hq : q.Valid) (t : Nat) (iv msg : List Byte)
    (hiv : iv.length = 16) (ha : Aligned 16 msg) :
    RoundTrip 16 p t (cbcCall c W p true) q (cbcTurns W' (q.blockSize / q.degree / 16)) (cbcCall c W' q false) iv msg := by
  have hb := pieces_blocks ha
  have hb' := cbcEnc_blocks c.enc hc.enc_len _ iv hb hiv
  have hlen : ∀ (bs : List (List Byte)) (iv : List Byte), (cbcEnc c.enc iv bs).length = bs.length := by
    intro bs
    induction bs with
    | nil => intro _; rfl
    | cons b bs ih => intro iv; simp [cbcEnc, ih]
  refine roundTrip_of (cbcEnc_follows c hc.enc_len W p t) (cbcDec_follows c hc.dec_len W' q hq) hiv ?_ ?_
  · simp only [cbcEncF]
    rw [hb'.length, hlen, ← hb.length, pieces_flatten ha]
  · simp only [cbcEncF, cbcDecF, pieces_of_blocks (by decide : (16 : Nat) ≠ 0) hb', cbc_inv c hc _ _ hb hiv, pieces_flatten ha]

/-- **C12.** The ciphertext is the textbook CBC ciphertext. -/
theorem C12_cbc_textbook (c : Cipher) (hE : ∀ b, b.length = 16 → (c.enc b).length = 16) (W : Nat) (p : Profile) (t : Nat)
    (iv : List Byte) (hiv : iv.length = 16) (bs : List (List Byte)) (hb : Blocks 16 bs) :
    Maps p t (cbcCall c W p true iv) bs.flatten (lastOr iv (cbcEnc c.enc iv bs)) (cbcEnc c.enc iv bs).flatten := by
  have h1 := (cbcEnc_follows c hE W p t).maps iv bs.flatten hiv (blocks_aligned hb)
  simp only [cbcEncF, pieces_of_blocks (by decide : (16 : Nat) ≠ 0) hb] at h1
  exact h1

/-- **C13.** CBC decryption: every valid parallel profile under every schedule gives the bytes and the
chaining state of the sequential engine, namely the textbook plaintext and the last ciphertext block. -/
theorem C13_cbc_parallel (c : Cipher) (hD : ∀ b, b.length = 16 → (c.dec b).length = 16) (W : Nat) (p : Profile) (hp : p.Valid)
    (iv : List Byte) (hiv : iv.length = 16) (bs : List (List Byte)) (hb : Blocks 16 bs) :
    Maps p (cbcTurns W (p.blockSize / p.degree / 16)) (cbcCall c W p false iv) bs.flatten (lastOr iv bs) (cbcDec c.dec iv bs).flatten ∧
    Maps seqProfile 0 (cbcCall c 0 seqProfile false iv) bs.flatten (lastOr iv bs) (cbcDec c.dec iv bs).flatten := by
  have h1 := (cbcDec_follows c hD W p hp).maps iv bs.flatten hiv (blocks_aligned hb)
  have h2 := (cbcDec_follows c hD 0 seqProfile seqProfile_valid).maps iv bs.flatten hiv (blocks_aligned hb)
  simp only [cbcDecF, pieces_of_blocks (by decide : (16 : Nat) ≠ 0) hb] at h1 h2
  refine ⟨h1, ?_⟩
  intro scheds inp io pre junk post _
  exact h2 scheds inp io pre junk post (fair_seq _ _ _)

example : RoundTrip 16 seqProfile 0 (cbcCall toy 0 seqProfile true) duo (cbcTurns 4 2) (cbcCall toy 4 duo false)
    (List.replicate 16 9) (List.replicate 144 7) :=
  C12_cbc_inverse toy toy_good 0 4 seqProfile duo duo_valid 0 _ _ (by decide) ⟨9, by simp⟩

/-! ## C14 CFB -/

theorem cfb_inv (E : List Byte → List Byte) (hE : ∀ b, b.length = 16 → (E b).length = 16) {r : Nat} (hr : r ≤ 16) :
    ∀ (bs : List (List Byte)) (s : List Byte), Blocks r bs → s.length = 16 → cfbDec E r s (cfbEnc E r s bs) = bs
  | [], _, _, _ => rfl
  | b :: bs, s, hb, hs => by
    obtain ⟨h1, h2⟩ := hb.cons
    have ht : ((E s).take r).length = b.length := by rw [List.length_take, hE s hs, h1]; omega
    rw [cfbEnc, cfbDec, xorBytes_cancel ht, cfb_inv E hE hr bs _ h2]
    rw [List.length_append, List.length_drop, xorBytes_length, ht, h1, hs]; omega

/-- **C14 (partial).** CFB: decrypting with the same IV and register size `r`, in any split of calls, what was
encrypted in any split of calls restores the message, for messages that are a multiple of `r`. `mm` says
whether `MemoryTools::Copy` behaves like `memmove`; without that `r` must be at least 8. Missing: `r < 8` with
a plain `memcpy` (`C14_small_register_false`) and trailing bytes (`C14_trailing_false`). -/
theorem C14_cfb_inverse_partial (c : Cipher) (hE : ∀ b, b.length = 16 → (c.enc b).length = 16) (mm : Bool) {r : Nat} (hr0 : r ≠ 0)
    (hr : r ≤ 16) (hm : mm = true ∨ 8 ≤ r) (p q : Profile) (hq : q.Valid) (t : Nat) (reg msg : List Byte)
    (hreg : reg.length = 16) (ha : Aligned r msg) :
    RoundTrip r p t (cfbCall c mm r p true) q (q.blockSize / q.degree / 16 + 1) (cfbCall c mm r q false) reg msg := by
  have hb := pieces_blocks ha
  obtain ⟨hb', hl⟩ := cfbEnc_blocks c.enc hE hr _ reg hb hreg
  refine roundTrip_of (cfbEnc_follows c hE mm hr0 hr hm p t) (cfbDec_follows c hE mm hr0 hr hm q hq) hreg ?_ ?_
  · simp only [cfbEncF]
    rw [hb'.length, hl, ← hb.length, pieces_flatten ha]
  · simp only [cfbEncF, cfbDecF, pieces_of_blocks hr0 hb', cfb_inv c.enc hE hr _ _ hb hreg, pieces_flatten ha]

/-- **C14.** The ciphertext is the textbook CFB ciphertext with `r`-byte segments, and `Initialize` sets the
register to the IV, right-aligned and zero-filled. -/
theorem C14_cfb_textbook (c : Cipher) (hE : ∀ b, b.length = 16 → (c.enc b).length = 16) (mm : Bool) {r : Nat} (hr0 : r ≠ 0)
    (hr : r ≤ 16) (hm : mm = true ∨ 8 ≤ r) (p : Profile) (t : Nat) (old iv : List Byte) (hold : old.length = 16)
    (h1 : iv.length ≠ 0) (h2 : iv.length ≤ 16) (bs : List (List Byte)) (hb : Blocks r bs) :
    ∃ reg, cfbInit old iv = .ok reg ∧ reg = List.replicate (16 - iv.length) 0 ++ iv ∧
      Maps p t (cfbCall c mm r p true reg) bs.flatten (cfbReg r reg (cfbEnc c.enc r reg bs)) (cfbEnc c.enc r reg bs).flatten := by
  refine ⟨_, cfbInit_ok old iv hold h1 h2, rfl, ?_⟩
  have := (cfbEnc_follows c hE mm hr0 hr hm p t).maps (List.replicate (16 - iv.length) 0 ++ iv) bs.flatten
    (by simp; omega) (blocks_aligned hb)
  simp only [cfbEncF, pieces_of_blocks hr0 hb] at this
  exact this

/-- Bytes beyond the last whole register are silently left untransformed: the call succeeds and the output
bytes there keep their old content, whatever the input was. -/
theorem C14_trailing_false (c : Cipher) (hE : ∀ b, b.length = 16 → (c.enc b).length = 16) (mm : Bool) (p : Profile)
    (scheds : Nat → List Nat) (reg b tail junk rest : List Byte) (hreg : reg.length = 16) (hb : b.length = 16)
    (ht : tail.length < 16) (hj : junk.length = 16) :
    cfbProcess mm c 16 p scheds true reg (b ++ tail) 0 (junk ++ rest) 0 (16 + tail.length) =
      .ok (xorBytes (c.enc reg) b, xorBytes (c.enc reg) b ++ rest) := by
  have h := cfbEncProcess_ok mm c hE (by decide : (16 : Nat) ≠ 0) (Nat.le_refl 16) (Or.inr (by decide)) p scheds (b ++ tail) 0 0 [b]
    (by intro x hx; simp at hx; rw [hx, hb]) ⟨[], tail, by simp, rfl⟩ reg [] junk rest hreg rfl (by simp [hj])
    (16 + tail.length) (by simp; omega)
  have e : (c.enc reg).take 16 = c.enc reg := List.take_of_length_le (by rw [hE _ hreg]; exact Nat.le_refl _)
  have e2 : reg.drop 16 = [] := List.drop_of_length_le (by omega)
  simpa [cfbEnc, cfbReg, e, e2] using h

example : cfbProcess false toy 16 seqProfile (fun _ => []) true (List.replicate 16 0) (List.replicate 17 5) 0
    (List.replicate 17 0xAA) 0 17 = .ok (List.replicate 16 4, List.replicate 16 4 ++ [0xAA]) := by decide

/-- With a register of fewer than 8 bytes and a `MemoryTools::Copy` that is a `memcpy`, the first block
already has undefined behaviour (overlapping copy). -/
theorem C14_small_register_false (c : Cipher) (hE : ∀ b, b.length = 16 → (c.enc b).length = 16) {r : Nat} (hr0 : r ≠ 0) (hr : r < 8)
    (p : Profile) (scheds : Nat → List Nat) (reg b junk : List Byte) (hreg : reg.length = 16) (hb : b.length = r)
    (hj : junk.length = r) :
    cfbProcess false c r p scheds true reg b 0 junk 0 r = .error .ub := by
  have h16 : r ≤ 16 := by omega
  have hx := hE _ hreg
  have htk : ((c.enc reg).take r).length = r := by rw [List.length_take, hx]; omega
  have hk : Holds (c.enc reg) 0 ((c.enc reg).take r) := ⟨[], (c.enc reg).drop r, by simp, rfl⟩
  have h1 := copy_at (a := []) (b := junk) (c := []) (off := 0) hk rfl htk.symm (by omega)
  have h2 := xorLoop_at b 0 0 b ((c.enc reg).take r) [] [] 0 (Holds.self b) (by omega) rfl
  rw [hb] at h2
  simp only [List.append_nil, List.nil_append] at h1 h2
  simp only [cfbProcess, if_neg hr0, if_true, Nat.div_self (by omega : 0 < r), forActs, List.range'_one, List.map_cons, List.map_nil,
    runActs, Nat.zero_mul, Nat.zero_add, cfbEncBlock,
    cipherBlock_whole (Holds.self reg) hreg hx (by simp : (List.replicate 16 (0 : Byte)).length = 16),
    ok_bind, h1, h2, cfbShift_ub r reg hr hr0]
  rfl

example : RoundTrip 8 seqProfile 0 (cfbCall toy false 8 seqProfile true) duo 3 (cfbCall toy false 8 duo false)
    (List.replicate 16 9) (List.replicate 136 7) :=
  C14_cfb_inverse_partial toy toy_good.enc_len false (by decide) (by decide) (Or.inr (by decide)) seqProfile duo duo_valid 0 _ _
    (by decide) ⟨17, by simp⟩

/-! ## C15 OFB -/

/-- **C15.** OFB: the output is the message XOR a keystream that depends only on the cipher, the IV and the
number of blocks; it is E(IV), E(E(IV)), ... -/
theorem C15_ofb_keystream (c : Cipher) (hE : ∀ b, b.length = 16 → (c.enc b).length = 16) (iv : List Byte) (hiv : iv.length = 16)
    (n : Nat) : ∃ ks iv', ks = (ofbStream c.enc n iv).flatten ∧ ks.length = n * 16 ∧
      ∀ msg, msg.length = n * 16 → Maps seqProfile 0 (ofbCall c iv) msg iv' (xorBytes ks msg) := by
  refine ⟨_, lastOr iv (ofbStream c.enc n iv), rfl, ofbStream_flat_length c.enc hE n iv hiv, ?_⟩
  intro msg hm
  have := (ofb_follows c hE).maps iv msg hiv ⟨n, by rw [hm, Nat.mul_comm]⟩
  simp only [ofbF, hm, Nat.mul_div_cancel n (by decide : 0 < 16)] at this
  exact this

/-- **C15.** OFB is an involution: running it again from the same IV, in any split of calls, restores the message. -/
theorem C15_ofb_involution (c : Cipher) (hE : ∀ b, b.length = 16 → (c.enc b).length = 16) (iv msg : List Byte) (hiv : iv.length = 16)
    (ha : Aligned 16 msg) : RoundTrip 16 seqProfile 0 (ofbCall c) seqProfile 0 (ofbCall c) iv msg := by
  have hl : (xorBytes (ofbStream c.enc (msg.length / 16) iv).flatten msg).length = msg.length := by
    rw [xorBytes_length, ofbStream_flat_length c.enc hE _ _ hiv, ← ha.eq, Nat.min_self]
  refine roundTrip_of (ofb_follows c hE) (ofb_follows c hE) hiv hl ?_
  simp only [ofbF, hl]
  rw [xorBytes_cancel]
  rw [ofbStream_flat_length c.enc hE _ _ hiv, ← ha.eq]

example : RoundTrip 16 seqProfile 0 (ofbCall toy) seqProfile 0 (ofbCall toy) (List.replicate 16 9) (List.replicate 48 7) :=
  C15_ofb_involution toy toy_good.enc_len _ _ (by decide) ⟨3, by decide⟩

/-! ## C16, C17 CTR and ICM -/

/-- **C16.** Sequential CTR (ICM): the output is the message XOR E(nonce), E(nonce+1), ... in big-endian
(little-endian) counting modulo 2^128, cut to the message length, which need not be a multiple of 16; the
nonce afterwards is the old one plus the number of blocks begun. -/
theorem C16_counter_keystream (c : Cipher) (hE : ∀ b, b.length = 16 → (c.enc b).length = 16) (W : Nat) (p : Profile)
    (hp : p.isParallel = false) (t : Nat) (nonce msg : List Byte) (hn : nonce.length = 16) :
    Maps p t (ctrCall c .ctr W p nonce) msg (beCounter nonce ((msg.length + 15) / 16))
      (xorBytes (ctrStream c.enc (beCounter nonce) msg.length) msg) ∧
    Maps p t (ctrCall c .icm W p nonce) msg (leCounter nonce ((msg.length + 15) / 16))
      (xorBytes (ctrStream c.enc (leCounter nonce) msg.length) msg) := by
  have hv : p.Valid := fun h => by rw [hp] at h; cases h
  have key : ∀ k : Kind, Maps p t (ctrCall c k W p nonce) msg (k.cnt nonce ((msg.length + 15) / 16))
      (xorBytes (ctrStream c.enc (k.cnt nonce) msg.length) msg) := by
    intro k scheds inp io pre junk post _ hin hj
    exact ctrTransform_ok k W c hE p hv nonce inp msg io hn hin pre junk post pre.length rfl hj
      (fun h => by rw [hp] at h; cases h) scheds (fun h => by rw [hp] at h; cases h)
  exact ⟨key .ctr, key .icm⟩

/-- **C16.** Transforming twice with the same nonce is the identity, for every length, for all valid profiles
with parallel blocks of at most 1 MB (none for a sequential instance) and all schedules. -/
theorem C16_counter_involution (c : Cipher) (hE : ∀ b, b.length = 16 → (c.enc b).length = 16) (k : Kind) (W W' : Nat) (p q : Profile)
    (hp : p.Valid) (hps : SmallBlock p) (hq : q.Valid) (hqs : SmallBlock q) (nonce msg : List Byte) (hn : nonce.length = 16) :
    ∃ ct n', ct.length = msg.length ∧
      Maps p (ctrTurns W (p.blockSize / p.degree)) (ctrCall c k W p nonce) msg n' ct ∧
      Maps q (ctrTurns W' (q.blockSize / q.degree)) (ctrCall c k W' q nonce) ct n' msg := by
  have hl : (xorBytes (ctrStream c.enc (k.cnt nonce) msg.length) msg).length = msg.length := by
    rw [xorBytes_length, ctrStream_length c.enc hE, Nat.min_self]
  refine ⟨xorBytes (ctrStream c.enc (k.cnt nonce) msg.length) msg, k.cnt nonce ((msg.length + 15) / 16), hl, ?_, ?_⟩
  · intro scheds inp io pre junk post hf hin hj
    exact ctrTransform_ok k W c hE p hp nonce inp msg io hn hin pre junk post pre.length rfl hj
      (noLostCarry_of_small hp hps _ _) scheds hf
  · intro scheds inp io pre junk post hf hin hj
    have := ctrTransform_ok k W' c hE q hq nonce inp _ io hn hin pre junk post pre.length rfl hj
      (noLostCarry_of_small hq hqs _ _) scheds hf
    rw [hl, xorBytes_cancel (by rw [ctrStream_length c.enc hE])] at this
    rw [hl]
    exact this

/-- **C17 (partial).** Parallel CTR/ICM gives the bytes and the final nonce of the sequential engine, for every
valid profile and every schedule, provided no task's counter offset hits the lost-carry case of the
`BeIncrease8`/`LeIncrease8` additions (`NoLostCarry`). Missing: without that proviso it is false
(`C17_ctr_false`, `C17_icm_false`). -/
theorem C17_counter_parallel_partial (c : Cipher) (hE : ∀ b, b.length = 16 → (c.enc b).length = 16) (k : Kind) (W : Nat) (p : Profile)
    (hp : p.Valid) (nonce msg : List Byte) (hn : nonce.length = 16) (hnc : NoLostCarry k p nonce msg.length) :
    ∃ n' ct, Maps p (ctrTurns W (p.blockSize / p.degree)) (ctrCall c k W p nonce) msg n' ct ∧
      Maps seqProfile 0 (ctrCall c k 0 seqProfile nonce) msg n' ct := by
  refine ⟨k.cnt nonce ((msg.length + 15) / 16), xorBytes (ctrStream c.enc (k.cnt nonce) msg.length) msg, ?_, ?_⟩
  · intro scheds inp io pre junk post hf hin hj
    exact ctrTransform_ok k W c hE p hp nonce inp msg io hn hin pre junk post pre.length rfl hj hnc scheds hf
  · have := C16_counter_keystream c hE 0 seqProfile rfl 0 nonce msg hn
    cases k
    · exact this.1
    · exact this.2

/-- **C17 (partial).** In particular for every parallel block size up to 1,044,480 bytes, every nonce and every
message. -/
theorem C17_small_blocks_partial (c : Cipher) (hE : ∀ b, b.length = 16 → (c.enc b).length = 16) (k : Kind) (W : Nat) (p : Profile)
    (hp : p.Valid) (hs : SmallBlock p) (nonce msg : List Byte) (hn : nonce.length = 16) :
    ∃ n' ct, Maps p (ctrTurns W (p.blockSize / p.degree)) (ctrCall c k W p nonce) msg n' ct ∧
      Maps seqProfile 0 (ctrCall c k 0 seqProfile nonce) msg n' ct :=
  C17_counter_parallel_partial c hE k W p hp nonce msg hn (noLostCarry_of_small hp hs _ _)

example : ∃ n' ct, Maps duo (ctrTurns 4 32) (ctrCall toy .ctr 4 duo (List.replicate 16 0xFF)) (List.replicate 150 7) n' ct ∧
    Maps seqProfile 0 (ctrCall toy .ctr 0 seqProfile (List.replicate 16 0xFF)) (List.replicate 150 7) n' ct :=
  C17_small_blocks_partial toy toy_good.enc_len .ctr 4 duo duo_valid duo_small _ _ (by decide)

/-- The identity cipher (any cipher whose blocks differ would do). -/
def idCipher : Cipher := ⟨id, id⟩

/-- A 2-task profile of `2 * m` cipher blocks. -/
def pair (m : Nat) : Profile := ⟨true, 2 * m * 16, 2⟩

/-- `2 x 0xFF10` cipher blocks: about 2 MB, below the 32 MB limit of the modes. -/
abbrev wide : Profile := pair 0xFF10

theorem wide_valid : wide.Valid := fun _ => ⟨by decide, by decide, ⟨0xFF10, by decide⟩⟩

/-- If the second task starts from a wrong counter block, the parallel bytes differ from the sequential ones. -/
theorem C17_wrong_counter (k : Kind) (W m : Nat) (hm0 : m ≠ 0) (nonce J : List Byte) (hn : nonce.length = 16) (h0 : k.jump nonce 0 = .ok nonce)
    (hJ : k.jump nonce m = .ok J) (hJl : J.length = 16) (hne : J ≠ k.cnt nonce m) (msg : List Byte)
    (hm : msg.length = (pair m).blockSize) (junk : List Byte) (hj : junk.length = msg.length) (scheds : Nat → List Nat)
    (hf : Fair (pair m) (ctrTurns W ((pair m).blockSize / (pair m).degree)) msg.length scheds) :
    ∃ n1 n2 o1 o2, ctrCall idCipher k W (pair m) nonce scheds msg 0 junk 0 msg.length = .ok (n1, o1) ∧
      ctrCall idCipher k 0 seqProfile nonce scheds msg 0 junk 0 msg.length = .ok (n2, o2) ∧ o1 ≠ o2 := by
  have hE : ∀ b : List Byte, b.length = 16 → (idCipher.enc b).length = 16 := fun b h => h
  have hb : (pair m).blockSize = 2 * m * 16 := rfl
  have hpos : 0 < (pair m).blockSize := by rw [hb]; omega
  have hd : (pair m).degree = 2 := rfl
  have hsc := hf rfl 0 (by rw [hm, Nat.div_self hpos]; exact Nat.one_pos)
  have hpar := ctrParallel_gen k W idCipher hE (pair m) m (by rw [hd]; decide) (by rw [hb, hd]; omega) rfl nonce msg msg 0 hn (Holds.self msg) hm
    [] junk [] 0 rfl hj (fun i => if i = 0 then nonce else J)
    (by
      intro i hi
      rw [hd] at hi
      rcases (by omega : i = 0 ∨ i = 1) with rfl | rfl
      · simpa using h0
      · simpa using hJ)
    (by
      intro i _
      split
      · exact hn
      · exact hJl)
    (scheds 0) (by rw [show (pair m).blockSize / (pair m).degree = m * 16 by rw [hb, hd]; omega] at hsc; exact hsc)
  have hseq := ctrTransform_ok k 0 idCipher hE seqProfile seqProfile_valid nonce msg msg 0 hn (Holds.self msg) [] junk [] 0 rfl hj
    (fun h => by cases h) scheds (fun h => by cases h)
  simp only [List.nil_append, List.append_nil] at hpar hseq
  have hcall : ctrCall idCipher k W (pair m) nonce scheds msg 0 junk 0 msg.length =
      ctrParallel k W idCipher (pair m) (scheds 0) nonce msg 0 junk 0 (pair m).blockSize := by
    simp only [ctrCall, ctrTransform, hm]
    rw [if_pos ⟨rfl, Nat.le_refl _⟩, if_neg (by omega)]
    simp only [Nat.div_self hpos, loopN, Nat.zero_mul, Nat.add_zero, Nat.zero_add, hpar, ok_bind,
      Nat.mul_one, Nat.sub_self, ne_eq, not_true_eq_false, if_false, pure_eq_ok]
  refine ⟨_, _, _, _, hcall.trans hpar, hseq, ?_⟩
  · intro he
    have hlen : (m * 16 : Nat) + m * 16 = msg.length := by rw [hm, hb]; omega
    have hk0 := ksBlocks_length idCipher.enc hE k nonce m
    have hsp : ctrStream idCipher.enc (k.cnt nonce) msg.length =
        ksBlocks idCipher.enc k nonce m ++ ksBlocks idCipher.enc k (k.cnt nonce m) m := by
      rw [← hlen, ← Nat.add_mul, ctrStream_blocks _ hE, ksBlocks_add]
    have hmsg : msg = msg.take (m * 16) ++ msg.drop (m * 16) := (List.take_append_drop _ _).symm
    rw [hsp] at he
    conv at he => rhs; rw [hmsg]
    rw [xorBytes_append (by rw [hk0, List.length_take]; omega)] at he
    simp only [hd, flatW, List.range_succ, List.range_zero, List.nil_append, List.flatMap_append, List.flatMap_cons, List.flatMap_nil,
      List.append_nil, if_true, Nat.zero_mul, List.drop_zero, Nat.one_mul, Nat.one_ne_zero, if_false] at he
    have he2 := List.append_cancel_left he
    have hdl : (msg.drop (m * 16)).length = m * 16 := by rw [List.length_drop]; omega
    rw [List.take_of_length_le (by omega)] at he2
    have hc1 := xorBytes_cancel' (a := ksBlocks idCipher.enc k J m) (b := msg.drop (m * 16))
      (by rw [ksBlocks_length _ hE, hdl])
    have hc2 := xorBytes_cancel' (a := ksBlocks idCipher.enc k (k.cnt nonce m) m) (b := msg.drop (m * 16))
      (by rw [ksBlocks_length _ hE, hdl])
    rw [he2, hc2] at hc1
    obtain ⟨n, rfl⟩ : ∃ n, m = 1 + n := ⟨m - 1, by omega⟩
    have hone : ∀ x : List Byte, x.length = 16 → ksBlocks idCipher.enc k x 1 = x := by
      intro x hx
      simp [ksBlocks, idCipher, cnt_zero k hx]
    rw [ksBlocks_add, ksBlocks_add _ _ J, hone J hJl, hone _ (cnt_length _ _ _)] at hc1
    have := List.append_inj_left hc1 (by rw [cnt_length, hJl])
    exact hne this.symm

/-- The full C17 is false for CTR: with a 2 MB parallel block, nonce 00..00F8 and any message of that length, the
parallel output differs from the sequential output. -/
theorem C17_ctr_false (W : Nat) (msg : List Byte) (hm : msg.length = wide.blockSize) (junk : List Byte)
    (hj : junk.length = msg.length) (scheds : Nat → List Nat)
    (hf : Fair wide (ctrTurns W (wide.blockSize / wide.degree)) msg.length scheds) :
    ∃ n1 n2 o1 o2,
      ctrCall idCipher .ctr W wide (List.replicate 15 0 ++ [0xF8]) scheds msg 0 junk 0 msg.length = .ok (n1, o1) ∧
      ctrCall idCipher .ctr 0 seqProfile (List.replicate 15 0 ++ [0xF8]) scheds msg 0 junk 0 msg.length = .ok (n2, o2) ∧ o1 ≠ o2 :=
  C17_wrong_counter .ctr W 0xFF10 (by decide) _ (List.replicate 14 0 ++ [0, 8]) (by decide) (by decide) (by decide) (by decide) (by decide) msg hm junk hj
    scheds hf

/-- The full C17 is false for ICM. -/
theorem C17_icm_false (W : Nat) (msg : List Byte) (hm : msg.length = wide.blockSize) (junk : List Byte)
    (hj : junk.length = msg.length) (scheds : Nat → List Nat)
    (hf : Fair wide (ctrTurns W (wide.blockSize / wide.degree)) msg.length scheds) :
    ∃ n1 n2 o1 o2,
      ctrCall idCipher .icm W wide (0xF8 :: List.replicate 15 0) scheds msg 0 junk 0 msg.length = .ok (n1, o1) ∧
      ctrCall idCipher .icm 0 seqProfile (0xF8 :: List.replicate 15 0) scheds msg 0 junk 0 msg.length = .ok (n2, o2) ∧ o1 ≠ o2 :=
  C17_wrong_counter .icm W 0xFF10 (by decide) _ ([8, 0] ++ List.replicate 14 0) (by decide) (by decide) (by decide) (by decide) (by decide) msg hm junk hj
    scheds hf

/-! ## C18 chunked calls -/

/-- Several calls give the same bytes and end state as one call over the concatenation. -/
def ChunkFree {σ : Type} (r : Nat) (p : Profile) (t : Nat) (f : σ → Call σ) (s : σ) : Prop :=
  ∀ ms : List (List Byte), (∀ m ∈ ms, Aligned r m) →
    ∃ s' rs, Session p t f s ms s' rs ∧ Maps p t (f s) ms.flatten s' rs.flatten

theorem chunkFree_of {σ : Type} {r : Nat} {p : Profile} {t : Nat} {f : σ → Call σ} {F : σ → List Byte → σ × List Byte}
    {good : σ → Prop} (h : Follows p t f F good r) {s : σ} (hs : good s) : ChunkFree r p t f s := by
  intro ms ha
  obtain ⟨rs, h1, h2⟩ := h.session ms s hs ha
  exact ⟨_, rs, h1, by rw [h2]; exact h.maps s _ hs (aligned_flatten ha)⟩

/-- **C18.** ECB, CBC, CFB (`r`-byte registers) and OFB: chunked calls equal one call. -/
theorem C18_chunked (c : Cipher) (hE : ∀ b, b.length = 16 → (c.enc b).length = 16) (hD : ∀ b, b.length = 16 → (c.dec b).length = 16)
    (W thr : Nat) (p : Profile) (hp : p.Valid) (iv : List Byte) (hiv : iv.length = 16) :
    ChunkFree 16 p (ecbTurns W thr (p.blockSize / p.degree / 16)) (ecbCall W thr p c.enc) () ∧
    ChunkFree 16 p (ecbTurns W thr (p.blockSize / p.degree / 16)) (ecbCall W thr p c.dec) () ∧
    ChunkFree 16 p 0 (cbcCall c W p true) iv ∧
    ChunkFree 16 p (cbcTurns W (p.blockSize / p.degree / 16)) (cbcCall c W p false) iv ∧
    ChunkFree 16 seqProfile 0 (ofbCall c) iv ∧
    (∀ mm r, r ≠ 0 → r ≤ 16 → (mm = true ∨ 8 ≤ r) →
      ChunkFree r p 0 (cfbCall c mm r p true) iv ∧
      ChunkFree r p (p.blockSize / p.degree / 16 + 1) (cfbCall c mm r p false) iv) :=
  ⟨chunkFree_of (ecb_follows W thr p hp c.enc hE) trivial, chunkFree_of (ecb_follows W thr p hp c.dec hD) trivial,
   chunkFree_of (cbcEnc_follows c hE W p 0) hiv, chunkFree_of (cbcDec_follows c hD W p hp) hiv, chunkFree_of (ofb_follows c hE) hiv,
   fun mm _ h0 h16 hm => ⟨chunkFree_of (cfbEnc_follows c hE mm h0 h16 hm p 0) hiv, chunkFree_of (cfbDec_follows c hE mm h0 h16 hm p hp) hiv⟩⟩

/-- **C18 (partial).** CTR and ICM: chunked calls equal one call, for parallel blocks of at most 1 MB. Missing: larger
parallel blocks, where the lost carry of C17 makes the bytes depend on the call structure. -/
theorem C18_chunked_counter_partial (c : Cipher) (hE : ∀ b, b.length = 16 → (c.enc b).length = 16) (k : Kind) (W : Nat) (p : Profile)
    (hp : p.Valid) (hs : SmallBlock p) (nonce : List Byte) (hn : nonce.length = 16) :
    ChunkFree 16 p (ctrTurns W (p.blockSize / p.degree)) (ctrCall c k W p) nonce :=
  chunkFree_of (ctr_follows c hE k W p hp hs) hn

/-- A chunk that is not block aligned breaks counter-mode streaming: the rest of its last keystream block is
thrown away, so `[1 byte][1 byte]` is not `[2 bytes]`. -/
theorem C18_unaligned_false : ∃ n1 a n2 b n3 d nonce,
    ctrCall idCipher .ctr 0 seqProfile nonce (fun _ => []) [0] 0 [0] 0 1 = .ok (n1, a) ∧
    ctrCall idCipher .ctr 0 seqProfile n1 (fun _ => []) [0] 0 [0] 0 1 = .ok (n2, b) ∧
    ctrCall idCipher .ctr 0 seqProfile nonce (fun _ => []) [0, 0] 0 [0, 0] 0 2 = .ok (n3, d) ∧ a ++ b ≠ d :=
  ⟨List.replicate 16 0 |>.set 0 1 |>.set 1 2 |>.set 15 1, [1], List.replicate 16 0 |>.set 0 1 |>.set 1 2 |>.set 15 2, [1],
    List.replicate 16 0 |>.set 0 1 |>.set 1 2 |>.set 15 1, [1, 2], List.replicate 16 0 |>.set 0 1 |>.set 1 2,
    by decide, by decide, by decide, by decide⟩

end Cex.Modes
