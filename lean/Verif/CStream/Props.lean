import Verif.CStream.Engines

/-!
# Property C39: what is written through an encrypting cipher stream is recovered through a decrypting one

It holds for messages that do not end on a block boundary (and, in the counter modes, for every message that is not one block). It fails for the others: one block is not processed at all,
and longer ones get no padding although the decrypting side removes one.
-/

namespace Cex.CStream
open Cex Cex.Kdf Cex.Streams Cex.Padding Cex.Modes Cex.Modes.Spec Cex.Par

/-- An encrypting engine and a decrypting engine of the same mode, on instances that may differ in SIMD width and parallel profile, under fair schedules. -/
inductive Mode (c : Cipher) : Eng (List Byte × Nat) → Eng (List Byte × Nat) → Prop
  | cbc (W W' : Nat) (p q : Profile) (sp sq : Nat → Nat → List Nat) : p.Valid → q.Valid → AllFair p 0 sp → AllFair q (cbcTurns W' (q.blockSize / q.degree / 16)) sq → Mode c (cbcEnc c W p sp) (cbcDec c W' q sq)
  | cfb (mm mm' : Bool) (p q : Profile) (sp sq : Nat → Nat → List Nat) : p.Valid → q.Valid → AllFair p 0 sp → AllFair q (q.blockSize / q.degree / 16 + 1) sq → Mode c (cfbEnc c mm p sp) (cfbDec c mm' q sq)
  | ofb : Mode c (ofb c) (ofb c)

/-- The paddings of the library. -/
inductive IsPad : Pad → Prop
  | pkcs7 : IsPad ⟨pkcs7Add, pkcs7Get⟩
  | x923 : IsPad ⟨x923Add, x923Get⟩
  | esp : IsPad ⟨espAdd, espGet⟩
  | zeroOne : IsPad ⟨zeroOneAdd, zeroOneGet⟩

theorem pad_laws {P : Pad} (h : IsPad P) : ∃ pad, PadsWith P.add pad ∧ (∀ k, 0 < k → (pad k).length = k)
    ∧ ∀ msg, msg.length < 16 → P.get (msg ++ pad (16 - msg.length)) = .ok (BitVec.ofNat 64 msg.length) := by
  cases h with
  | pkcs7 => exact ⟨pkcs7Pad, C06_pkcs7_add, fun k _ => by simp [pkcs7Pad], fun msg h => (C06_pkcs7_roundtrip msg [] (16 - msg.length) 0 (by omega) (by omega) (by omega) (by omega) (by omega)).2⟩
  | x923 => exact ⟨x923Pad, C07_x923_add, fun k _ => by simp [x923Pad]; omega, fun msg h => (C07_x923_roundtrip msg [] (16 - msg.length) 0 (by omega) (by omega) (by omega) (by omega) (by omega)).2⟩
  | esp => exact ⟨espPad, C08_esp_add, fun k _ => by simp [espPad], fun msg h => (C08_esp_roundtrip msg [] (16 - msg.length) 0 (by omega) (by omega) (by omega) (by omega)).2⟩
  | zeroOne => exact ⟨zeroOnePad, C09_zeroOne_add, fun k _ => by simp [zeroOnePad]; omega, fun msg h => (C09_zeroOne_roundtrip msg [] (16 - msg.length) 0 (by omega) (by omega)).2⟩

/-- What the two engines of a mode do. -/
structure Laws (e d : Eng (List Byte × Nat)) (F G : List Byte → List Byte → List Byte × List Byte) : Prop where
  enc : Does e Prod.fst (fun iv => iv.length = 16) F
  encB : BlockDoes e Prod.fst (fun iv => iv.length = 16) F
  encS : e.blk = 16
  dec : Does d Prod.fst (fun iv => iv.length = 16) G
  decB : BlockDoes d Prod.fst (fun iv => iv.length = 16) G
  decS : d.blk = 16
  back : ∀ iv m, iv.length = 16 → 16 ∣ m.length → (G iv (F iv m).2).2 = m

theorem mode_laws {c : Cipher} (hc : c.Good) {e d : Eng (List Byte × Nat)} (h : Mode c e d) : ∃ F G, Laws e d F G := by
  cases h with
  | cbc W W' p q sp sq hp hq fp fq =>
    exact ⟨_, _, cbcEnc_does hc.enc_len W hp fp, cbcEnc_block hc.enc_len W p sp, rfl, cbcDec_does hc.dec_len W' hq fq, cbcDec_block hc.dec_len W' q sq, rfl, fun iv m h1 h2 => cbc_back hc iv m h1 h2⟩
  | cfb mm mm' p q sp sq hp hq fp fq =>
    exact ⟨_, _, cfbEnc_does hc.enc_len mm hp fp, cfbEnc_block hc.enc_len mm p sp, rfl, cfbDec_does hc.enc_len mm' hq fq, cfbDec_block hc.enc_len mm' q sq, rfl, fun iv m h1 h2 => cfb_back hc.enc_len iv m h1 h2⟩
  | ofb => exact ⟨_, _, ofb_does hc.enc_len, ofb_block hc.enc_len, rfl, ofb_does hc.enc_len, ofb_block hc.enc_len, rfl, fun iv m h1 h2 => ofb_back hc.enc_len iv m h1 h2⟩

theorem padded_length {pad : Nat → List Byte} (hpl : ∀ k, 0 < k → (pad k).length = k) (m : List Byte) : (m ++ pad (16 - m.length % 16)).length = (m.length / 16 + 1) * 16 := by
  rw [List.length_append, hpl _ (by omega)]; omega

theorem last_block {pad : Nat → List Byte} (m : List Byte) : (m ++ pad (16 - m.length % 16)).drop (m.length / 16 * 16) = m.drop (m.length / 16 * 16) ++ pad (16 - (m.drop (m.length / 16 * 16)).length) := by
  rw [List.drop_append_of_le_length (by omega), List.length_drop, show m.length - m.length / 16 * 16 = m.length % 16 by omega]

theorem ofNat_small {n : Nat} (h : n < 16) : (BitVec.ofNat 64 n).toNat = n := by rw [BitVec.toNat_ofNat, Nat.mod_eq_of_lt (by omega)]

/-- **C39**, arrays. A message that does not end on a block boundary comes back exactly, for every cipher, mode and padding, whatever precedes input and ciphertext in their arrays and whatever the output arrays
hold, as long as they are large enough. Missing from the full claim: messages of whole blocks (see `C39_one_block_false`, `C39_aligned_false`). -/
theorem C39_array_partial {c : Cipher} (hc : c.Good) {e d : Eng (List Byte × Nat)} (hm : Mode c e d) {P : Pad} (hP : IsPad P) (iv : List Byte) (hiv : iv.length = 16) (k k' : Nat)
    (head head' m out out' : List Byte) (hn : m.length % 16 ≠ 0) (ho : m.length / 16 * 16 ≤ out.length) (ho' : m.length ≤ out'.length) :
    ∃ s s' ct, writeArray e P false true (iv, k) (head ++ m) head.length out 0 = .ok (s, ct) ∧ ct.length = (m.length / 16 + 1) * 16
      ∧ writeArray d P false false (iv, k') (head' ++ ct) head'.length out' 0 = .ok (s', m) := by
  obtain ⟨F, G, L⟩ := mode_laws hc hm
  obtain ⟨pad, hadd, hpl, hget⟩ := pad_laws hP
  obtain ⟨s, h1, _⟩ := array_encrypt L.enc L.encB hadd hpl (iv, k) hiv head m out (by rw [L.encS]; exact hn) (by rw [L.encS]; exact ho)
  rw [L.encS] at h1
  have hpadl := padded_length hpl m
  have hl : (F iv (m ++ pad (16 - m.length % 16))).2.length = (m.length / 16 + 1) * 16 := by rw [L.enc.len _ _ hiv (by rw [L.encS, hpadl]; exact Nat.dvd_mul_left _ _), hpadl]
  have hb := L.back iv _ hiv (by rw [hpadl]; exact Nat.dvd_mul_left _ _ : 16 ∣ (m ++ pad (16 - m.length % 16)).length)
  have hsmall : (m.drop (m.length / 16 * 16)).length < 16 := by rw [List.length_drop]; omega
  obtain ⟨s', h2, _⟩ := array_decrypt L.dec L.decB P (iv, k') hiv head' (F iv (m ++ pad (16 - m.length % 16))).2 out' (by rw [L.decS, hl]; exact Nat.dvd_mul_left _ _) (by omega)
    (BitVec.ofNat 64 (m.drop (m.length / 16 * 16)).length)
    (by
      show P.get ((G iv _).2.drop _) = _
      rw [hb, hl, L.decS, show (m.length / 16 + 1) * 16 - 16 = m.length / 16 * 16 by omega, last_block, hget _ hsmall])
    (by rw [ofNat_small hsmall, L.decS]; omega) (by rw [ofNat_small hsmall, L.decS, hl, List.length_drop]; omega)
  refine ⟨s, s', _, h1, hl, ?_⟩
  rw [h2]
  show Except.ok (s', (G iv _).2.take _) = _
  rw [hb, hl, L.decS, ofNat_small hsmall, List.length_drop, show (m.length / 16 + 1) * 16 - 16 + (m.length - m.length / 16 * 16) = m.length by omega, List.take_left]

/-- **C39**, streams. The same for what is left to be read of an input stream: the ciphertext appears in the output stream at its position, and from any stream with that ciphertext ahead the message is written to any output stream. -/
theorem C39_stream_partial {c : Cipher} (hc : c.Good) {e d : Eng (List Byte × Nat)} (hm : Mode c e d) {P : Pad} (hP : IsPad P) (iv : List Byte) (hiv : iv.length = 16) (k k' : Nat)
    (ins outs : MemStream) (m : List Byte) (hn : m.length % 16 ≠ 0) (hr : Ready ins outs m 16) :
    ∃ s ct, writeStream e P false true (iv, k) ins outs = .ok (s, ⟨ins.data, ins.data.length⟩, wrote outs ct) ∧ ct.length = (m.length / 16 + 1) * 16
      ∧ ∀ ins' outs', Ready ins' outs' ct 0 → ∃ s', writeStream d P false false (iv, k') ins' outs' = .ok (s', ⟨ins'.data, ins'.data.length⟩, wrote outs' m) := by
  obtain ⟨F, G, L⟩ := mode_laws hc hm
  obtain ⟨pad, hadd, hpl, hget⟩ := pad_laws hP
  obtain ⟨s, h1, _⟩ := stream_encrypt L.enc L.encB hadd hpl (iv, k) hiv ins outs m (by rw [L.encS]; exact hr) (by rw [L.encS]; exact hn)
  rw [L.encS] at h1
  have hpadl := padded_length hpl m
  have hl : (F iv (m ++ pad (16 - m.length % 16))).2.length = (m.length / 16 + 1) * 16 := by rw [L.enc.len _ _ hiv (by rw [L.encS, hpadl]; exact Nat.dvd_mul_left _ _), hpadl]
  have hb := L.back iv _ hiv (by rw [hpadl]; exact Nat.dvd_mul_left _ _ : 16 ∣ (m ++ pad (16 - m.length % 16)).length)
  have hsmall : (m.drop (m.length / 16 * 16)).length < 16 := by rw [List.length_drop]; omega
  refine ⟨s, _, h1, hl, fun ins' outs' hr' => ?_⟩
  obtain ⟨s', h2, _⟩ := stream_decrypt L.dec L.decB P (iv, k') hiv ins' outs' (F iv (m ++ pad (16 - m.length % 16))).2 hr' (by rw [L.decS, hl]; exact Nat.dvd_mul_left _ _) (by omega)
    (BitVec.ofNat 64 (m.drop (m.length / 16 * 16)).length)
    (by
      show P.get ((G iv _).2.drop _) = _
      rw [hb, hl, L.decS, show (m.length / 16 + 1) * 16 - 16 = m.length / 16 * 16 by omega, last_block, hget _ hsmall])
    (by rw [ofNat_small hsmall, L.decS]; omega)
  refine ⟨s', ?_⟩
  rw [h2]
  show Except.ok (s', _, wrote outs' ((G iv _).2.take _)) = _
  rw [hb, hl, L.decS, ofNat_small hsmall, List.length_drop, show (m.length / 16 + 1) * 16 - 16 + (m.length - m.length / 16 * 16) = m.length by omega, List.take_left]

/-- The ciphertext is the textbook one: CBC over the message with PKCS#7 padding. -/
theorem C39_cbc_textbook {c : Cipher} (hE : ∀ b, b.length = 16 → (c.enc b).length = 16) (W : Nat) {p : Profile} (hp : p.Valid) {sp : Nat → Nat → List Nat} (fp : AllFair p 0 sp) (iv : List Byte) (hiv : iv.length = 16) (k : Nat)
    (head m out : List Byte) (hn : m.length % 16 ≠ 0) (ho : m.length / 16 * 16 ≤ out.length) :
    ∃ s, writeArray (cbcEnc c W p sp) ⟨pkcs7Add, pkcs7Get⟩ false true (iv, k) (head ++ m) head.length out 0
      = .ok (s, (Spec.cbcEnc c.enc iv (pieces 16 (m ++ pkcs7Pad (16 - m.length % 16)))).flatten) := by
  obtain ⟨s, h1, _⟩ := array_encrypt (p := ⟨pkcs7Add, pkcs7Get⟩) (cbcEnc_does hE W hp fp) (cbcEnc_block hE W p sp) C06_pkcs7_add (fun k _ => by simp [pkcs7Pad]) (iv, k) hiv head m out hn ho
  exact ⟨s, h1⟩

/-! ## Counter modes -/

/-- **C39**, CTR and ICM, arrays and streams: every message except those of one block. (Parallel blocks of at most 1 MB; beyond, C17 fails.) -/
theorem C39_counter_partial {c : Cipher} (hE : ∀ b, b.length = 16 → (c.enc b).length = 16) (kd : Modes.Kind) (W W' : Nat) {p q : Profile} (hp : p.Valid) (hq : q.Valid) (sp : SmallBlock p) (sq : SmallBlock q)
    {fp fq : Nat → Nat → List Nat} (ap : AllFair p (ctrTurns W (p.blockSize / p.degree)) fp) (aq : AllFair q (ctrTurns W' (q.blockSize / q.degree)) fq) (P : Pad) (nonce : List Byte) (hn : nonce.length = 16) (k k' : Nat) (enc enc' : Bool)
    (m : List Byte) (hm : m.length ≠ 16) :
    (∀ head head' out out' : List Byte, m.length ≤ out.length → m.length ≤ out'.length → ∃ s s' ct,
      writeArray (counter c kd W p fp) P true enc (nonce, k) (head ++ m) head.length out 0 = .ok (s, ct ++ out.drop m.length) ∧ ct.length = m.length
        ∧ writeArray (counter c kd W' q fq) P true enc' (nonce, k') (head' ++ ct) head'.length out' 0 = .ok (s', m ++ out'.drop m.length))
    ∧ ∀ ins outs, Ready ins outs m 0 → ∃ s ct, writeStream (counter c kd W p fp) P true enc (nonce, k) ins outs = .ok (s, ⟨ins.data, ins.data.length⟩, wrote outs ct) ∧ ct.length = m.length
        ∧ ∀ ins' outs', Ready ins' outs' ct 0 → ∃ s', writeStream (counter c kd W' q fq) P true enc' (nonce, k') ins' outs' = .ok (s', ⟨ins'.data, ins'.data.length⟩, wrote outs' m) := by
  have fe := counter_fluid hE kd W hp sp ap
  have fd := counter_fluid hE kd W' hq sq aq
  have hl := ctr_len hE kd nonce m
  have hb := ctr_back hE kd nonce m
  constructor
  · intro head head' out out' ho ho'
    obtain ⟨s, h1, _⟩ := array_counter fe P enc (nonce, k) hn head m out hm ho
    obtain ⟨s', h2, _⟩ := array_counter fd P enc' (nonce, k') hn head' (ctrF c kd nonce m).2 out' (by rw [hl]; exact hm) (by rw [hl]; exact ho')
    refine ⟨s, s', _, h1, hl, ?_⟩
    rw [h2]
    show Except.ok (s', (ctrF c kd nonce _).2 ++ _) = _
    rw [hb, hl]
  · intro ins outs hr
    obtain ⟨s, h1, _⟩ := stream_counter fe P enc (nonce, k) hn ins outs m hr hm
    refine ⟨s, _, h1, hl, fun ins' outs' hr' => ?_⟩
    obtain ⟨s', h2, _⟩ := stream_counter fd P enc' (nonce, k') hn ins' outs' (ctrF c kd nonce m).2 hr' (by rw [hl]; exact hm)
    refine ⟨s', ?_⟩
    rw [h2]
    show Except.ok (s', _, wrote outs' (ctrF c kd nonce _).2) = _
    rw [hb]

/-! ## What goes wrong -/

/-- The full claim fails for a message of one block, in every mode and with every padding: nothing is encrypted, the output keeps whatever it held (and a stream is not even read). -/
theorem C39_one_block_false {c : Cipher} (hc : c.Good) {e d : Eng (List Byte × Nat)} (hm : Mode c e d) (P : Pad) (s : List Byte × Nat) (head m out : List Byte) (oo : Nat) (hn : m.length = 16) :
    writeArray e P false true s (head ++ m) head.length out oo = .ok (s, out)
      ∧ ∀ ins outs, Ready ins outs m 0 → writeStream e P false true s ins outs = .ok (s, ins, outs) := by
  obtain ⟨F, G, L⟩ := mode_laws hc hm
  exact ⟨array_one_block L.enc P false true rfl s head m out (by rw [L.encS]; exact hn) oo, fun ins outs hr => stream_one_block L.enc P false true rfl s ins outs m hr (by rw [L.encS]; exact hn)⟩

/-- The same in the counter modes. -/
theorem C39_one_block_counter_false {c : Cipher} (hE : ∀ b, b.length = 16 → (c.enc b).length = 16) (kd : Modes.Kind) (W : Nat) {p : Profile} (hp : p.Valid) (sp : SmallBlock p)
    {fp : Nat → Nat → List Nat} (ap : AllFair p (ctrTurns W (p.blockSize / p.degree)) fp) (P : Pad) (enc : Bool) (s : List Byte × Nat) (head m out : List Byte) (oo : Nat) (hn : m.length = 16) :
    writeArray (counter c kd W p fp) P true enc s (head ++ m) head.length out oo = .ok (s, out)
      ∧ ∀ ins outs, Ready ins outs m 0 → writeStream (counter c kd W p fp) P true enc s ins outs = .ok (s, ins, outs) := by
  have L := (counter_fluid hE kd W hp sp ap).toDoes
  exact ⟨array_one_block L P true enc rfl s head m out hn oo, fun ins outs hr => stream_one_block L P true enc rfl s ins outs m hr hn⟩

/-- A message of two or more whole blocks is encrypted without padding, and decryption removes what it takes for padding: it comes back exactly when the padding scheme finds no padding in its last block. -/
theorem C39_aligned {c : Cipher} (hc : c.Good) {e d : Eng (List Byte × Nat)} (hm : Mode c e d) (P : Pad) (iv : List Byte) (hiv : iv.length = 16) (k k' : Nat)
    (head head' m out out' : List Byte) (hn : 16 ∣ m.length) (h2 : 16 < m.length) (ho : out.length = m.length) (ho' : out'.length = m.length) (g : BitVec 64) (hg : P.get (m.drop (m.length - 16)) = .ok g) (hg16 : g.toNat ≤ 16) :
    ∃ s s' ct r, writeArray e P false true (iv, k) (head ++ m) head.length out 0 = .ok (s, ct) ∧ ct.length = m.length
      ∧ writeArray d P false false (iv, k') (head' ++ ct) head'.length out' 0 = .ok (s', r) ∧ r = m.take (m.length - 16 + g.toNat) ∧ (r = m ↔ g.toNat = 16) := by
  obtain ⟨F, G, L⟩ := mode_laws hc hm
  obtain ⟨s, h1, _⟩ := array_aligned L.enc P false true rfl (iv, k) hiv head m out (by rw [L.encS]; exact hn) (by rw [L.encS]; omega) (by omega)
  rw [List.drop_of_length_le (by omega), List.append_nil] at h1
  have hl : (F iv m).2.length = m.length := L.enc.len _ _ hiv (by rw [L.encS]; exact hn)
  have hb := L.back iv m hiv hn
  obtain ⟨s', h3, _⟩ := array_decrypt L.dec L.decB P (iv, k') hiv head' (F iv m).2 out' (by rw [L.decS, hl]; exact hn) (by omega) g
    (by show P.get ((G iv _).2.drop _) = _; rw [hb, hl, L.decS, hg]) (by rw [L.decS]; exact hg16) (by rw [L.decS, hl]; omega)
  refine ⟨s, s', _, m.take (m.length - 16 + g.toNat), h1, hl, ?_, rfl, ?_⟩
  · rw [h3]
    show Except.ok (s', (G iv _).2.take _) = _
    rw [hb, hl, L.decS]
  · constructor
    · intro he
      have := congrArg List.length he
      rw [List.length_take] at this; omega
    · intro he
      exact List.take_of_length_le (by omega)

/-- So with PKCS#7 a message of two or more whole blocks that ends with the byte 1 loses that byte, in every mode. -/
theorem C39_aligned_false {c : Cipher} (hc : c.Good) {e d : Eng (List Byte × Nat)} (hm : Mode c e d) (iv : List Byte) (hiv : iv.length = 16) (k k' : Nat)
    (m out out' : List Byte) (hn : 16 ∣ m.length + 1) (h2 : 16 < m.length + 1) (ho : out.length = m.length + 1) (ho' : out'.length = m.length + 1) :
    ∃ s s' ct, writeArray e ⟨pkcs7Add, pkcs7Get⟩ false true (iv, k) (m ++ [1#8]) 0 out 0 = .ok (s, ct)
      ∧ writeArray d ⟨pkcs7Add, pkcs7Get⟩ false false (iv, k') ct 0 out' 0 = .ok (s', m) := by
  have hl : (m ++ [1#8]).length = m.length + 1 := by rw [List.length_append, List.length_singleton]
  have hd : (m ++ [1#8]).drop (m.length + 1 - 16) = m.drop (m.length - 15) ++ pkcs7Pad 1 := by
    rw [show m.length + 1 - 16 = m.length - 15 by omega, List.drop_append_of_le_length (by omega)]; rfl
  have hl15 : (m.drop (m.length - 15)).length = 15 := by rw [List.length_drop]; omega
  have hg := (C06_pkcs7_roundtrip (m.drop (m.length - 15)) [] 1 0 (by omega) (by omega) (by omega) (by omega) (by omega)).2
  rw [← hd, hl15] at hg
  obtain ⟨s, s', ct, r, h1, _, h3, h4, _⟩ := C39_aligned hc hm ⟨pkcs7Add, pkcs7Get⟩ iv hiv k k' [] [] (m ++ [1#8]) out out' (by rw [hl]; exact hn) (by omega) (by omega) (by omega) 15#64 (by rw [hl]; exact hg) (by decide)
  refine ⟨s, s', ct, h1, ?_⟩
  rw [h4, hl, show m.length + 1 - 16 + (15#64).toNat = m.length by show m.length + 1 - 16 + 15 = _; omega, List.take_left] at h3
  exact h3

/-- The last block is written at `OutOffset` plus the processed length into an array that has just been cut to the processed length plus one block: with an offset, encryption writes behind the end of its output. -/
theorem C39_offset_ub {c : Cipher} (hE : ∀ b, b.length = 16 → (c.enc b).length = 16) (W : Nat) {p : Profile} (hp : p.Valid) {sp : Nat → Nat → List Nat} (fp : AllFair p 0 sp) (iv : List Byte) (hiv : iv.length = 16) (k : Nat)
    (head m out : List Byte) (oo : Nat) (hoo : 0 < oo) (hn : m.length % 16 ≠ 0) (ho : oo + (m.length / 16 + 1) * 16 ≤ out.length) :
    writeArray (cbcEnc c W p sp) ⟨pkcs7Add, pkcs7Get⟩ false true (iv, k) (head ++ m) head.length out oo = .error .ub := by
  have h := cbcEnc_does hE W hp fp
  have hn1 : (head ++ m).length - head.length = m.length := by rw [List.length_append]; omega
  have haln : alnLen true m.length (cbcEnc c W p sp).blk = m.length / 16 * 16 := aln_fwd m.length 16
  generalize hq : m.length / 16 * 16 = q at *
  have hj : ((out.drop oo).take q).length = if (cbcEnc c W p sp).blk < m.length then alnLen true m.length (cbcEnc c W p sp).blk else 0 := by
    rw [List.length_take, List.length_drop, haln]
    show _ = if 16 < m.length then _ else _
    split <;> omega
  have hjl : ((out.drop oo).take q).length = q := by rw [List.length_take, List.length_drop]; omega
  have hal : (out.take oo).length = oo := by rw [List.length_take]; omega
  obtain ⟨s1, e1, f1⟩ := arrayBody_ok h true (iv, k) hiv (head ++ m) head.length m (by rw [List.take_left]) (by rw [List.length_append]; omega) (lens_fwd h _) (out.take oo) ((out.drop oo).take q) (out.drop (oo + q)) hj
  rw [hjl, hal] at e1
  rw [hjl] at f1
  have eo : out.take oo ++ (out.drop oo).take q ++ out.drop (oo + q) = out := by rw [List.append_assoc, ← List.drop_drop, List.take_append_drop, List.take_append_drop]
  rw [eo] at e1
  have hb1 : 16 ∣ (m.take q).length := ⟨m.length / 16, by rw [List.length_take]; omega⟩
  have hg1 : s1.1.length = 16 := by rw [f1]; exact h.keeps iv (m.take q) hiv hb1
  have htl : (m.drop q).length = m.length - q := List.length_drop ..
  have ec : copy (head ++ m) (head.length + q) (List.replicate 16 0) 0 (m.length - q) = .ok (m.drop q ++ List.replicate (16 - (m.length - q)) 0) := by
    have hw : ((head ++ m).drop (head.length + q)).take (m.length - q) = m.drop q := by
      rw [List.drop_append, List.drop_of_length_le (by omega), List.nil_append, show head.length + q - head.length = q by omega, List.take_of_length_le (by omega)]
    rw [copy_splice (by rw [List.length_append]; omega) (by rw [List.length_replicate]; omega), hw, splice_in (by rw [List.length_replicate]; omega), List.take_zero, List.nil_append, Nat.zero_add, htl,
      List.drop_replicate]
  have ea : pkcs7Add (m.drop q ++ List.replicate (16 - (m.length - q)) 0) (m.length - q) (m.drop q ++ List.replicate (16 - (m.length - q)) 0).length = .ok (m.drop q ++ pkcs7Pad (16 - (m.length - q))) := by
    have := C06_pkcs7_add.1 (m.drop q) (List.replicate (16 - (m.length - q)) 0) [] (by intro he; have := congrArg List.length he; rw [List.length_replicate, List.length_nil] at this; omega)
    rw [List.append_nil, List.append_nil, List.length_replicate, htl] at this
    rw [List.length_append, htl, List.length_replicate]
    exact this
  have hx : (m.drop q ++ pkcs7Pad (16 - (m.length - q))).length = 16 := by rw [List.length_append, htl]; simp [pkcs7Pad]; omega
  have hub : ∀ o : List Byte, o.length = q + 16 → cbcEncBlock c (m.drop q ++ pkcs7Pad (16 - (m.length - q))) 0 (oo + q) s1.1 o = .error .ub := by
    intro o ho
    have h1 := xorInto_at (a := []) (c := []) (Holds.self (m.drop q ++ pkcs7Pad (16 - (m.length - q)))) (off := 0) rfl hx.symm (d := s1.1) (by omega)
    rw [List.append_nil, List.nil_append, List.append_nil, List.nil_append] at h1
    have hl : (xorBytes s1.1 (m.drop q ++ pkcs7Pad (16 - (m.length - q)))).length = 16 := by rw [xorBytes_length]; omega
    rw [cbcEncBlock, h1, ok_bind, cipherBlock, slice_holds (Holds.self _) hl.symm, ok_bind, blit, if_neg (by rw [hE _ hl]; omega)]
    rfl
  rw [writeArray, if_neg (by rw [List.length_append]; omega)]
  simp only [hn1, Bool.false_or, e1, ok_bind, haln, if_neg (show ¬ q = m.length by omega), if_true, if_false, Bool.false_eq_true]
  have hblk : (cbcEnc c W p sp).blk = 16 := rfl
  simp only [hblk, ec, ok_bind, if_pos (show m.length - q ≠ 16 by omega), ea]
  show (cbcEncBlock c _ 0 (oo + q) s1.1 _ >>= _) = _
  rw [hub _ (by
    split
    · rw [resize_length]
    · rename_i hne; simpa using hne)]
  rfl

/-- Decryption of less than one block reads behind the end of the input. -/
theorem C39_short_ub (c : Cipher) (W : Nat) (p : Profile) (hp : p.Valid) (sp : Nat → Nat → List Nat) (P : Pad) (iv : List Byte) (k : Nat) (head ct out : List Byte) (oo : Nat) (h0 : 0 < ct.length) (h1 : ct.length < 16) :
    writeArray (cbcDec c W p sp) P false false (iv, k) (head ++ ct) head.length out oo = .error .ub := by
  have hn1 : (head ++ ct).length - head.length = ct.length := by rw [List.length_append]; omega
  have hblk : (cbcDec c W p sp).blk = 16 := rfl
  have hpp : ¬ ((cbcDec c W p sp).par = true ∧ (cbcDec c W p sp).prl < ct.length) := by
    rintro ⟨x, y⟩
    have := (prl_ok hp x).1
    have y : p.blockSize < ct.length := y
    omega
  rw [writeArray, if_neg (by rw [List.length_append]; omega)]
  simp only [arrayBody, hn1, hblk, Bool.or_self, if_neg hpp, if_neg (show ¬ 16 < ct.length by omega), pure_eq_ok, ok_bind, alnLen, if_neg (show ¬ false = true by decide), if_pos h1, if_neg (show ¬ 0 = ct.length by omega),
    if_false, Bool.false_eq_true]
  show (cbcDecBlock c (head ++ ct) (head.length + 0) 0 iv _ >>= _) >>= _ = _
  rw [cbcDecBlock, slice, if_neg (by rw [List.length_append]; omega)]
  rfl

/-! ## The hypotheses can be met -/

/-- A fair schedule for two tasks: they take turns. -/
def rr (turns : Nat) : List Nat := (List.range turns).flatMap (fun _ => [0, 1])

theorem rr_covers (t : Nat) : Covers 2 t (rr t) := by
  constructor
  · intro j hj
    obtain ⟨_, _, h⟩ := List.mem_flatMap.mp hj
    simp at h; omega
  · intro i hi
    have : ∀ t, (rr t).count i = t := by
      intro t
      induction t with
      | zero => rfl
      | succ t ih =>
        have e : rr (t + 1) = rr t ++ [0, 1] := by simp [rr, List.range_succ]
        rw [e, List.count_append, ih]
        rcases i with _ | _ | i
        · rfl
        · rfl
        · omega
    rw [this]; exact Nat.le_refl _

/-- A toy cipher, CBC, two tasks decrypting with SIMD width 2. -/
example : Mode toy (cbcEnc toy 0 seqProfile (fun _ _ => [])) (cbcDec toy 2 duo (fun _ _ => rr (cbcTurns 2 (duo.blockSize / duo.degree / 16)))) :=
  .cbc 0 2 seqProfile duo _ _ seqProfile_valid duo_valid (by intro h; cases h) (fun _ _ _ => rr_covers _)

/-- 20 bytes through the model: encrypted, 32 bytes; decrypted, the 20 bytes. -/
example : ∃ s s' ct, writeArray (cbcEnc toy 0 seqProfile (fun _ _ => [])) ⟨pkcs7Add, pkcs7Get⟩ false true (List.replicate 16 9, 0) (List.replicate 20 7) 0 (List.replicate 40 0) 0 = .ok (s, ct) ∧ ct.length = 32
    ∧ writeArray (cbcDec toy 0 seqProfile (fun _ _ => [])) ⟨pkcs7Add, pkcs7Get⟩ false false (List.replicate 16 9, 0) ct 0 (List.replicate 32 0) 0 = .ok (s', List.replicate 20 7) :=
  C39_array_partial toy_good (.cbc 0 0 seqProfile seqProfile _ _ seqProfile_valid seqProfile_valid (by intro h; cases h) (by intro h; cases h)) .pkcs7 (List.replicate 16 9) (by simp) 0 0
    [] [] (List.replicate 20 7) (List.replicate 40 0) (List.replicate 32 0) (by simp) (by simp) (by simp)

example : Ready ⟨List.replicate 25 7, 5⟩ ⟨[1, 2, 3], 3⟩ (List.replicate 20 7) 16 := ⟨by simp, by simp, by simp, by simp, by simp⟩

end Cex.CStream
