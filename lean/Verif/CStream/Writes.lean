import Verif.CStream.Lemmas
import Verif.Padding.Props
import Verif.Modes.Props

/-!
# Property C39: what is written through an encrypting cipher stream is recovered through a decrypting one

It holds for messages that do not end on a block boundary, and fails for the others: one block is not processed at all, and longer ones get no padding although the decrypting side removes one.
-/

namespace Cex.CStream
open Cex Cex.Kdf Cex.Streams Cex.Padding

variable {σ τ σ' τ' : Type} {e : Eng σ} {abs : σ → τ} {good : τ → Prop} {F : τ → List Byte → τ × List Byte}

/-! ## The array version -/

/-- Encryption of a message that does not end on a block boundary: the output array becomes the encryption of the padded message, whatever it held; it must have room for the whole blocks of the message. -/
theorem array_encrypt (h : Does e abs good F) (hblk : BlockDoes e abs good F) {p : Pad} {pad : Nat → List Byte} (hpad : PadsWith p.add pad) (hplen : ∀ k, 0 < k → (pad k).length = k)
    (s : σ) (hg : good (abs s)) (head m out : List Byte) (hn : m.length % e.blk ≠ 0) (hout : m.length / e.blk * e.blk ≤ out.length) :
    ∃ s', writeArray e p false true s (head ++ m) head.length out 0 = .ok (s', (F (abs s) (m ++ pad (e.blk - m.length % e.blk))).2)
      ∧ abs s' = (F (abs s) (m ++ pad (e.blk - m.length % e.blk))).1 := by
  have hb := h.blk
  have hdm := Nat.div_add_mod m.length e.blk
  rw [Nat.mul_comm] at hdm
  have hlt := Nat.mod_lt m.length hb
  have hn1 : (head ++ m).length - head.length = m.length := by rw [List.length_append]; omega
  have haln := aln_fwd m.length e.blk
  have hd : e.blk ∣ m.length / e.blk * e.blk := Nat.dvd_mul_left _ _
  have hj : (out.take (m.length / e.blk * e.blk)).length = if e.blk < m.length then alnLen true m.length e.blk else 0 := by
    rw [List.length_take, haln]
    split
    · omega
    · have : m.length / e.blk = 0 := Nat.div_eq_of_lt (by
        have : m.length ≠ e.blk := by rintro he; rw [he, Nat.mod_self] at hn; exact hn rfl
        omega)
      rw [this]; omega
  have hjl : (out.take (m.length / e.blk * e.blk)).length = m.length / e.blk * e.blk := by rw [List.length_take]; omega
  obtain ⟨s1, e1, f1⟩ := arrayBody_ok h true s hg (head ++ m) head.length m (by rw [List.take_left]) (by rw [List.length_append]; omega) (lens_fwd h _) []
    (out.take (m.length / e.blk * e.blk)) (out.drop (m.length / e.blk * e.blk)) hj
  rw [hjl, List.nil_append, List.nil_append, List.take_append_drop, List.length_nil] at e1
  rw [hjl] at f1
  generalize hq : m.length / e.blk * e.blk = q at *
  have hr : m.length % e.blk = m.length - q := by omega
  rw [hr] at hn hlt ⊢
  have hb1 : e.blk ∣ (m.take q).length := by rw [List.length_take, Nat.min_eq_left (by omega)]; exact hd
  have htl : (m.drop q).length = m.length - q := List.length_drop ..
  have hl2 : (m.drop q ++ pad (e.blk - (m.length - q))).length = e.blk := by rw [List.length_append, htl, hplen _ (by omega)]; omega
  have hg1 : good (abs s1) := f1 ▸ h.keeps _ _ hg hb1
  have ln := h.len _ _ hg hb1
  have ln' : (F (abs s) (List.take q m)).2.length = q := by rw [ln, List.length_take]; omega
  have happ := h.app (abs s) (m.take q) (m.drop q ++ pad (e.blk - (m.length - q))) hg hb1 (by rw [hl2]; exact Nat.dvd_refl _)
  rw [← List.append_assoc, List.take_append_drop] at happ
  -- the last block
  have ec : copy (head ++ m) (head.length + q) (List.replicate e.blk 0) 0 (m.length - q) = .ok (m.drop q ++ List.replicate (e.blk - (m.length - q)) 0) := by
    have hw : ((head ++ m).drop (head.length + q)).take (m.length - q) = m.drop q := by
      rw [List.drop_append, List.drop_of_length_le (by omega), List.nil_append, show head.length + q - head.length = q by omega, List.take_of_length_le (by omega)]
    rw [copy_splice (by rw [List.length_append]; omega) (by rw [List.length_replicate]; omega), hw, splice_in (by rw [List.length_replicate]; omega), List.take_zero, List.nil_append, Nat.zero_add, htl,
      List.drop_replicate]
  have ea : p.add (m.drop q ++ List.replicate (e.blk - (m.length - q)) 0) (m.length - q) (m.drop q ++ List.replicate (e.blk - (m.length - q)) 0).length
      = .ok (m.drop q ++ pad (e.blk - (m.length - q))) := by
    have := hpad.1 (m.drop q) (List.replicate (e.blk - (m.length - q)) 0) [] (by intro he; have := congrArg List.length he; rw [List.length_replicate, List.length_nil] at this; omega)
    rw [List.append_nil, List.append_nil, List.length_replicate, htl] at this
    rw [List.length_append, htl, List.length_replicate]
    exact this
  rw [writeArray, if_neg (by rw [List.length_append]; omega)]
  simp only [hn1, Bool.false_or, e1, ok_bind, haln, if_neg (show ¬ q = m.length by omega), ec, if_pos (show m.length - q ≠ e.blk by omega), ea, if_true, if_false, Bool.false_eq_true]
  have eo : ∃ jk, jk.length = e.blk ∧ (if ((F (abs s) (List.take q m)).2 ++ List.drop q out).length ≠ q + e.blk then resize ((F (abs s) (List.take q m)).2 ++ List.drop q out) (q + e.blk)
        else (F (abs s) (List.take q m)).2 ++ List.drop q out) = (F (abs s) (List.take q m)).2 ++ jk := by
    split
    · rw [resize]
      refine ⟨(out.drop q).take e.blk ++ List.replicate (q + e.blk - ((F (abs s) (List.take q m)).2 ++ List.drop q out).length) 0, ?_, ?_⟩
      · simp only [List.length_append, List.length_take, List.length_replicate, List.length_drop, ln']; omega
      · rw [List.take_append, ln', List.take_of_length_le (by omega), show q + e.blk - q = e.blk by omega, List.append_assoc]
    · rename_i hne
      refine ⟨_, ?_, rfl⟩
      have hne : ((F (abs s) (List.take q m)).2 ++ List.drop q out).length = q + e.blk := by simpa using hne
      rw [List.length_append] at hne; omega
  obtain ⟨jk, hjk, eo⟩ := eo
  rw [eo]
  obtain ⟨s2, e2, f2⟩ := hblk s1 (m.drop q ++ pad (e.blk - (m.length - q))) _ 0 (F (abs s) (List.take q m)).2 jk [] hg1 hl2 (Holds.self _) (by omega)
  rw [List.append_nil, List.append_nil, ln'] at e2
  rw [Nat.zero_add, e2]
  exact ⟨s2, by rw [happ, f1], by rw [happ, f2, f1]⟩

/-- Encryption, or a counter mode, on whole blocks: no padding is added, and the rest of the output array is left as it was. -/
theorem array_aligned (h : Does e abs good F) (p : Pad) (ctr enc : Bool) (hf : (ctr || enc) = true)
    (s : σ) (hg : good (abs s)) (head m out : List Byte) (hn : e.blk ∣ m.length) (h1 : m.length ≠ e.blk) (hout : m.length ≤ out.length) :
    ∃ s', writeArray e p ctr enc s (head ++ m) head.length out 0 = .ok (s', (F (abs s) m).2 ++ out.drop m.length) ∧ abs s' = (F (abs s) m).1 := by
  have hn1 : (head ++ m).length - head.length = m.length := by rw [List.length_append]; omega
  have haln : alnLen true m.length e.blk = m.length := by rw [aln_fwd, Nat.div_mul_cancel hn]
  have hjl : (out.take m.length).length = m.length := by rw [List.length_take]; omega
  obtain ⟨s1, e1, f1⟩ := arrayBody_ok h true s hg (head ++ m) head.length m (by rw [List.take_left]) (by rw [List.length_append]; omega) (lens_fwd h _) []
    (out.take m.length) (out.drop m.length) (by
      rw [hjl, haln]
      split
      · rfl
      · rename_i hlt
        obtain ⟨k, hk⟩ := hn
        have : k = 0 := by
          rcases k with _ | _ | k
          · rfl
          · omega
          · have hb := h.blk
            rw [hk, Nat.mul_comm, Nat.succ_mul, Nat.succ_mul] at hlt; omega
        rw [hk, this, Nat.mul_zero])
  rw [hjl, List.nil_append, List.nil_append, List.take_append_drop, List.length_nil, List.take_length] at e1
  rw [hjl, List.take_length] at f1
  rw [writeArray, if_neg (by rw [List.length_append]; omega)]
  simp only [hn1, hf, e1, ok_bind, haln, if_true]
  exact ⟨s1, rfl, f1⟩

/-- A message of exactly one block is not processed: the output array and the state stay as they were. -/
theorem array_one_block (h : Does e abs good F) (p : Pad) (ctr enc : Bool) (hf : (ctr || enc) = true)
    (s : σ) (head m out : List Byte) (hn : m.length = e.blk) (oo : Nat) :
    writeArray e p ctr enc s (head ++ m) head.length out oo = .ok (s, out) := by
  have hn1 : (head ++ m).length - head.length = m.length := by rw [List.length_append]; omega
  have haln : alnLen true m.length e.blk = m.length := by rw [aln_fwd, hn, Nat.div_self h.blk, Nat.one_mul]
  have hp : ¬ (e.par = true ∧ e.prl < m.length) := by
    rintro ⟨x, y⟩
    have := (h.prl x).1
    omega
  rw [writeArray, if_neg (by rw [List.length_append]; omega)]
  simp only [arrayBody, hn1, hf, haln, if_neg hp, if_neg (show ¬ e.blk < m.length by omega), pure_eq_ok, ok_bind, if_true]

/-- Decryption: what the padding takes for the end of the last block is kept. -/
theorem array_decrypt (h : Does e abs good F) (hblk : BlockDoes e abs good F) (p : Pad) (s : σ) (hg : good (abs s)) (head c out : List Byte) (hn : e.blk ∣ c.length) (h0 : 0 < c.length)
    (k : BitVec 64) (hk : p.get ((F (abs s) c).2.drop (c.length - e.blk)) = .ok k) (hkb : k.toNat ≤ e.blk) (hout : c.length - e.blk + k.toNat ≤ out.length) :
    ∃ s', writeArray e p false false s (head ++ c) head.length out 0 = .ok (s', (F (abs s) c).2.take (c.length - e.blk + k.toNat)) ∧ abs s' = (F (abs s) c).1 := by
  have hb := h.blk
  have hle : e.blk ≤ c.length := Nat.le_of_dvd h0 hn
  have hn1 : (head ++ c).length - head.length = c.length := by rw [List.length_append]; omega
  have haln : alnLen false c.length e.blk = c.length - e.blk := by rw [aln_bwd hle, Nat.div_mul_cancel hn]
  have hd : e.blk ∣ c.length - e.blk := Nat.dvd_sub hn (Nat.dvd_refl _)
  generalize hq : c.length - e.blk = q at *
  have hjl : (out.take q).length = q := by rw [List.length_take]; omega
  obtain ⟨s1, e1, f1⟩ := arrayBody_ok h false s hg (head ++ c) head.length c (by rw [List.take_left]) (by rw [List.length_append]; omega) (lens_bwd h hn h0) []
    (out.take q) (out.drop q) (by
      rw [hjl, haln]
      split
      · rfl
      · omega)
  rw [hjl, List.nil_append, List.nil_append, List.take_append_drop, List.length_nil] at e1
  rw [hjl] at f1
  have hb1 : e.blk ∣ (c.take q).length := by rw [List.length_take, Nat.min_eq_left (by omega)]; exact hd
  have hl2 : (c.drop q).length = e.blk := by rw [List.length_drop]; omega
  have hg1 : good (abs s1) := f1 ▸ h.keeps _ _ hg hb1
  have ln := h.len _ _ hg hb1
  have ln' : (F (abs s) (List.take q c)).2.length = q := by rw [ln, List.length_take]; omega
  have happ := h.app (abs s) (c.take q) (c.drop q) hg hb1 (by rw [hl2]; exact Nat.dvd_refl _)
  rw [List.take_append_drop] at happ
  have ln2 := h.len (abs s1) (c.drop q) hg1 (by rw [hl2]; exact Nat.dvd_refl _)
  obtain ⟨s2, e2, f2⟩ := hblk s1 (c.drop q) (head ++ c) (head.length + q) [] (List.replicate e.blk 0) [] hg1 hl2
    ⟨head ++ c.take q, [], by rw [List.append_nil, List.append_assoc, List.take_append_drop], by rw [List.length_append, List.length_take]; omega⟩ (by rw [List.length_replicate]; omega)
  rw [List.nil_append, List.append_nil, List.nil_append, List.append_nil, List.length_nil, f1] at e2
  rw [happ] at hk ⊢
  rw [← f1] at hk
  rw [List.drop_append, ln', show q - q = 0 by omega, List.drop_of_length_le (by omega), List.nil_append, List.drop_zero] at hk
  have ec : copy (F (abs s1) (c.drop q)).2 0 ((F (abs s) (c.take q)).2 ++ out.drop q) q k.toNat
      = .ok ((F (abs s) (c.take q)).2 ++ (F (abs s1) (c.drop q)).2.take k.toNat ++ out.drop (q + k.toNat)) := by
    rw [copy_splice (by omega) (by rw [List.length_append, List.length_drop]; omega), List.drop_zero]
    have hl : ((F (abs s1) (List.drop q c)).2.take k.toNat).length = k.toNat := by rw [List.length_take]; omega
    rw [splice_in (by rw [hl, List.length_append, List.length_drop]; omega), hl, List.take_append_of_le_length (by omega), List.take_of_length_le (by omega), List.drop_append, ln',
      List.drop_of_length_le (l := (F (abs s) (c.take q)).2) (by omega), List.drop_drop, List.nil_append, show q + k.toNat - q = k.toNat by omega]
  rw [writeArray, if_neg (by rw [List.length_append]; omega)]
  rw [← f1] at e2
  simp only [hn1, Bool.or_self, e1, ok_bind, haln, if_neg (show ¬ q = c.length by omega), if_false, Bool.false_eq_true, e2, hk, Nat.zero_add, ec]
  refine ⟨s2, ?_, by rw [f2, f1]⟩
  have hx : (F (abs s) (c.take q)).2 ++ (F (abs s1) (c.drop q)).2.take k.toNat = ((F (abs s) (c.take q)).2 ++ (F (abs s1) (c.drop q)).2).take (q + k.toNat) := by
    rw [List.take_append, ln', List.take_of_length_le (l := (F (abs s) (c.take q)).2) (by omega), show q + k.toNat - q = k.toNat by omega]
  have hxl : ((F (abs s) (c.take q)).2 ++ (F (abs s1) (c.drop q)).2.take k.toNat).length = q + k.toNat := by rw [List.length_append, List.length_take]; omega
  rw [← f1, ← hx, pure_eq_ok]
  split
  · rw [resize, List.take_append_of_le_length (by omega), List.take_of_length_le (by omega), List.length_append, hxl, show q + k.toNat - (q + k.toNat + (out.drop (q + k.toNat)).length) = 0 by omega, List.replicate_zero, List.append_nil]
  · rename_i hne
    have hne : ((F (abs s) (c.take q)).2 ++ (F (abs s1) (c.drop q)).2.take k.toNat ++ out.drop (q + k.toNat)).length = q + k.toNat := by simpa using hne
    rw [List.length_append, hxl] at hne
    rw [List.eq_nil_of_length_eq_zero (l := out.drop (q + k.toNat)) (by omega), List.append_nil]

/-- A counter mode on a message that is not one block long. -/
theorem array_counter (h : Fluid e abs good F) (p : Pad) (enc : Bool) (s : σ) (hg : good (abs s)) (head m out : List Byte) (h1 : m.length ≠ e.blk) (hout : m.length ≤ out.length) :
    ∃ s', writeArray e p true enc s (head ++ m) head.length out 0 = .ok (s', (F (abs s) m).2 ++ out.drop m.length) ∧ abs s' = (F (abs s) m).1 := by
  have h' := h.toDoes
  have hb := h'.blk
  by_cases hn : m.length % e.blk = 0
  · exact array_aligned h' p true enc (by rfl) s hg head m out (Nat.dvd_of_mod_eq_zero hn) h1 hout
  have hdm := Nat.div_add_mod m.length e.blk
  rw [Nat.mul_comm] at hdm
  have hlt := Nat.mod_lt m.length hb
  have hn1 : (head ++ m).length - head.length = m.length := by rw [List.length_append]; omega
  have haln := aln_fwd m.length e.blk
  have hd : e.blk ∣ m.length / e.blk * e.blk := Nat.dvd_mul_left _ _
  have hj : (out.take (m.length / e.blk * e.blk)).length = if e.blk < m.length then alnLen true m.length e.blk else 0 := by
    rw [List.length_take, haln]
    split
    · omega
    · have : m.length / e.blk = 0 := Nat.div_eq_of_lt (by omega)
      rw [this]; omega
  have hjl : (out.take (m.length / e.blk * e.blk)).length = m.length / e.blk * e.blk := by rw [List.length_take]; omega
  obtain ⟨s1, e1, f1⟩ := arrayBody_ok h' true s hg (head ++ m) head.length m (by rw [List.take_left]) (by rw [List.length_append]; omega) (lens_fwd h' _) []
    (out.take (m.length / e.blk * e.blk)) (out.drop (m.length / e.blk * e.blk)) hj
  rw [hjl, List.nil_append, List.nil_append, List.take_append_drop, List.length_nil] at e1
  rw [hjl] at f1
  generalize hq : m.length / e.blk * e.blk = q at *
  have hr : m.length % e.blk = m.length - q := by omega
  rw [hr] at hn hlt
  have hb1 : e.blk ∣ (m.take q).length := by rw [List.length_take, Nat.min_eq_left (by omega)]; exact hd
  have htl : (m.drop q).length = m.length - q := List.length_drop ..
  have hg1 : good (abs s1) := f1 ▸ h'.keeps _ _ hg hb1
  have ln' : (F (abs s) (List.take q m)).2.length = q := by rw [h.length _ _ hg, List.length_take]; omega
  have happ := h.append (abs s) (m.take q) (m.drop q) hg hb1
  rw [List.take_append_drop] at happ
  have ec : copy (head ++ m) (head.length + q) (List.replicate e.blk 0) 0 (m.length - q) = .ok (m.drop q ++ List.replicate (e.blk - (m.length - q)) 0) := by
    have hw : ((head ++ m).drop (head.length + q)).take (m.length - q) = m.drop q := by
      rw [List.drop_append, List.drop_of_length_le (by omega), List.nil_append, show head.length + q - head.length = q by omega, List.take_of_length_le (by omega)]
    rw [copy_splice (by rw [List.length_append]; omega) (by rw [List.length_replicate]; omega), hw, splice_in (by rw [List.length_replicate]; omega), List.take_zero, List.nil_append, Nat.zero_add, htl,
      List.drop_replicate]
  obtain ⟨s2, e2, f2⟩ := h.tail s1 (m.drop q) (m.drop q ++ List.replicate (e.blk - (m.length - q)) 0) 0 [] (List.replicate (m.length - q) 0) (List.replicate (e.blk - (m.length - q)) 0) hg1
    ⟨[], _, by rw [List.nil_append], rfl⟩ (by rw [List.length_replicate, htl])
  rw [List.nil_append, List.replicate_append_replicate, show m.length - q + (e.blk - (m.length - q)) = e.blk by omega, List.nil_append, List.length_nil, htl] at e2
  have ln2 : (F (abs s1) (m.drop q)).2.length = m.length - q := by rw [h.length _ _ hg1, htl]
  have ec2 : copy ((F (abs s1) (m.drop q)).2 ++ List.replicate (e.blk - (m.length - q)) 0) 0 ((F (abs s) (m.take q)).2 ++ out.drop q) (0 + q) (m.length - q)
      = .ok ((F (abs s) (m.take q)).2 ++ (F (abs s1) (m.drop q)).2 ++ out.drop m.length) := by
    have hw : (((F (abs s1) (m.drop q)).2 ++ List.replicate (e.blk - (m.length - q)) 0).drop 0).take (m.length - q) = (F (abs s1) (m.drop q)).2 := by
      rw [List.drop_zero, List.take_append_of_le_length (by omega), List.take_of_length_le (by omega)]
    rw [Nat.zero_add, copy_splice (by rw [List.length_append]; omega) (by rw [List.length_append, List.length_drop]; omega), hw, splice_in (by rw [List.length_append, List.length_drop]; omega),
      List.take_append_of_le_length (by omega), List.take_of_length_le (by omega), List.drop_append, ln', List.drop_of_length_le (l := (F (abs s) (m.take q)).2) (by omega), List.drop_drop, List.nil_append, ln2,
      show q + (q + (m.length - q) - q) = m.length by omega]
  rw [writeArray, if_neg (by rw [List.length_append]; omega)]
  simp only [hn1, Bool.true_or, e1, ok_bind, haln, if_neg (show ¬ q = m.length by omega), ec, e2, ec2, if_true, pure_eq_ok]
  exact ⟨s2, by rw [happ, f1], by rw [happ, f2, f1]⟩

/-! ## The stream version -/

/-- The message is what is left to be read of the input stream; both streams are of addressable size and the output is written inside of or right behind what is there. -/
structure Ready (ins outs : MemStream) (m : List Byte) (extra : Nat) : Prop where
  input : ins.data.drop ins.pos = m
  inPos : ins.pos ≤ ins.data.length
  inLen : ins.data.length < 2 ^ 63
  outPos : outs.pos ≤ outs.data.length
  outLen : outs.pos + m.length + extra < 2 ^ 63

theorem Ready.holds {ins outs : MemStream} {m : List Byte} {x : Nat} (h : Ready ins outs m x) : Holds ins.data ins.pos m :=
  ⟨ins.data.take ins.pos, [], by rw [List.append_nil, ← h.input, List.take_append_drop], by have := h.inPos; rw [List.length_take]; omega⟩

theorem Ready.size {ins outs : MemStream} {m : List Byte} {x : Nat} (h : Ready ins outs m x) : ins.pos + m.length = ins.data.length := by
  have := h.inPos
  rw [← h.input, List.length_drop]; omega

/-- The output stream after `w` was written. -/
def wrote (outs : MemStream) (w : List Byte) : MemStream := ⟨splice outs.data outs.pos w, outs.pos + w.length⟩

/-- Encryption of a message that does not end on a block boundary. -/
theorem stream_encrypt (h : Does e abs good F) (hblk : BlockDoes e abs good F) {p : Pad} {pad : Nat → List Byte} (hpad : PadsWith p.add pad) (hplen : ∀ k, 0 < k → (pad k).length = k)
    (s : σ) (hg : good (abs s)) (ins outs : MemStream) (m : List Byte) (hr : Ready ins outs m e.blk) (hn : m.length % e.blk ≠ 0) :
    ∃ s', writeStream e p false true s ins outs = .ok (s', ⟨ins.data, ins.data.length⟩, wrote outs (F (abs s) (m ++ pad (e.blk - m.length % e.blk))).2)
      ∧ abs s' = (F (abs s) (m ++ pad (e.blk - m.length % e.blk))).1 := by
  have hb := h.blk
  have hsz := hr.size
  have hh := hr.holds
  obtain ⟨_, i1, i2, o1, o2⟩ := hr
  have hdm := Nat.div_add_mod m.length e.blk
  rw [Nat.mul_comm] at hdm
  have hlt := Nat.mod_lt m.length hb
  have haln := aln_fwd m.length e.blk
  have hd : e.blk ∣ m.length / e.blk * e.blk := Nat.dvd_mul_left _ _
  have hq' : m.length / e.blk * e.blk = if e.blk < m.length then alnLen true m.length e.blk else 0 := by
    rw [haln]
    split
    · rfl
    · have : m.length / e.blk = 0 := Nat.div_eq_of_lt (by
        have : m.length ≠ e.blk := by rintro he; rw [he, Nat.mod_self] at hn; exact hn rfl
        omega)
      rw [this, Nat.zero_mul]
  obtain ⟨r, e1, ri, ro, rl, rm, f1⟩ := streamBody_ok h true s hg ins outs m hh i2 o1 (lens_fwd h _) _ hq' (by omega)
  generalize hq : m.length / e.blk * e.blk = q at *
  have hr : m.length % e.blk = m.length - q := by omega
  rw [hr] at hn hlt ⊢
  have hb1 : e.blk ∣ (m.take q).length := by rw [List.length_take, Nat.min_eq_left (by omega)]; exact hd
  have htl : (m.drop q).length = m.length - q := List.length_drop ..
  have hl2 : (m.drop q ++ pad (e.blk - (m.length - q))).length = e.blk := by rw [List.length_append, htl, hplen _ (by omega)]; omega
  have hg1 : good (abs r.s) := f1 ▸ h.keeps _ _ hg hb1
  have ln' : (F (abs s) (List.take q m)).2.length = q := by rw [h.len _ _ hg hb1, List.length_take]; omega
  have happ := h.app (abs s) (m.take q) (m.drop q ++ pad (e.blk - (m.length - q))) hg hb1 (by rw [hl2]; exact Nat.dvd_refl _)
  rw [← List.append_assoc, List.take_append_drop] at happ
  have er := read_ok r.ins (m.drop q) r.inp (by rw [ri]; exact i2) (by rw [ri]; exact hh.dropN (n := q) (by omega)) (by omega)
  rw [htl] at er
  have ea : p.add (m.drop q ++ r.inp.drop (m.length - q)) (m.length - q) (m.drop q ++ r.inp.drop (m.length - q)).length = .ok (m.drop q ++ pad (e.blk - (m.length - q))) := by
    have hl : (r.inp.drop (m.length - q)).length = e.blk - (m.length - q) := by rw [List.length_drop, rl]
    have := hpad.1 (m.drop q) (r.inp.drop (m.length - q)) [] (by intro he; have := congrArg List.length he; rw [List.length_nil] at this; omega)
    rw [List.append_nil, List.append_nil, htl, hl] at this
    rw [List.length_append, htl, hl]
    exact this
  obtain ⟨s2, e2, f2⟩ := hblk r.s (m.drop q ++ pad (e.blk - (m.length - q))) _ 0 [] r.otp [] hg1 hl2 (Holds.self _) (by omega)
  rw [List.append_nil, List.append_nil, List.nil_append, List.nil_append, List.length_nil] at e2
  have ln2 := h.len (abs r.s) _ hg1 (by rw [hl2]; exact Nat.dvd_refl _)
  have rp : r.outs.pos = outs.pos + q := by rw [ro]
  have ew := write_ok r.outs (F (abs r.s) (m.drop q ++ pad (e.blk - (m.length - q)))).2 [] (by rw [ln2, hl2, rp]; omega)
  rw [List.append_nil, ln2, hl2] at ew
  have hs1 : sub64 ins.data.length ins.pos = m.length := by rw [sub64_le i1 (by omega)]; omega
  rw [writeStream, hs1]
  rw [Bool.false_or, e1, ok_bind, haln, tail_enc (by omega) (by omega) er ea e2 ew]
  refine ⟨s2, ?_, by rw [happ, f2, f1]⟩
  rw [ri, ro, wrote, happ, ← f1]
  simp only [Except.ok.injEq, Prod.mk.injEq, MemStream.mk.injEq, true_and]
  refine ⟨by omega, ?_, by rw [List.length_append, ln', ln2, hl2]; omega⟩
  have := splice_splice outs.data (F (abs s) (List.take q m)).2 (F (abs r.s) (m.drop q ++ pad (e.blk - (m.length - q)))).2 outs.pos o1
  rwa [ln'] at this

theorem stream_aligned (h : Does e abs good F) (p : Pad) (ctr enc : Bool) (hf : (ctr || enc) = true)
    (s : σ) (hg : good (abs s)) (ins outs : MemStream) (m : List Byte) (hr : Ready ins outs m 0) (hn : e.blk ∣ m.length) (h1 : m.length ≠ e.blk) :
    ∃ s', writeStream e p ctr enc s ins outs = .ok (s', ⟨ins.data, ins.data.length⟩, wrote outs (F (abs s) m).2) ∧ abs s' = (F (abs s) m).1 := by
  have hsz := hr.size
  have hh := hr.holds
  obtain ⟨_, i1, i2, o1, o2⟩ := hr
  have haln : alnLen true m.length e.blk = m.length := by rw [aln_fwd, Nat.div_mul_cancel hn]
  obtain ⟨r, e1, ri, ro, rl, rm, f1⟩ := streamBody_ok h true s hg ins outs m hh i2 o1 (lens_fwd h _) m.length (by
      rw [haln]
      split
      · rfl
      · rename_i hlt
        obtain ⟨k, hk⟩ := hn
        have : k = 0 := by
          rcases k with _ | _ | k
          · rfl
          · omega
          · have hb := h.blk
            rw [hk, Nat.mul_comm, Nat.succ_mul, Nat.succ_mul] at hlt; omega
        rw [hk, this, Nat.mul_zero]) (by omega)
  rw [List.take_length] at ro f1
  have hs1 : sub64 ins.data.length ins.pos = m.length := by rw [sub64_le i1 (by omega)]; omega
  rw [writeStream, hs1]
  rw [hf, e1, ok_bind, haln, tail_done]
  refine ⟨r.s, ?_, f1⟩
  rw [ri, ro, wrote, h.len _ _ hg hn, hsz]

/-- A message of exactly one block is neither read nor written. -/
theorem stream_one_block (h : Does e abs good F) (p : Pad) (ctr enc : Bool) (hf : (ctr || enc) = true)
    (s : σ) (ins outs : MemStream) (m : List Byte) (hr : Ready ins outs m 0) (hn : m.length = e.blk) :
    writeStream e p ctr enc s ins outs = .ok (s, ins, outs) := by
  have hsz := hr.size
  obtain ⟨_, i1, i2, o1, o2⟩ := hr
  have haln : alnLen true m.length e.blk = m.length := by rw [aln_fwd, hn, Nat.div_self h.blk, Nat.one_mul]
  have hp : ¬ (e.par = true ∧ e.prl < m.length) := by
    rintro ⟨x, y⟩
    have := (h.prl x).1
    omega
  have hs1 : sub64 ins.data.length ins.pos = m.length := by rw [sub64_le i1 (by omega)]; omega
  rw [writeStream, hs1]
  simp only [streamTail, streamBody, hf, haln, if_neg hp, if_neg (show ¬ e.blk < m.length by omega), pure_eq_ok, ok_bind, if_true]

theorem stream_decrypt (h : Does e abs good F) (hblk : BlockDoes e abs good F) (p : Pad) (s : σ) (hg : good (abs s)) (ins outs : MemStream) (c : List Byte) (hr : Ready ins outs c 0) (hn : e.blk ∣ c.length) (h0 : 0 < c.length)
    (k : BitVec 64) (hk : p.get ((F (abs s) c).2.drop (c.length - e.blk)) = .ok k) (hkb : k.toNat ≤ e.blk) :
    ∃ s', writeStream e p false false s ins outs = .ok (s', ⟨ins.data, ins.data.length⟩, wrote outs ((F (abs s) c).2.take (c.length - e.blk + k.toNat))) ∧ abs s' = (F (abs s) c).1 := by
  have hb := h.blk
  have hsz := hr.size
  have hh := hr.holds
  obtain ⟨_, i1, i2, o1, o2⟩ := hr
  have hle : e.blk ≤ c.length := Nat.le_of_dvd h0 hn
  have haln : alnLen false c.length e.blk = c.length - e.blk := by rw [aln_bwd hle, Nat.div_mul_cancel hn]
  have hd : e.blk ∣ c.length - e.blk := Nat.dvd_sub hn (Nat.dvd_refl _)
  generalize hq : c.length - e.blk = q at *
  obtain ⟨r, e1, ri, ro, rl, rm, f1⟩ := streamBody_ok h false s hg ins outs c hh i2 o1 (lens_bwd h hn h0) q (by
      rw [haln]
      split
      · rfl
      · omega) (by omega)
  have hb1 : e.blk ∣ (c.take q).length := by rw [List.length_take, Nat.min_eq_left (by omega)]; exact hd
  have hl2 : (c.drop q).length = e.blk := by rw [List.length_drop]; omega
  have hg1 : good (abs r.s) := f1 ▸ h.keeps _ _ hg hb1
  have ln' : (F (abs s) (List.take q c)).2.length = q := by rw [h.len _ _ hg hb1, List.length_take]; omega
  have happ := h.app (abs s) (c.take q) (c.drop q) hg hb1 (by rw [hl2]; exact Nat.dvd_refl _)
  rw [List.take_append_drop] at happ
  have ln2 := h.len (abs r.s) (c.drop q) hg1 (by rw [hl2]; exact Nat.dvd_refl _)
  have er := read_ok r.ins (c.drop q) r.inp (by rw [ri]; exact i2) (by rw [ri]; exact hh.dropN (n := q) (by omega)) (by omega)
  rw [hl2] at er
  obtain ⟨s2, e2, f2⟩ := hblk r.s (c.drop q) (c.drop q ++ r.inp.drop e.blk) 0 [] r.otp [] hg1 hl2 ⟨[], _, by rw [List.nil_append], rfl⟩ (by omega)
  rw [List.append_nil, List.append_nil, List.nil_append, List.nil_append, List.length_nil] at e2
  rw [happ] at hk ⊢
  rw [← f1] at hk
  rw [List.drop_append, ln', show q - q = 0 by omega, List.drop_of_length_le (by omega), List.nil_append, List.drop_zero] at hk
  have hx : (F (abs s) (c.take q)).2 ++ (F (abs r.s) (c.drop q)).2.take k.toNat = ((F (abs s) (c.take q)).2 ++ (F (abs r.s) (c.drop q)).2).take (q + k.toNat) := by
    rw [List.take_append, ln', List.take_of_length_le (l := (F (abs s) (c.take q)).2) (by omega), show q + k.toNat - q = k.toNat by omega]
  have lk : ((F (abs r.s) (c.drop q)).2.take k.toNat).length = k.toNat := by rw [List.length_take]; omega
  have rp : r.outs.pos = outs.pos + q := by rw [ro]
  have ew := write_ok r.outs ((F (abs r.s) (c.drop q)).2.take k.toNat) ((F (abs r.s) (c.drop q)).2.drop k.toNat) (by rw [lk, rp]; omega)
  rw [List.take_append_drop, lk] at ew
  have hs1 : sub64 ins.data.length ins.pos = c.length := by rw [sub64_le i1 (by omega)]; omega
  rw [writeStream, hs1]
  rw [Bool.or_self, e1, ok_bind, haln, tail_dec (by omega) er e2 hk ew]
  refine ⟨s2, ?_, by rw [f2, f1]⟩
  rw [← f1, ← hx, ri, ro, wrote]
  simp only [Except.ok.injEq, Prod.mk.injEq, MemStream.mk.injEq, true_and]
  refine ⟨by omega, ?_, by rw [List.length_append, ln', lk]; omega⟩
  have := splice_splice outs.data (F (abs s) (List.take q c)).2 ((F (abs r.s) (c.drop q)).2.take k.toNat) outs.pos o1
  rwa [ln'] at this

theorem stream_counter (h : Fluid e abs good F) (p : Pad) (enc : Bool) (s : σ) (hg : good (abs s)) (ins outs : MemStream) (m : List Byte) (hr : Ready ins outs m 0) (h1 : m.length ≠ e.blk) :
    ∃ s', writeStream e p true enc s ins outs = .ok (s', ⟨ins.data, ins.data.length⟩, wrote outs (F (abs s) m).2) ∧ abs s' = (F (abs s) m).1 := by
  have h' := h.toDoes
  have hb := h'.blk
  by_cases hn : m.length % e.blk = 0
  · exact stream_aligned h' p true enc (by rfl) s hg ins outs m hr (Nat.dvd_of_mod_eq_zero hn) h1
  have hsz := hr.size
  have hh := hr.holds
  obtain ⟨_, i1, i2, o1, o2⟩ := hr
  have hdm := Nat.div_add_mod m.length e.blk
  rw [Nat.mul_comm] at hdm
  have hlt := Nat.mod_lt m.length hb
  have haln := aln_fwd m.length e.blk
  have hd : e.blk ∣ m.length / e.blk * e.blk := Nat.dvd_mul_left _ _
  have hq' : m.length / e.blk * e.blk = if e.blk < m.length then alnLen true m.length e.blk else 0 := by
    rw [haln]
    split
    · rfl
    · have : m.length / e.blk = 0 := Nat.div_eq_of_lt (by omega)
      rw [this, Nat.zero_mul]
  obtain ⟨r, e1, ri, ro, rl, rm, f1⟩ := streamBody_ok h' true s hg ins outs m hh i2 o1 (lens_fwd h' _) _ hq' (by omega)
  generalize hq : m.length / e.blk * e.blk = q at *
  have hr : m.length % e.blk = m.length - q := by omega
  rw [hr] at hn hlt
  have hb1 : e.blk ∣ (m.take q).length := by rw [List.length_take, Nat.min_eq_left (by omega)]; exact hd
  have htl : (m.drop q).length = m.length - q := List.length_drop ..
  have hg1 : good (abs r.s) := f1 ▸ h'.keeps _ _ hg hb1
  have ln' : (F (abs s) (List.take q m)).2.length = q := by rw [h.length _ _ hg, List.length_take]; omega
  have happ := h.append (abs s) (m.take q) (m.drop q) hg hb1
  rw [List.take_append_drop] at happ
  have c1 := clear_whole r.otp
  have c2 := clear_whole r.inp
  have er := read_ok r.ins (m.drop q) (List.replicate r.inp.length 0) (by rw [ri]; exact i2) (by rw [ri]; exact hh.dropN (n := q) (by omega)) (by rw [List.length_replicate]; omega)
  rw [htl] at er
  obtain ⟨s2, e2, f2⟩ := h.tail r.s (m.drop q) (m.drop q ++ (List.replicate r.inp.length 0).drop (m.length - q)) 0 [] ((List.replicate r.otp.length 0).take (m.length - q)) ((List.replicate r.otp.length 0).drop (m.length - q)) hg1
    ⟨[], _, by rw [List.nil_append], rfl⟩ (by rw [List.length_take, List.length_replicate, htl]; omega)
  rw [List.nil_append, List.take_append_drop, List.nil_append, List.length_nil, htl] at e2
  have ln2 : (F (abs r.s) (m.drop q)).2.length = m.length - q := by rw [h.length _ _ hg1, htl]
  have rp : r.outs.pos = outs.pos + q := by rw [ro]
  have ew := write_ok r.outs (F (abs r.s) (m.drop q)).2 ((List.replicate r.otp.length 0).drop (m.length - q)) (by rw [ln2, rp]; omega)
  rw [ln2] at ew
  have hs1 : sub64 ins.data.length ins.pos = m.length := by rw [sub64_le i1 (by omega)]; omega
  rw [writeStream, hs1]
  rw [Bool.true_or, e1, ok_bind, haln, tail_ctr (by omega) c1 c2 er e2 ew]
  refine ⟨s2, ?_, by rw [happ, f2, f1]⟩
  rw [ri, ro, wrote, happ, ← f1]
  simp only [Except.ok.injEq, Prod.mk.injEq, MemStream.mk.injEq, true_and]
  refine ⟨by omega, ?_, by rw [List.length_append, ln', ln2]; omega⟩
  have := splice_splice outs.data (F (abs s) (List.take q m)).2 (F (abs r.s) (m.drop q)).2 outs.pos o1
  rwa [ln'] at this

end Cex.CStream
