import Verif.Streams.Spec
import Verif.IntTools.Enc
import Verif.IntTools.Props

/-!
# C33 The memory stream is a byte list with a cursor
-/

namespace Cex.Streams
open Cex Cex.IntTools Cex.Kdf

theorem sub64_le {a b : Nat} (h : b ≤ a) (ha : a < 2 ^ 64) : sub64 a b = a - b := by
  rw [sub64, show a + 2 ^ 64 - b = (a - b) + 2 ^ 64 by omega, Nat.add_mod_right, Nat.mod_eq_of_lt (by omega)]

theorem sub64_gt {a b : Nat} (h : a < b) (hb : b < 2 ^ 64) : sub64 a b = 2 ^ 64 - (b - a) := by
  rw [sub64, Nat.mod_eq_of_lt (by omega)]; omega

theorem add64_lt {a b : Nat} (h : a + b < 2 ^ 64) : add64 a b = a + b := Nat.mod_eq_of_lt h

theorem splice_in {b w : List Byte} {n : Nat} (h : n + w.length ≤ b.length) : splice b n w = b.take n ++ w ++ b.drop (n + w.length) := by
  rw [splice, show n - b.length = 0 by omega, List.replicate_zero, List.append_nil]

theorem splice_nil_in {b : List Byte} {n : Nat} (h : n ≤ b.length) : splice b n [] = b := by
  rw [splice_in (by simpa using h), List.append_nil, List.length_nil, Nat.add_zero, List.take_append_drop]

theorem splice_length (b w : List Byte) (n : Nat) : (splice b n w).length = max b.length (n + w.length) := by
  simp only [splice, List.length_append, List.length_take, List.length_replicate, List.length_drop]; omega

theorem copy_splice {src dst : List Byte} {so n len : Nat} (h1 : so + len ≤ src.length) (h2 : n + len ≤ dst.length) :
    copy src so dst n len = .ok (splice dst n ((src.drop so).take len)) := by
  have hl : ((src.drop so).take len).length = len := by rw [List.length_take, List.length_drop]; omega
  rw [copy]
  split
  · rename_i h; subst h
    rw [List.take_zero, splice_nil_in (by omega)]
  · rw [slice_ok h1, ok_bind, blit_ok (by rw [hl]; exact h2), splice_in (by rw [hl]; exact h2)]

/-- Growing first and splicing then is splicing. -/
theorem splice_grow (b w : List Byte) (n : Nat) : splice (if b.length < n + w.length then resize b (n + w.length) else b) n w = splice b n w := by
  split
  · rename_i h
    rw [splice_in (by rw [resize_length]; omega), List.drop_of_length_le (by rw [resize_length]; omega), splice, List.drop_of_length_le (by omega), resize,
      List.take_of_length_le (l := b) (by omega)]
    congr 2
    rw [List.take_append, List.take_replicate]
    congr 2
    omega
  · rfl

theorem grow_length (b : List Byte) (m : Nat) : (if b.length < m then resize b m else b).length = max b.length m := by
  split
  · rw [resize_length]; omega
  · omega

theorem wr_splice {b : List Byte} {n : Nat} (v : Byte) (h : n < b.length) : wr b n v = .ok (splice b n [v]) := by
  rw [wr_ok v h, splice_in (by rw [List.length_singleton]; omega), List.set_eq_take_append_cons_drop, if_pos h]
  simp

/-- The code state holds the file, whose size and cursor are in range. -/
structure Rel (s : MemStream) (f : File) : Prop where
  data : s.data = f.bytes
  pos : s.pos = f.cursor
  size : f.bytes.length < 2 ^ 63
  cursor : f.cursor < 2 ^ 63

theorem next_length (f : File) (n : Nat) : (f.next n).length = min n (f.bytes.length - f.cursor) := by
  rw [File.next, List.length_take, List.length_drop]

/-- Where `Read` is right: the window and the count fit in what is left, or everything that is left is asked for. -/
def ReadFits (f : File) : Req → Prop
  | .read _ off len => off + len ≤ f.bytes.length - f.cursor ∨ f.bytes.length - f.cursor ≤ len
  | _ => True

theorem call_step {s : MemStream} {f : File} {r : Req} {a : Ans} {f' : File} (h : Rel s f) (hok : Sensible f r) (hfit : ReadFits f r) (hs : Step f r a f') :
    ∃ s', s.call r = .ok (a, s') ∧ Rel s' f' := by
  obtain ⟨data, pos⟩ := s
  obtain ⟨hd, hp, h1, h2⟩ := h
  simp only [] at hd hp
  subst hd; subst hp
  cases hs with
  | @read out off len =>
    obtain ⟨hw, ho, hc⟩ := hok
    have hfit : off + len ≤ f.bytes.length - f.cursor ∨ f.bytes.length - f.cursor ≤ len := hfit
    have e1 : sub64 f.bytes.length f.cursor = f.bytes.length - f.cursor := sub64_le hc (by omega)
    have e2 : add64 off len = off + len := add64_lt (by omega)
    have key : MemStream.read ⟨f.bytes, f.cursor⟩ out off len = .ok (splice out off (f.next len), (f.next len).length, ⟨f.bytes, f.cursor + (f.next len).length⟩) := by
      rw [MemStream.read]
      simp only [e1, e2]
      have e3 : (if f.bytes.length - f.cursor < off + len then f.bytes.length - f.cursor else len) = (f.next len).length := by
        rw [next_length]; split <;> omega
      rw [e3]
      have hm := next_length f len
      split
      · rw [copy_splice (by omega) (by omega), ok_bind, add64_lt (by omega)]
        have : (f.bytes.drop f.cursor).take (f.next len).length = f.next len := by
          rw [File.next, List.length_take, List.take_eq_take_iff]; omega
        rw [this]; rfl
      · have h0 : (f.next len).length = 0 := by omega
        rw [h0, List.eq_nil_of_length_eq_zero h0, splice_nil_in (by omega)]; rfl
    refine ⟨⟨f.bytes, f.cursor + (f.next len).length⟩, ?_, ⟨rfl, rfl, h1, ?_⟩⟩
    · rw [MemStream.call, key]; rfl
    · simp only []; rw [next_length]; omega
  | @readByte b hb =>
    have hc : f.cursor < f.bytes.length := hok
    refine ⟨⟨f.bytes, f.cursor + 1⟩, ?_, ⟨rfl, rfl, h1, ?_⟩⟩
    · rw [MemStream.call, MemStream.readByte, rd_ok hc, ok_bind, add64_lt (by simp only []; omega)]
      have : f.bytes[f.cursor] = b := by
        rw [File.next, ← List.getElem_cons_drop hc, List.take_succ_cons, List.take_zero] at hb
        exact (List.cons.inj hb).1
      rw [this]; rfl
    · simp only []; omega
  | @write inp off len =>
    obtain ⟨hw, hc⟩ := hok
    have hl : ((inp.drop off).take len).length = len := by rw [List.length_take, List.length_drop]; omega
    refine ⟨⟨splice f.bytes f.cursor ((inp.drop off).take len), f.cursor + len⟩, ?_, ⟨rfl, rfl, ?_, hc⟩⟩
    · rw [MemStream.call, MemStream.write]
      simp only []
      rw [add64_lt (by omega), copy_splice hw (by rw [grow_length]; omega)]
      have := splice_grow f.bytes ((inp.drop off).take len) f.cursor
      rw [hl] at this
      rw [this]; rfl
    · simp only []; rw [splice_length, hl]; omega
  | @writeByte v =>
    obtain ⟨hc, hb⟩ := hok
    refine ⟨⟨splice f.bytes f.cursor [v], f.cursor + 1⟩, ?_, ⟨rfl, rfl, ?_, ?_⟩⟩
    · rw [MemStream.call, MemStream.writeByte]
      simp only []
      rw [sub64_le hc (by omega), add64_lt (by omega)]
      have e : (if f.bytes.length - f.cursor < 1 then resize f.bytes (f.bytes.length + 1) else f.bytes)
          = if f.bytes.length < f.cursor + [v].length then resize f.bytes (f.cursor + [v].length) else f.bytes := by
        rw [List.length_singleton]
        split
        · rw [if_pos (by omega), show f.cursor = f.bytes.length by omega]
        · rw [if_neg (by omega)]
      rw [e, wr_splice v (by rw [grow_length, List.length_singleton]; omega), splice_grow]; rfl
    · simp only []; rw [splice_length, List.length_singleton]; omega
    · simp only []; omega
  | @seekBegin n => exact ⟨_, rfl, ⟨rfl, rfl, h1, hok⟩⟩
  | @seekCurrent n =>
    have hok : f.cursor + n < 2 ^ 63 := hok
    exact ⟨⟨f.bytes, add64 f.cursor n⟩, rfl, ⟨rfl, add64_lt (by omega), h1, hok⟩⟩
  | @seekEnd n =>
    have hok : n ≤ f.bytes.length := hok
    exact ⟨⟨f.bytes, sub64 f.bytes.length n⟩, rfl, ⟨rfl, sub64_le hok (by omega), h1, by simp only []; omega⟩⟩
  | reset =>
    refine ⟨⟨[], 0⟩, ?_, ⟨rfl, rfl, by decide, by decide⟩⟩
    rw [MemStream.call, MemStream.reset]
    simp only []
    rw [clear]
    split
    · rename_i h0; rw [List.eq_nil_of_length_eq_zero h0]; rfl
    · rw [blit_ok (by simp)]
      simp only [ok_bind, pure_eq_ok, resize]
      simp
  | close => exact ⟨_, rfl, ⟨rfl, rfl, by decide, by decide⟩⟩
  | length => exact ⟨_, rfl, ⟨rfl, rfl, h1, h2⟩⟩
  | position => exact ⟨_, rfl, ⟨rfl, rfl, h1, h2⟩⟩
  | toArray => exact ⟨_, rfl, ⟨rfl, rfl, h1, h2⟩⟩

theorem calls_steps {s : MemStream} {f : File} {rs : List Req} {as : List Ans} {f' : File} (h : Rel s f)
    (hs : Steps (fun f r => Sensible f r ∧ ReadFits f r) f rs as f') : ∃ s', s.calls rs = .ok (as, s') ∧ Rel s' f' := by
  induction hs generalizing s with
  | nil => exact ⟨s, rfl, h⟩
  | cons hok hst _ ih =>
    obtain ⟨s1, e1, r1⟩ := call_step h hok.1 hok.2 hst
    obtain ⟨s2, e2, r2⟩ := ih r1
    exact ⟨s2, by rw [MemStream.calls, e1, ok_bind]; simp only []; rw [e2]; rfl, r2⟩

/-- Every sequence of sensible calls on a stream made from an array answers as the file does. The full statement, without the condition `ReadFits` on reads, is false: `C33_read_false`. -/
theorem C33_file_partial (b : List Byte) (hb : b.length < 2 ^ 63) (rs : List Req) (as : List Ans) (f' : File)
    (h : Steps (fun f r => Sensible f r ∧ ReadFits f r) ⟨b, 0⟩ rs as f') :
    ∃ s', (MemStream.ofBytes b).calls rs = .ok (as, s') ∧ s'.data = f'.bytes ∧ s'.pos = f'.cursor := by
  obtain ⟨s', e, r⟩ := calls_steps (s := MemStream.ofBytes b) ⟨rfl, rfl, hb, by simp⟩ h
  exact ⟨s', e, r.data, r.pos⟩

/-- Reads into the front of the caller's array are always right, so with these alone nothing is missing. -/
theorem C33_file_front (b : List Byte) (hb : b.length < 2 ^ 63) (rs : List Req) (as : List Ans) (f' : File)
    (h : Steps Sensible ⟨b, 0⟩ rs as f') (hf : ∀ out off len, Req.read out off len ∈ rs → off = 0) :
    ∃ s', (MemStream.ofBytes b).calls rs = .ok (as, s') ∧ s'.data = f'.bytes ∧ s'.pos = f'.cursor := by
  refine C33_file_partial b hb rs as f' ?_
  generalize (⟨b, 0⟩ : File) = f at h
  induction h with
  | nil => exact .nil
  | @cons f r a f1 rs as f2 hok hst _ ih =>
    refine .cons ⟨hok, ?_⟩ hst (ih fun out off len hm => hf out off len (List.mem_cons_of_mem _ hm))
    cases r with
    | read out off len =>
      have h0 : off = 0 := hf out off len List.mem_cons_self
      show off + len ≤ f.bytes.length - f.cursor ∨ f.bytes.length - f.cursor ≤ len
      omega
    | _ => trivial

/-- Every sensible call has an answer, so sequences of sensible calls exist: the theorems above are about all of them. -/
theorem C33_sensible_answers (f : File) (r : Req) (h : Sensible f r) : ∃ a f', Step f r a f' := by
  cases r with
  | readByte =>
    have h : f.cursor < f.bytes.length := h
    exact ⟨_, _, .readByte (b := f.bytes[f.cursor]) (by rw [File.next, ← List.getElem_cons_drop h, List.take_succ_cons, List.take_zero])⟩
  | seek n o =>
    cases o
    · exact ⟨_, _, .seekBegin⟩
    · exact ⟨_, _, .seekCurrent⟩
    · exact ⟨_, _, .seekEnd⟩
  | read => exact ⟨_, _, .read⟩
  | write => exact ⟨_, _, .write⟩
  | writeByte => exact ⟨_, _, .writeByte⟩
  | reset => exact ⟨_, _, .reset⟩
  | close => exact ⟨_, _, .close⟩
  | length => exact ⟨_, _, .length⟩
  | position => exact ⟨_, _, .position⟩
  | toArray => exact ⟨_, _, .toArray⟩

/-- What is written is read back: after a write at any place, a seek to that place and a read of the same length return the bytes. -/
theorem C33_write_read (b w out : List Byte) (n : Nat) (hb : b.length < 2 ^ 63) (hn : n + w.length < 2 ^ 63) (ho : out.length = w.length) :
    ∃ s', (MemStream.ofBytes b).calls [.seek n .begin, .write w 0 w.length, .seek n .begin, .read out 0 w.length] = .ok ([.done, .done, .done, .buffer w w.length], s') := by
  have e0 : (w.drop 0).take w.length = w := by rw [List.drop_zero, List.take_length]
  have e1 : File.next ⟨splice b n w, n⟩ w.length = w := by
    rw [File.next]
    simp only []
    rw [splice, List.append_assoc, List.drop_append_of_le_length (by simp; omega), List.drop_of_length_le (by simp; omega), List.nil_append, List.take_left]
  have e2 : splice out 0 w = w := by
    rw [splice_in (by omega), List.take_zero, List.nil_append, List.drop_of_length_le (by omega), List.append_nil]
  have h : Steps Sensible ⟨b, 0⟩ [.seek n .begin, .write w 0 w.length, .seek n .begin, .read out 0 w.length]
      [.done, .done, .done, .buffer (splice out 0 (File.next ⟨splice b n w, n⟩ w.length)) (File.next ⟨splice b n w, n⟩ w.length).length]
      ⟨splice b n w, n + (File.next ⟨splice b n w, n⟩ w.length).length⟩ := by
    refine .cons (f1 := ⟨b, n⟩) (show n < 2 ^ 63 by omega) .seekBegin ?_
    refine .cons (f1 := ⟨splice b n w, n + w.length⟩) ⟨by omega, hn⟩ ?_ ?_
    · have := @Step.write ⟨b, n⟩ w 0 w.length
      rw [e0] at this
      exact this
    refine .cons (f1 := ⟨splice b n w, n⟩) (show n < 2 ^ 63 by omega) .seekBegin ?_
    refine .cons ⟨by omega, by omega, ?_⟩ .read .nil
    simp only []; rw [splice_length]; omega
  obtain ⟨s', hs, _⟩ := C33_file_front b hb _ _ _ h (by
    intro o off len hm
    simp only [List.mem_cons, reduceCtorEq, false_or, List.not_mem_nil, or_false] at hm
    cases hm; rfl)
  rw [e1, e2] at hs
  exact ⟨s', hs⟩

/-- Where `Read` is wrong: it is asked for fewer bytes than are left, into a window that does not start at the front of the caller's array. Then it gives all the bytes that are left, past
the end of the window, and outside of the caller's array if that is not long enough. -/
theorem C33_read_false (s : MemStream) (out : List Byte) (off len : Nat) (hd : s.data.length < 2 ^ 63) (hp : s.pos ≤ s.data.length) (ho : out.length < 2 ^ 63) (hw : off + len ≤ out.length)
    (h1 : len < s.data.length - s.pos) (h2 : s.data.length - s.pos < off + len) :
    (off + (s.data.length - s.pos) ≤ out.length → ∃ o, s.read out off len = .ok (o, s.data.length - s.pos, ⟨s.data, s.data.length⟩) ∧ o = splice out off (s.data.drop s.pos))
      ∧ (out.length < off + (s.data.length - s.pos) → s.read out off len = .error .ub) := by
  have e1 : sub64 s.data.length s.pos = s.data.length - s.pos := sub64_le hp (by omega)
  have e2 : add64 off len = off + len := add64_lt (by omega)
  rw [MemStream.read]
  simp only [e1, e2]
  rw [if_pos h2, if_pos (by omega)]
  constructor
  · intro hh
    refine ⟨_, ?_, rfl⟩
    rw [copy_splice (by omega) hh, ok_bind, add64_lt (by omega), List.take_of_length_le (by rw [List.length_drop]; omega),
      show s.pos + (s.data.length - s.pos) = s.data.length by omega]; rfl
  · intro hh
    have hl : ((s.data.drop s.pos).take (s.data.length - s.pos)).length = s.data.length - s.pos := by rw [List.length_take, List.length_drop]; omega
    rw [copy, if_neg (by omega), slice_ok (by omega), ok_bind, blit, if_neg (by rw [hl]; omega)]; rfl

/-- Both cases occur: 10 bytes, a window of 4 bytes at 8 in an array of 18, or of 12. -/
theorem C33_read_false_example : (∃ o s', (MemStream.ofBytes (List.replicate 10 1)).read (List.replicate 18 0) 8 4 = .ok (o, 10, s'))
    ∧ (MemStream.ofBytes (List.replicate 10 1)).read (List.replicate 12 0) 8 4 = .error .ub := by
  refine ⟨⟨List.replicate 8 0 ++ List.replicate 10 1, ⟨List.replicate 10 1, 10⟩, by decide +kernel⟩, by decide +kernel⟩

/-- After a seek beyond the end, reading and writing a byte touch memory outside of the stream; and so does reading a byte at the end. -/
theorem C33_beyond_end (s : MemStream) (out : List Byte) (off len : Nat) (v : Byte) (hd : s.data.length < 2 ^ 63) (hp : s.pos < 2 ^ 63) (ho : off + len ≤ out.length) (hl : out.length < 2 ^ 63) :
    (s.data.length ≤ s.pos → s.readByte = .error .ub)
      ∧ (s.data.length < s.pos → s.writeByte v = .error .ub)
      ∧ (s.data.length < s.pos → 0 < len → s.read out off len = .error .ub) := by
  refine ⟨?_, ?_, ?_⟩
  · intro h; rw [MemStream.readByte, rd_ub h]; rfl
  · intro h
    rw [MemStream.writeByte, sub64_gt h (by omega), if_neg (by omega), wr_ub v (by omega)]; rfl
  · intro h h0
    rw [MemStream.read, sub64_gt h (by omega), add64_lt (by omega), if_neg (show ¬ 2 ^ 64 - (s.pos - s.data.length) < off + len by omega), if_pos h0, copy, if_neg (by omega), slice, if_neg (by omega)]; rfl

/-- `CopyTo` writes the whole content at the position of the destination. -/
theorem C33_copyTo (s d : MemStream) (hp : d.pos + s.data.length < 2 ^ 63) :
    s.copyTo d = .ok ⟨splice d.data d.pos s.data, d.pos + s.data.length⟩ := by
  rw [MemStream.copyTo, MemStream.write, add64_lt (by omega), copy_splice (by omega) (by rw [grow_length]; omega), List.drop_zero, List.take_length, splice_grow]; rfl

/-! ## StreamWriter and StreamReader -/

theorem Item.enc_length_pos (i : Item) : i.enc.length = match i with
    | .u8 _ => 1 | .u16 _ => 2 | .u32 _ => 4 | .u64 _ => 8 | .bytes b => b.length := by
  cases i <;> simp [Item.enc]

theorem leRep_enc (n : Nat) {w : Nat} (v : BitVec w) : leRep n v = leEnc n v.toNat := by
  apply leVal_inj
  · rw [leRep_length, leEnc_length]
  · rw [leVal_leRep, leVal_leEnc]

theorem blit_splice {b w : List Byte} {n : Nat} (h : n + w.length ≤ b.length) : blit b n w = .ok (splice b n w) := by
  rw [blit_ok h, splice_in h]

theorem put_eq (w : Writer) (i : Item) (h : w.pos + i.enc.length < 2 ^ 64) : w.put i = .ok ⟨splice w.state w.pos i.enc, w.pos + i.enc.length⟩ := by
  have g (n : Nat) (h : w.pos + n < 2 ^ 64) : (w.grow n).length = max w.state.length (w.pos + n) := by
    rw [Writer.grow, add64_lt h, grow_length]
  have sg (x : List Byte) (h : w.pos + x.length < 2 ^ 64) : splice (w.grow x.length) w.pos x = splice w.state w.pos x := by
    rw [Writer.grow, add64_lt h, splice_grow]
  cases i with
  | u8 v =>
    simp only [Item.enc, List.length_singleton] at h ⊢
    rw [Writer.put, wr_splice v (by rw [g 1 h]; omega), ok_bind, add64_lt h, ← sg [v] (by simpa using h)]; rfl
  | u16 v =>
    simp only [Item.enc, leEnc_length] at h ⊢
    rw [Writer.put, le16ToBytes, leRep_enc, blit_splice (by rw [g 2 h, leEnc_length]; omega), ok_bind, add64_lt h]
    have := sg (leEnc 2 v.toNat) (by rw [leEnc_length]; exact h)
    rw [leEnc_length] at this
    rw [this]; rfl
  | u32 v =>
    simp only [Item.enc, leEnc_length] at h ⊢
    rw [Writer.put, le32ToBytes, leRep_enc, blit_splice (by rw [g 4 h, leEnc_length]; omega), ok_bind, add64_lt h]
    have := sg (leEnc 4 v.toNat) (by rw [leEnc_length]; exact h)
    rw [leEnc_length] at this
    rw [this]; rfl
  | u64 v =>
    simp only [Item.enc, leEnc_length] at h ⊢
    rw [Writer.put, le64ToBytes, leRep_enc, blit_splice (by rw [g 8 h, leEnc_length]; omega), ok_bind, add64_lt h]
    have := sg (leEnc 8 v.toNat) (by rw [leEnc_length]; exact h)
    rw [leEnc_length] at this
    rw [this]; rfl
  | bytes b =>
    simp only [Item.enc] at h ⊢
    rw [Writer.put, copy_splice (by omega) (by rw [g _ h]; omega), List.drop_zero, List.take_length, ok_bind, add64_lt h, sg b h]; rfl

/-- The writer after a list of writes. -/
theorem puts_eq (is : List Item) (w : Writer) (pre : List Byte) (h : w.pos = pre.length) (hs : w.state.take w.pos = pre)
    (hlen : w.pos + (is.flatMap Item.enc).length < 2 ^ 64) :
    ∃ w', w.puts is = .ok w' ∧ w'.pos = w.pos + (is.flatMap Item.enc).length ∧ w'.state.take w'.pos = pre ++ is.flatMap Item.enc := by
  induction is generalizing w pre with
  | nil => exact ⟨w, rfl, by simp, by simpa using hs⟩
  | cons i is ih =>
    rw [List.flatMap_cons, List.length_append] at hlen
    have hpre : pre.length ≤ w.state.length := by
      rw [← hs, List.length_take]; omega
    have e := put_eq w i (by omega)
    obtain ⟨w', e1, e2, e3⟩ := ih ⟨splice w.state w.pos i.enc, w.pos + i.enc.length⟩ (pre ++ i.enc) (by simp only []; rw [List.length_append, h])
      (by
        simp only []
        rw [splice, h, show pre.length - w.state.length = 0 by omega, List.replicate_zero, List.append_nil, ← h, hs, h, ← List.length_append, List.take_left])
      (by simp only []; omega)
    refine ⟨w', by rw [Writer.puts, e, ok_bind, e1], by rw [e2, List.flatMap_cons, List.length_append]; simp only []; omega, by rw [e3, List.flatMap_cons, List.append_assoc]⟩

theorem get_eq (pre post : List Byte) (i : Item) (h : (pre ++ i.enc ++ post).length < 2 ^ 63) :
    get ⟨pre ++ i.enc ++ post, pre.length⟩ i.kind = .ok (i, ⟨pre ++ i.enc ++ post, pre.length + i.enc.length⟩) := by
  simp only [List.length_append] at h
  cases i with
  | u8 v =>
    simp only [Item.enc, Item.kind, List.length_singleton] at h ⊢
    rw [get]
    simp only []
    rw [rd_ok (by simp), ok_bind, add64_lt (by omega)]
    simp [MemStream.seek]
  | u16 v =>
    simp only [Item.enc, Item.kind, leEnc_length] at h ⊢
    rw [get]
    simp only []
    rw [leBytesTo16, slice_holds ⟨pre, post, rfl, rfl⟩ (by rw [leEnc_length]), add64_lt (by omega)]
    have : leUnrep 16 (leEnc 2 v.toNat) = v := by
      apply BitVec.eq_of_toNat_eq
      rw [leUnrep_toNat _ _ (by rw [leEnc_length]; decide), leVal_leEnc, Nat.mod_eq_of_lt v.isLt]
    simp [this, MemStream.seek]
  | u32 v =>
    simp only [Item.enc, Item.kind, leEnc_length] at h ⊢
    rw [get]
    simp only []
    rw [leBytesTo32, slice_holds ⟨pre, post, rfl, rfl⟩ (by rw [leEnc_length]), add64_lt (by omega)]
    have : leUnrep 32 (leEnc 4 v.toNat) = v := by
      apply BitVec.eq_of_toNat_eq
      rw [leUnrep_toNat _ _ (by rw [leEnc_length]; decide), leVal_leEnc, Nat.mod_eq_of_lt v.isLt]
    simp [this, MemStream.seek]
  | u64 v =>
    simp only [Item.enc, Item.kind, leEnc_length] at h ⊢
    rw [get]
    simp only []
    rw [leBytesTo64, slice_holds ⟨pre, post, rfl, rfl⟩ (by rw [leEnc_length]), add64_lt (by omega)]
    have : leUnrep 64 (leEnc 8 v.toNat) = v := by
      apply BitVec.eq_of_toNat_eq
      rw [leUnrep_toNat _ _ (by rw [leEnc_length]; decide), leVal_leEnc, Nat.mod_eq_of_lt v.isLt]
    simp [this, MemStream.seek]
  | bytes b =>
    simp only [Item.enc, Item.kind] at h ⊢
    rw [get, readBytes]
    obtain ⟨s', e, r⟩ := call_step (s := ⟨pre ++ b ++ post, pre.length⟩) (f := ⟨pre ++ b ++ post, pre.length⟩) (r := .read (List.replicate b.length 0) 0 b.length)
      ⟨rfl, rfl, by simp only [List.length_append]; omega, by simp only []; omega⟩ ⟨by simp, by rw [List.length_replicate]; omega, by simp only [List.length_append]; omega⟩
      (by simp only [ReadFits, List.length_append]; omega) .read
    have e1 : File.next ⟨pre ++ b ++ post, pre.length⟩ b.length = b := by
      rw [File.next]; simp only []
      rw [List.append_assoc, List.drop_left, List.take_left]
    rw [e1, splice_in (by simp), List.take_zero, List.nil_append, Nat.zero_add, List.drop_of_length_le (by simp), List.append_nil] at e
    rw [e1] at r
    rw [MemStream.call] at e
    cases hm : MemStream.read ⟨pre ++ b ++ post, pre.length⟩ (List.replicate b.length 0) 0 b.length with
    | error x => rw [hm] at e; cases e
    | ok t =>
      obtain ⟨d, n, s⟩ := t
      rw [hm] at e
      simp only [ok_bind, pure_eq_ok, Except.ok.injEq, Prod.mk.injEq, Ans.buffer.injEq] at e
      obtain ⟨⟨rfl, rfl⟩, rfl⟩ := e
      simp only [ok_bind, pure_eq_ok, Except.ok.injEq, Prod.mk.injEq, true_and]
      obtain ⟨x, y⟩ := s
      rw [MemStream.mk.injEq]
      exact ⟨r.data, r.pos⟩

theorem gets_eq (is : List Item) (pre post : List Byte) (h : (pre ++ is.flatMap Item.enc ++ post).length < 2 ^ 63) :
    gets ⟨pre ++ is.flatMap Item.enc ++ post, pre.length⟩ (is.map Item.kind) = .ok (is, ⟨pre ++ is.flatMap Item.enc ++ post, pre.length + (is.flatMap Item.enc).length⟩) := by
  induction is generalizing pre with
  | nil => simp [gets]
  | cons i is ih =>
    rw [List.map_cons, gets]
    have e : pre ++ (i :: is).flatMap Item.enc ++ post = pre ++ i.enc ++ (is.flatMap Item.enc ++ post) := by simp
    have e' : pre ++ (i :: is).flatMap Item.enc ++ post = (pre ++ i.enc) ++ is.flatMap Item.enc ++ post := by simp
    rw [e, get_eq pre _ i (by rw [← e]; exact h), ok_bind]
    simp only []
    have := ih (pre ++ i.enc) (by rw [← e']; exact h)
    rw [show pre ++ i.enc ++ (is.flatMap Item.enc ++ post) = (pre ++ i.enc) ++ is.flatMap Item.enc ++ post by simp, ← List.length_append, this]
    simp only [ok_bind, pure_eq_ok, List.flatMap_cons, List.length_append, Nat.add_assoc]

/-- Every sequence of typed values written to a stream writer, whatever array it was made from, is read back from its stream as the same values, of the same types; the stream holds the
little-endian encodings and nothing else. -/
theorem C33_typed_roundtrip (b : List Byte) (is : List Item) (h : (is.flatMap Item.enc).length < 2 ^ 63) :
    ∃ w s', (Writer.ofBytes b).puts is = .ok w ∧ w.pos = (is.flatMap Item.enc).length ∧ w.getStream = ⟨is.flatMap Item.enc, 0⟩
      ∧ gets w.getStream (is.map Item.kind) = .ok (is, s') ∧ s'.pos = (is.flatMap Item.enc).length := by
  obtain ⟨w, e1, e2, e3⟩ := puts_eq is (Writer.ofBytes b) [] rfl (by simp [Writer.ofBytes]) (by simp only [Writer.ofBytes]; omega)
  have hp : w.pos = (is.flatMap Item.enc).length := by rw [e2]; simp [Writer.ofBytes]
  have hg : w.getStream = ⟨is.flatMap Item.enc, 0⟩ := by
    have hle : w.pos ≤ w.state.length := by
      have := congrArg List.length e3
      rw [List.length_take, List.nil_append] at this
      omega
    rw [Writer.getStream, MemStream.ofBytes, resize, e3, show w.pos - w.state.length = 0 by omega]
    simp
  refine ⟨w, ⟨is.flatMap Item.enc, (is.flatMap Item.enc).length⟩, e1, hp, hg, ?_, rfl⟩
  have := gets_eq is [] [] (by simpa using h)
  rw [hg]
  simpa using this

/-- The writer that was made with a length starts with zeros, so this covers it. -/
theorem C33_writer_length (n : Nat) : Writer.ofLength n = Writer.ofBytes (List.replicate n 0) := rfl

/-- The reader does not notice the end of the stream: `ReadBytes` fills up with zeros, so data and missing data cannot be told apart. -/
theorem C33_readBytes (s : MemStream) (n : Nat) (hd : s.data.length < 2 ^ 63) (hp : s.pos ≤ s.data.length) (hn : n < 2 ^ 63) :
    ∃ s', readBytes s n = .ok ((s.data.drop s.pos).take n ++ List.replicate (n - (s.data.length - s.pos)) 0, s') := by
  obtain ⟨s', e, r⟩ := call_step (s := s) (f := ⟨s.data, s.pos⟩) (r := .read (List.replicate n 0) 0 n)
      ⟨rfl, rfl, hd, by simp only []; omega⟩ ⟨by simp, by rw [List.length_replicate]; omega, hp⟩ (by simp only [ReadFits]; omega) .read
  have hl := next_length ⟨s.data, s.pos⟩ n
  simp only [] at hl
  rw [MemStream.call] at e
  cases hm : s.read (List.replicate n 0) 0 n with
  | error x => rw [hm] at e; cases e
  | ok t =>
    obtain ⟨d, c, s1⟩ := t
    rw [hm] at e
    simp only [ok_bind, pure_eq_ok, Except.ok.injEq, Prod.mk.injEq, Ans.buffer.injEq] at e
    obtain ⟨⟨rfl, rfl⟩, rfl⟩ := e
    refine ⟨s1, ?_⟩
    rw [readBytes, hm, ok_bind]
    simp only [pure_eq_ok, Except.ok.injEq, Prod.mk.injEq, and_true]
    rw [splice_in (by rw [List.length_replicate]; omega), List.take_zero, List.nil_append, List.drop_replicate, hl]
    show (s.data.drop s.pos).take n ++ _ = _
    congr 2
    omega

/-- A non-trivial case of `C33_typed_roundtrip`. -/
example : ∃ w, (Writer.ofBytes [9, 9, 9]).puts [.u16 0x1234#16, .bytes [7, 8], .u8 5] = .ok w ∧ w.getStream.data = [0x34, 0x12, 7, 8, 5] := ⟨_, rfl, by decide⟩

/-- A non-trivial case of `C33_file_partial`: overwrite in the middle, append, seek and read. -/
example : ∃ s', (MemStream.ofBytes [1, 2, 3]).calls [.seek 2 .begin, .write [8, 9] 0 2, .writeByte 7, .seek 3 .end_, .read [0, 0] 0 2, .length]
    = .ok ([.done, .done, .done, .done, .buffer [8, 9] 2, .number 5], s')   := ⟨⟨[1, 2, 8, 9, 7], 4⟩, by decide +kernel⟩

end Cex.Streams
