import Verif.Streams.SecureModel
import Verif.Streams.Props
import Verif.Modes.Props
import Verif.Rijndael.Props

/-!
# C94 The secure stream is a byte list with a cursor, stored under a keystream
-/

namespace Cex.Streams
open Cex Cex.Kdf Cex.Modes

/-- The keystream of a stream of `n` bytes: the textbook counter mode of C16. -/
def Secret.ks (e : Secret) (n : Nat) : List Byte := Spec.ctrStream e.c.enc (Spec.beCounter e.nonce) n

/-- What is asked of the setting: a cipher that keeps the block length, a nonce of 16 bytes, a parallel profile as C19 gives it with parallel blocks of at most 1 MB (see C17), and parallel sections that
run to their end. -/
structure Secret.Good (e : Secret) : Prop where
  enc : ∀ b, b.length = 16 → (e.c.enc b).length = 16
  nonce : e.nonce.length = 16
  valid : e.p.Valid
  small : SmallBlock e.p
  fair : ∀ t len, Fair e.p (ctrTurns e.W (e.p.blockSize / e.p.degree)) len (e.scheds t)

variable {e : Secret}

theorem ks_length (g : e.Good) (n : Nat) : (e.ks n).length = n := ctrStream_length e.c.enc g.enc .ctr e.nonce n

theorem ks_take (g : e.Good) {m n : Nat} (h : m ≤ n) : (e.ks n).take m = e.ks m := by
  have e1 : e.ks n = (ksBlocks e.c.enc .ctr e.nonce ((n + 15) / 16)).take n := ctrStream_eq e.c.enc .ctr e.nonce n
  have e2 : e.ks m = (ksBlocks e.c.enc .ctr e.nonce ((m + 15) / 16)).take m := ctrStream_eq e.c.enc .ctr e.nonce m
  rw [e1, e2, List.take_take, Nat.min_eq_left h, show (n + 15) / 16 = (m + 15) / 16 + ((n + 15) / 16 - (m + 15) / 16) by omega, ksBlocks_add,
    List.take_append_of_le_length (by rw [ksBlocks_length e.c.enc g.enc]; omega)]

theorem ks_split (g : e.Good) {m n : Nat} (h : m ≤ n) : e.ks n = e.ks m ++ (e.ks n).drop m := by
  conv => lhs; rw [← List.take_append_drop m (e.ks n), ks_take g h]

/-- The bytes under the keystream. -/
def Secret.hide (e : Secret) (b : List Byte) : List Byte := xorBytes (e.ks b.length) b

theorem hide_length (g : e.Good) (b : List Byte) : (e.hide b).length = b.length := by rw [Secret.hide, xorBytes_length, ks_length g, Nat.min_self]

theorem hide_hide (g : e.Good) (b : List Byte) : e.hide (e.hide b) = b := by
  rw [Secret.hide, hide_length g, Secret.hide, xorBytes_cancel (ks_length g _)]

theorem transform_hide (g : e.Good) (d : List Byte) (pos clock : Nat) : ∃ t, SecStream.transform e ⟨d, pos, clock⟩ = .ok ⟨e.hide d, pos, t⟩ := by
  rw [SecStream.transform]
  split
  · have := ctrTransform_ok .ctr e.W e.c g.enc e.p g.valid e.nonce d d 0 g.nonce (Holds.self d) [] (List.replicate d.length 0) [] 0 rfl (by rw [List.length_replicate])
      (noLostCarry_of_small g.valid g.small _ _) (e.scheds clock) (g.fair clock d.length)
    simp only [List.nil_append, List.append_nil] at this
    simp only [this, ok_bind]
    exact ⟨clock + 1, rfl⟩
  · rename_i h
    have : d = [] := List.eq_nil_of_length_eq_zero (by simpa using h)
    subst this
    exact ⟨clock, rfl⟩

theorem xorBytes_zeros (a : List Byte) : xorBytes a (List.replicate a.length 0) = a := by
  induction a with
  | nil => rfl
  | cons x a ih =>
    rw [List.length_cons, List.replicate_succ]
    show (x ^^^ 0) :: xorBytes a (List.replicate a.length 0) = _
    rw [ih]
    simp

/-- Growing the stored bytes with zeros shows the keystream. -/
theorem hide_grow (g : e.Good) (b : List Byte) (n : Nat) (h : b.length ≤ n) : e.hide (resize (e.hide b) n) = b ++ (e.ks n).drop b.length := by
  have hr : resize (e.hide b) n = e.hide b ++ List.replicate (n - b.length) 0 := by
    rw [resize, List.take_of_length_le (by rw [hide_length g]; exact h), hide_length g]
  have hl : ((e.ks n).drop b.length).length = n - b.length := by rw [List.length_drop, ks_length g]
  have hz := xorBytes_zeros ((e.ks n).drop b.length)
  rw [hl] at hz
  have hsp := ks_split g h
  generalize (e.ks n).drop b.length = z at *
  rw [Secret.hide, resize_length, hsp, hr, xorBytes_append (by rw [ks_length g, hide_length g]), hz, Secret.hide, xorBytes_cancel (ks_length g _)]

/-- The code state holds the file under the keystream, and size and cursor are in range. -/
structure Holds' (e : Secret) (s : SecStream) (f : File) : Prop where
  data : s.data = e.hide f.bytes
  pos : s.pos = f.cursor
  size : f.bytes.length < 2 ^ 63
  cursor : f.cursor < 2 ^ 63

/-- Writing does not leave a gap. -/
def NoGap (f : File) : Req → Prop
  | .write _ _ _ => f.cursor ≤ f.bytes.length
  | _ => True

/-- What a write leaves, wherever the cursor is. -/
theorem write_any (g : e.Good) {s : SecStream} {f : File} (h : Holds' e s f) (inp : List Byte) (off len : Nat) (hw : off + len ≤ inp.length) (hc : f.cursor + len < 2 ^ 63) :
    ∃ t, s.write e inp off len =
      .ok ⟨e.hide (splice (f.bytes ++ (e.ks (f.cursor + len)).drop f.bytes.length) f.cursor ((inp.drop off).take len)), f.cursor + len, t⟩ := by
  obtain ⟨data, pos, clock⟩ := s
  obtain ⟨hd, hp, h1, h2⟩ := h
  simp only [] at hd hp
  subst hd; subst hp
  have hk : ((e.ks (f.cursor + len)).drop f.bytes.length).length = f.cursor + len - f.bytes.length := by rw [List.length_drop, ks_length g]
  have key : ∃ t, SecStream.transform e (if (e.hide f.bytes).length < f.cursor + len then ⟨resize (e.hide f.bytes) (f.cursor + len), f.cursor, clock⟩ else ⟨e.hide f.bytes, f.cursor, clock⟩)
      = .ok ⟨f.bytes ++ (e.ks (f.cursor + len)).drop f.bytes.length, f.cursor, t⟩ := by
    rw [hide_length g]
    split
    · rename_i hlt
      obtain ⟨t, ht⟩ := transform_hide g (resize (e.hide f.bytes) (f.cursor + len)) f.cursor clock
      exact ⟨t, by rw [ht, hide_grow g _ _ (by omega)]⟩
    · rename_i hlt
      obtain ⟨t, ht⟩ := transform_hide g (e.hide f.bytes) f.cursor clock
      refine ⟨t, ?_⟩
      rw [ht, hide_hide g, List.eq_nil_of_length_eq_zero (l := (e.ks (f.cursor + len)).drop f.bytes.length) (by rw [hk]; omega), List.append_nil]
  obtain ⟨t, ht⟩ := key
  obtain ⟨t', ht'⟩ := transform_hide g (splice (f.bytes ++ (e.ks (f.cursor + len)).drop f.bytes.length) f.cursor ((inp.drop off).take len)) f.cursor t
  refine ⟨t', ?_⟩
  rw [SecStream.write]
  simp only [add64_lt (show f.cursor + len < 2 ^ 64 by omega)]
  rw [ht, ok_bind]
  simp only []
  rw [copy_splice hw (by rw [List.length_append, hk]; omega), ok_bind, ht', ok_bind]
  simp only []
  rw [add64_lt (show f.cursor + len < 2 ^ 64 by omega)]
  rfl

theorem splice_tail (b r w : List Byte) (n : Nat) (h : n ≤ b.length) (hr : r.length = n + w.length - b.length) : splice (b ++ r) n w = splice b n w := by
  rw [splice_in (by rw [List.length_append]; omega), splice, show n - b.length = 0 by omega, List.replicate_zero, List.append_nil, List.take_append_of_le_length h]
  congr 1
  by_cases hx : n + w.length ≤ b.length
  · rw [List.eq_nil_of_length_eq_zero (l := r) (by omega), List.append_nil]
  · rw [List.drop_of_length_le (by rw [List.length_append]; omega), List.drop_of_length_le (by omega)]

theorem sec_step (g : e.Good) {s : SecStream} {f : File} {r : Req} {a : Ans} {f' : File} (h : Holds' e s f) (hok : Sensible f r) (hfit : ReadFits f r) (hgap : NoGap f r)
    (hs : Step f r a f') : ∃ s', s.call e r = .ok (a, s') ∧ Holds' e s' f' := by
  have hh := h
  obtain ⟨data, pos, clock⟩ := s
  obtain ⟨hd, hp, h1, h2⟩ := h
  simp only [] at hd hp
  subst hd; subst hp
  obtain ⟨t1, ht1⟩ := transform_hide g (e.hide f.bytes) f.cursor clock
  rw [hide_hide g] at ht1
  obtain ⟨t2, ht2⟩ := transform_hide g f.bytes f.cursor t1
  cases hs with
  | @read out off len =>
    obtain ⟨hw, ho, hc⟩ := hok
    have hfit : off + len ≤ f.bytes.length - f.cursor ∨ f.bytes.length - f.cursor ≤ len := hfit
    have e1 : sub64 f.bytes.length f.cursor = f.bytes.length - f.cursor := sub64_le hc (by omega)
    have e2 : add64 off len = off + len := add64_lt (by omega)
    have key : ∃ t, SecStream.read e ⟨e.hide f.bytes, f.cursor, clock⟩ out off len =
        .ok (splice out off (f.next len), (f.next len).length, ⟨e.hide f.bytes, f.cursor + (f.next len).length, t⟩) := by
      rw [SecStream.read]
      simp only [hide_length g, e1, e2]
      have e3 : (if f.bytes.length - f.cursor < off + len then f.bytes.length - f.cursor else len) = (f.next len).length := by
        rw [next_length]; split <;> omega
      rw [e3]
      have hm := next_length f len
      split
      · rw [ht1, ok_bind]
        simp only []
        rw [copy_splice (by omega) (by omega), ok_bind, ht2, ok_bind]
        simp only []
        rw [add64_lt (by omega)]
        have : (f.bytes.drop f.cursor).take (f.next len).length = f.next len := by
          rw [File.next, List.length_take, List.take_eq_take_iff]; omega
        rw [this]; exact ⟨t2, rfl⟩
      · have h0 : (f.next len).length = 0 := by omega
        rw [h0, List.eq_nil_of_length_eq_zero h0, splice_nil_in (by omega)]; exact ⟨clock, rfl⟩
    obtain ⟨t, key⟩ := key
    refine ⟨⟨e.hide f.bytes, f.cursor + (f.next len).length, t⟩, ?_, ⟨rfl, rfl, h1, ?_⟩⟩
    · rw [SecStream.call, key]; rfl
    · simp only []; rw [next_length]; omega
  | @readByte b hb =>
    have hc : f.cursor < f.bytes.length := hok
    refine ⟨⟨e.hide f.bytes, f.cursor + 1, t2⟩, ?_, ⟨rfl, rfl, h1, ?_⟩⟩
    · rw [SecStream.call, SecStream.readByte, ht1, ok_bind]
      simp only []
      rw [rd_ok hc, ok_bind, ht2, ok_bind]
      simp only []
      rw [add64_lt (by omega)]
      have : f.bytes[f.cursor] = b := by
        rw [File.next, ← List.getElem_cons_drop hc, List.take_succ_cons, List.take_zero] at hb
        exact (List.cons.inj hb).1
      rw [this]; rfl
    · simp only []; omega
  | @write inp off len =>
    obtain ⟨hw, hc⟩ := hok
    have hgap : f.cursor ≤ f.bytes.length := hgap
    have hl : ((inp.drop off).take len).length = len := by rw [List.length_take, List.length_drop]; omega
    obtain ⟨t, ht⟩ := write_any g hh inp off len hw hc
    rw [splice_tail _ _ _ _ hgap (by rw [List.length_drop, ks_length g, hl])] at ht
    refine ⟨_, by rw [SecStream.call, ht]; rfl, ⟨rfl, rfl, ?_, hc⟩⟩
    simp only []; rw [splice_length, hl]; omega
  | @writeByte v =>
    obtain ⟨hc, hb⟩ := hok
    have hk : ((e.ks (f.cursor + 1)).drop f.bytes.length).length = f.cursor + 1 - f.bytes.length := by rw [List.length_drop, ks_length g]
    have key : ∃ t, SecStream.transform e (if f.bytes.length - f.cursor < 1 then ⟨resize (e.hide f.bytes) (f.bytes.length + 1), f.cursor, clock⟩ else ⟨e.hide f.bytes, f.cursor, clock⟩)
        = .ok ⟨f.bytes ++ (e.ks (f.cursor + 1)).drop f.bytes.length, f.cursor, t⟩ := by
      split
      · rename_i hlt
        have hx : f.bytes.length = f.cursor := by omega
        obtain ⟨t, ht⟩ := transform_hide g (resize (e.hide f.bytes) (f.cursor + 1)) f.cursor clock
        exact ⟨t, by rw [show f.bytes.length + 1 = f.cursor + 1 by omega, ht, hide_grow g _ _ (by omega)]⟩
      · rename_i hlt
        refine ⟨t1, ?_⟩
        rw [ht1, List.eq_nil_of_length_eq_zero (l := (e.ks (f.cursor + 1)).drop f.bytes.length) (by rw [hk]; omega), List.append_nil]
    obtain ⟨t, ht⟩ := key
    obtain ⟨t', ht'⟩ := transform_hide g (splice f.bytes f.cursor [v]) f.cursor t
    refine ⟨⟨e.hide (splice f.bytes f.cursor [v]), f.cursor + 1, t'⟩, ?_, ⟨rfl, rfl, ?_, ?_⟩⟩
    · rw [SecStream.call, SecStream.writeByte]
      simp only [hide_length g]
      rw [sub64_le hc (by omega), ht, ok_bind]
      simp only []
      rw [wr_splice v (by rw [List.length_append, hk]; omega), ok_bind, splice_tail _ _ _ _ hc (by rw [hk]; rfl), ht', ok_bind]
      simp only []
      rw [add64_lt (by omega)]
      rfl
    · simp only []; rw [splice_length, List.length_singleton]; omega
    · simp only []; omega
  | @seekBegin n => exact ⟨_, rfl, ⟨rfl, rfl, h1, hok⟩⟩
  | @seekCurrent n =>
    have hok : f.cursor + n < 2 ^ 63 := hok
    exact ⟨⟨e.hide f.bytes, add64 f.cursor n, clock⟩, rfl, ⟨rfl, add64_lt (by omega), h1, hok⟩⟩
  | @seekEnd n =>
    have hok : n ≤ f.bytes.length := hok
    refine ⟨⟨e.hide f.bytes, sub64 (e.hide f.bytes).length n, clock⟩, rfl, ⟨rfl, ?_, h1, by simp only []; omega⟩⟩
    simp only []
    rw [hide_length g]
    exact sub64_le hok (by omega)
  | reset => exact ⟨⟨[], 0, clock⟩, rfl, ⟨rfl, rfl, by decide, by decide⟩⟩
  | close => exact ⟨⟨[], 0, clock⟩, rfl, ⟨rfl, rfl, by decide, by decide⟩⟩
  | length => exact ⟨_, by rw [SecStream.call]; simp only [hide_length g]; rfl, ⟨rfl, rfl, h1, h2⟩⟩
  | position => exact ⟨_, rfl, ⟨rfl, rfl, h1, h2⟩⟩
  | toArray =>
    by_cases h0 : f.bytes.length = 0
    · refine ⟨⟨e.hide f.bytes, f.cursor, clock⟩, ?_, ⟨rfl, rfl, h1, h2⟩⟩
      rw [SecStream.call, SecStream.toArray, if_neg (by rw [hide_length g]; exact not_not.mpr h0), List.eq_nil_of_length_eq_zero h0]
      rfl
    · refine ⟨⟨e.hide f.bytes, f.cursor, t2⟩, ?_, ⟨rfl, rfl, h1, h2⟩⟩
      rw [SecStream.call, SecStream.toArray, if_pos (by rw [hide_length g]; exact h0), ht1, ok_bind]
      simp only []
      rw [ht2]
      rfl

theorem sec_steps (g : e.Good) {s : SecStream} {f : File} {rs : List Req} {as : List Ans} {f' : File} (h : Holds' e s f)
    (hs : Steps (fun f r => Sensible f r ∧ ReadFits f r ∧ NoGap f r) f rs as f') : ∃ s', s.calls e rs = .ok (as, s') ∧ Holds' e s' f' := by
  induction hs generalizing s with
  | nil => exact ⟨s, rfl, h⟩
  | cons hok hst _ ih =>
    obtain ⟨s1, e1, r1⟩ := sec_step g h hok.1 hok.2.1 hok.2.2 hst
    obtain ⟨s2, e2, r2⟩ := ih r1
    exact ⟨s2, by rw [SecStream.calls, e1, ok_bind]; simp only []; rw [e2]; rfl, r2⟩

theorem ofBytes_holds (g : e.Good) (b : List Byte) (hb : b.length < 2 ^ 63) : ∃ s, SecStream.ofBytes e b = .ok s ∧ Holds' e s ⟨b, 0⟩ := by
  obtain ⟨t, ht⟩ := transform_hide g b 0 0
  exact ⟨_, ht, ⟨rfl, rfl, hb, by simp⟩⟩

/-- **C94 (partial).** Every sequence of sensible calls on a secure stream made from an array answers as the file of C33 does, and after it the stored bytes are the content of the file XOR the AES
keystream. Missing: reads as in C33, and writes beyond the end, for which the statement is false (`C94_gap_false`). -/
theorem C94_file_partial (g : e.Good) (b : List Byte) (hb : b.length < 2 ^ 63) (rs : List Req) (as : List Ans) (f' : File)
    (h : Steps (fun f r => Sensible f r ∧ ReadFits f r ∧ NoGap f r) ⟨b, 0⟩ rs as f') :
    ∃ s s', SecStream.ofBytes e b = .ok s ∧ s.calls e rs = .ok (as, s') ∧ s'.pos = f'.cursor ∧
      s'.data = xorBytes (Spec.ctrStream e.c.enc (Spec.beCounter e.nonce) f'.bytes.length) f'.bytes := by
  obtain ⟨s, hs, hr⟩ := ofBytes_holds g b hb
  obtain ⟨s', e1, r⟩ := sec_steps g hr h
  exact ⟨s, s', hs, e1, r.pos, r.data⟩

/-- **C94.** All streams with the same salt in a process use the same keystream: the stored bytes of two streams differ as their contents do, so that one known content discloses the other. -/
theorem C94_same_keystream (g : e.Good) (a b : List Byte) (ha : a.length < 2 ^ 63) (hl : a.length = b.length) :
    ∃ s t, SecStream.ofBytes e a = .ok s ∧ SecStream.ofBytes e b = .ok t ∧ xorBytes (xorBytes s.data t.data) a = b := by
  obtain ⟨s, hs, rs⟩ := ofBytes_holds g a ha
  obtain ⟨t, ht, rt⟩ := ofBytes_holds g b (by omega)
  refine ⟨s, t, hs, ht, ?_⟩
  rw [rs.data, rt.data, Secret.hide, Secret.hide, hl]
  have hk := ks_length g b.length
  generalize e.ks b.length = k at hk
  clear rs rt hs ht ha
  induction k generalizing a b with
  | nil =>
    cases b with
    | nil => rfl
    | cons _ _ => simp at hk
  | cons x k ih =>
    cases b with
    | nil => simp at hk
    | cons y b =>
      cases a with
      | nil => simp at hl
      | cons z a =>
        have := ih a b (by simpa using hl) (by simpa using hk)
        show (x ^^^ z ^^^ (x ^^^ y) ^^^ z) :: xorBytes (xorBytes (xorBytes k a) (xorBytes k b)) a = _
        rw [this]
        congr 1
        rw [BitVec.xor_comm x z, BitVec.xor_assoc z x, ← BitVec.xor_assoc x x, BitVec.xor_self, BitVec.zero_xor, BitVec.xor_comm z y, BitVec.xor_assoc, BitVec.xor_self, BitVec.xor_zero]

/-- A write beyond the end: the gap is filled with the keystream. -/
theorem C94_gap (g : e.Good) (b w : List Byte) (n : Nat) (hb : b.length < n) (hn : n + w.length < 2 ^ 63) :
    ∃ s s', SecStream.ofBytes e b = .ok s ∧
      s.calls e [.seek n .begin, .write w 0 w.length, .toArray] = .ok ([.done, .done, .bytes (b ++ (e.ks n).drop b.length ++ w)], s') := by
  obtain ⟨s, hs, r⟩ := ofBytes_holds g b (by omega)
  have r1 : Holds' e (s.seek n .begin) ⟨b, n⟩ := ⟨r.data, rfl, r.size, by simp only []; omega⟩
  obtain ⟨t, ht⟩ := write_any g r1 w 0 w.length (by omega) hn
  simp only [] at ht
  have hk : ((e.ks (n + w.length)).drop b.length).length = n + w.length - b.length := by rw [List.length_drop, ks_length g]
  have hx : splice (b ++ (e.ks (n + w.length)).drop b.length) n ((w.drop 0).take w.length) = b ++ (e.ks n).drop b.length ++ w := by
    rw [List.drop_zero, List.take_length, splice_in (by rw [List.length_append]; omega), List.drop_of_length_le (l := b ++ _) (by rw [List.length_append]; omega), List.append_nil,
      List.take_append, List.take_of_length_le (l := b) (by omega), ← List.drop_take, ks_take g (by omega)]
  rw [hx] at ht
  have hl : (b ++ (e.ks n).drop b.length ++ w).length = n + w.length := by
    simp only [List.length_append, List.length_drop, ks_length g]; omega
  have r2 : Holds' e ⟨e.hide (b ++ (e.ks n).drop b.length ++ w), n + w.length, t⟩ ⟨b ++ (e.ks n).drop b.length ++ w, n + w.length⟩ :=
    ⟨rfl, rfl, by simp only []; omega, hn⟩
  obtain ⟨s', e3, _⟩ := sec_step g r2 (r := .toArray) trivial trivial trivial .toArray
  refine ⟨s, s', hs, ?_⟩
  rw [SecStream.calls, SecStream.call]
  simp only [pure_eq_ok, ok_bind]
  rw [SecStream.calls, SecStream.call, ht]
  simp only [pure_eq_ok, ok_bind]
  rw [SecStream.calls, e3]
  rfl

/-- The setting that `Transform` makes (SecureStream.cpp:288-299): the first 32 bytes of the digest are the AES key, the next 16 the nonce. -/
def Secret.ofSeed (seed : List Byte) (W : Nat) (p : Profile) (scheds : Nat → Nat → List Nat) : Secret :=
  ⟨Rijndael.aesCipher (seed.take 32), (seed.drop 32).take 16, W, p, scheds⟩

theorem ofSeed_good (seed : List Byte) (h : seed.length = 64) (W : Nat) (p : Profile) (hp : p.Valid) (hs : SmallBlock p) (scheds : Nat → Nat → List Nat)
    (hf : ∀ t len, Fair p (ctrTurns W (p.blockSize / p.degree)) len (scheds t)) : (Secret.ofSeed seed W p scheds).Good where
  enc := (Rijndael.C55_good _).enc_len
  nonce := by rw [Secret.ofSeed, List.length_take, List.length_drop]; omega
  valid := hp
  small := hs
  fair := hf

theorem ks_not_zero (g : e.Good) (hc : e.c.Good) : e.ks 32 ≠ List.replicate 32 0 := by
  intro h
  have e1 : e.ks (2 * 16) = ksBlocks e.c.enc .ctr e.nonce 2 := ctrStream_blocks e.c.enc g.enc .ctr e.nonce 2
  have e2 : ksBlocks e.c.enc .ctr e.nonce 2 = e.c.enc (Spec.beCounter e.nonce 0) ++ e.c.enc (Spec.beCounter e.nonce 1) := by
    simp [ksBlocks, List.range_succ]; rfl
  have l0 : (Spec.beCounter e.nonce 0).length = 16 := cnt_length .ctr e.nonce 0
  have l1 : (Spec.beCounter e.nonce 1).length = 16 := cnt_length .ctr e.nonce 1
  rw [show (32 : Nat) = 2 * 16 from rfl, e1, e2, show List.replicate (2 * 16) (0 : Byte) = List.replicate 16 0 ++ List.replicate 16 0 from rfl] at h
  obtain ⟨h1, h2⟩ := List.append_inj h (by rw [g.enc _ l0]; rfl)
  have h3 : Spec.beCounter e.nonce 0 = Spec.beCounter e.nonce 1 := by
    rw [← hc.inv _ l0, ← hc.inv _ l1, h1, h2]
  have h4 := congrArg beVal h3
  simp only [Spec.beCounter, beVal_beEnc] at h4
  omega

/-- **C94, the gap.** A file fills a gap with zeros. The secure stream fills it with keystream, for every seed: after a seek to 32 and a write, the array is not the one of the file. Together with
`C94_same_keystream` the gap discloses the first bytes of every other stream. -/
theorem C94_gap_false (seed : List Byte) (h : seed.length = 64) (W : Nat) (p : Profile) (hp : p.Valid) (hs : SmallBlock p) (scheds : Nat → Nat → List Nat)
    (hf : ∀ t len, Fair p (ctrTurns W (p.blockSize / p.degree)) len (scheds t)) (v : Byte) :
    Steps Sensible ⟨[], 0⟩ [.seek 32 .begin, .write [v] 0 1, .toArray] [.done, .done, .bytes (List.replicate 32 0 ++ [v])] ⟨List.replicate 32 0 ++ [v], 33⟩ ∧
    ∃ s s' x, SecStream.ofBytes (Secret.ofSeed seed W p scheds) [] = .ok s ∧
      s.calls (Secret.ofSeed seed W p scheds) [.seek 32 .begin, .write [v] 0 1, .toArray] = .ok ([.done, .done, .bytes x], s') ∧
      x = (Secret.ofSeed seed W p scheds).ks 32 ++ [v] ∧ x ≠ List.replicate 32 0 ++ [v] := by
  refine ⟨?_, ?_⟩
  · refine .cons (show (32 : Nat) < 2 ^ 63 by decide) .seekBegin (.cons ?_ .write (.cons trivial .toArray .nil))
    exact ⟨Nat.le_refl _, show (32 : Nat) + 1 < 2 ^ 63 by decide⟩
  · have g := ofSeed_good seed h W p hp hs scheds hf
    obtain ⟨s, s', h1, h2⟩ := C94_gap g [] [v] 32 (by decide) (show (32 : Nat) + 1 < 2 ^ 63 by decide)
    refine ⟨s, s', _, h1, h2, ?_, ?_⟩
    · rfl
    · intro hx
      exact ks_not_zero g (Rijndael.C55_good _) (List.append_inj_left' hx rfl)

/-- A sequential instance on a seed of zeros meets the conditions. -/
def zeroSeed : Secret := Secret.ofSeed (List.replicate 64 0) 0 seqProfile (fun _ _ => [])

theorem zeroSeed_good : zeroSeed.Good :=
  ofSeed_good _ (by rw [List.length_replicate]) 0 seqProfile seqProfile_valid (fun h => by cases h) _ (fun _ _ h => by cases h)

/-- Write, overwrite, rewind and read: a sequence that `C94_file_partial` covers. -/
example : ∃ s s', SecStream.ofBytes zeroSeed [1, 2, 3] = .ok s ∧
    s.calls zeroSeed [.seek 2 .begin, .write [7, 8, 9] 1 2, .seek 1 .begin, .read [0, 0] 0 2, .readByte] =
      .ok ([.done, .done, .done, .buffer [2, 8] 2, .byte 9], s') ∧ s'.pos = 4 := by
  obtain ⟨s, s', h1, h2, h3, _⟩ := C94_file_partial zeroSeed_good [1, 2, 3] (by decide) [.seek 2 .begin, .write [7, 8, 9] 1 2, .seek 1 .begin, .read [0, 0] 0 2, .readByte]
    [.done, .done, .done, .buffer [2, 8] 2, .byte 9] ⟨[1, 2, 8, 9], 4⟩
    (.cons ⟨show (2 : Nat) < 2 ^ 63 by decide, trivial, trivial⟩ .seekBegin
      (.cons ⟨⟨by decide, by decide⟩, trivial, show (2 : Nat) ≤ 3 by decide⟩ .write
        (.cons ⟨show (1 : Nat) < 2 ^ 63 by decide, trivial, trivial⟩ .seekBegin
          (.cons ⟨⟨by decide, by decide, by decide⟩, show 0 + 2 ≤ 4 - 1 ∨ 4 - 1 ≤ 2 by decide, trivial⟩ .read
            (.cons ⟨show 3 < 4 by decide, trivial, trivial⟩ (.readByte rfl) .nil)))))
  exact ⟨s, s', h1, h2, h3⟩

end Cex.Streams
