import Verif.Poly.LimbLemmas
import Verif.IntTools.Props
import Verif.Keccak.ObjLemmas

/-! # The buffering and the accumulator of Poly1305 -/

namespace Cex.Poly
open Cex Cex.IntTools Cex.Rfc8439 Stream Cex.Mac Cex.Keccak

/-- One block of 16 bytes. -/
def blockStep (hi : BitVec 64) (r h : Limbs) (b : List Byte) : Limbs :=
  limbStep hi r (leUnrep 64 (b.take 8)) (leUnrep 64 ((b.drop 8).take 8)) h

abbrev stepB (r : Limbs) : Limbs → List Byte → Limbs := blockStep (1#64 <<< 40) r

theorem words_val {b : List Byte} (hb : b.length = 16) :
    (leUnrep 64 (b.take 8)).toNat + 2 ^ 64 * (leUnrep 64 ((b.drop 8).take 8)).toNat = leVal b := by
  rw [leUnrep_toNat _ _ (by rw [List.length_take]; omega), leUnrep_toNat _ _ (by rw [List.length_take]; omega),
    List.take_of_length_le (show (b.drop 8).length ≤ 8 by rw [List.length_drop]; omega)]
  conv => rhs; rw [← List.take_append_drop 8 b, leVal_append]
  rw [List.length_take, hb]
  rfl

theorem read_words {inp b : List Byte} {io : Nat} (h : Holds inp io b) (hb : b.length = 16) :
    leBytesTo64 inp io = .ok (leUnrep 64 (b.take 8)) ∧ leBytesTo64 inp (io + 8) = .ok (leUnrep 64 ((b.drop 8).take 8)) := by
  constructor
  · rw [leBytesTo64, slice_holds (h.takeN 8) (by rw [List.length_take]; omega)]; rfl
  · rw [leBytesTo64, slice_holds ((h.dropN (n := 8) (by omega)).takeN 8) (by rw [List.length_take, List.length_drop]; omega)]; rfl

theorem absorb_one {inp b : List Byte} {io : Nat} (h : Holds inp io b) (hb : b.length = 16) (fin : Bool) (r s : Limbs) :
    absorb inp fin r 1 io s = .ok (blockStep (if fin then 0 else 1#64 <<< 40) r s b) := by
  obtain ⟨h1, h2⟩ := read_words h hb
  rw [absorb, h1, ok_bind, h2, ok_bind]
  rfl

theorem absorb_many {inp : List Byte} (r : Limbs) : ∀ (n : Nat) (x : List Byte) (io : Nat) (s : Limbs), Holds inp io x → x.length = 16 * n →
    absorb inp false r n io s = .ok (eager 16 (stepB r) s x).1
  | 0, x, io, s, _, hl => by
    rw [List.eq_nil_of_length_eq_zero (by omega : x.length = 0), eager_short (by simp)]; rfl
  | n + 1, x, io, s, h, hl => by
    have hb : (x.take 16).length = 16 := by rw [List.length_take]; omega
    obtain ⟨h1, h2⟩ := read_words (h.takeN 16) hb
    have ih := absorb_many r n (x.drop 16) (io + 16) (stepB r s (x.take 16)) (h.dropN (by omega)) (by rw [List.length_drop]; omega)
    rw [absorb, h1, ok_bind, h2, ok_bind]
    conv => rhs; rw [← List.take_append_drop 16 x, eager_cons (by omega) hb]
    exact ih

/-! ## The accumulator of RFC 8439 -/

theorem modEq_step {a b c r : Nat} (h : a ≡ b [MOD p]) : (a + c) * r ≡ (b + c) * r [MOD p] := (h.add_right c).mul_right r

theorem leVal_one (b : List Byte) : leVal (b ++ [1]) = leVal b + 256 ^ b.length := by
  rw [leVal_append]; simp [leVal]

theorem blockStep_val {r h : Limbs} (hr : r.Clamped) (hh : h.Small) {b : List Byte} (hb : b.length = 16) :
    (stepB r h b).Small ∧ (stepB r h b).val % p = accStep r.val (h.val % p) b := by
  obtain ⟨h1, h2⟩ := limbStep_val (1#64 <<< 40) r (leUnrep 64 (b.take 8)) (leUnrep 64 ((b.drop 8).take 8)) h hr hh (Or.inr rfl)
  refine ⟨h1, ?_⟩
  rw [words_val hb] at h2
  rw [accStep, leVal_one, hb]
  refine h2.trans (modEq_step (c := leVal b + 256 ^ 16) (Nat.mod_modEq h.val p).symm)

/-- The last, short block with a one byte and zeros. -/
theorem lastStep_val {r h : Limbs} (hr : r.Clamped) (hh : h.Small) {b : List Byte} (hb : b.length < 16) :
    (blockStep 0 r h (b ++ [1] ++ List.replicate (16 - b.length - 1) 0)).Small
      ∧ (blockStep 0 r h (b ++ [1] ++ List.replicate (16 - b.length - 1) 0)).val % p = accStep r.val (h.val % p) b := by
  obtain ⟨h1, h2⟩ := limbStep_val 0 r (leUnrep 64 ((b ++ [1] ++ List.replicate (16 - b.length - 1) 0).take 8))
    (leUnrep 64 (((b ++ [1] ++ List.replicate (16 - b.length - 1) 0).drop 8).take 8)) h hr hh (Or.inl rfl)
  refine ⟨h1, ?_⟩
  rw [words_val (by simp; omega), leVal_append (b ++ [1]), show leVal (List.replicate (16 - b.length - 1) 0) = 0 from leVal_replicate_zero _] at h2
  rw [accStep]
  exact h2.trans (modEq_step (c := leVal (b ++ [1])) (Nat.mod_modEq h.val p).symm)

theorem acc_nil (r a : Nat) : acc r a [] = a := by rw [acc, dif_pos rfl]

theorem acc_cons {r a : Nat} {m : List Byte} (h : m ≠ []) : acc r a m = acc r (accStep r a (m.take 16)) (m.drop 16) := by
  rw [acc, dif_neg h]

theorem acc_eager {r : Limbs} (hr : r.Clamped) (h : Limbs) (m : List Byte) : h.Small →
    (eager 16 (stepB r) h m).1.Small ∧ acc r.val (h.val % p) m = acc r.val ((eager 16 (stepB r) h m).1.val % p) (eager 16 (stepB r) h m).2 := by
  induction h, m using eager.induct 16 (stepB r) with
  | case1 s m hm ih =>
    intro hs
    obtain ⟨h1, h2⟩ := blockStep_val hr hs (b := m.take 16) (by rw [List.length_take]; omega)
    rw [eager, if_pos hm, acc_cons (by intro e; rw [e] at hm; simp at hm), ← h2]
    exact ih h1
  | case2 s m hm =>
    intro hs
    rw [eager, if_neg hm]
    exact ⟨hs, rfl⟩

/-! ## The object -/

namespace Poly1305

/-- Since the accumulator was `h0` the bytes `m` were received. -/
structure Got (s : Poly1305) (h0 : Limbs) (m : List Byte) : Prop where
  buf : s.buf.length = 16
  h : s.h = (eager 16 (stepB s.r) h0 m).1
  pos : s.pos = (eager 16 (stepB s.r) h0 m).2.length
  rest : s.buf.take s.pos = (eager 16 (stepB s.r) h0 m).2

theorem Got.pos_lt {s : Poly1305} {h0 : Limbs} {m : List Byte} (g : s.Got h0 m) : s.pos < 16 := by
  rw [g.pos]; exact eager_rest_lt (by omega) _ _

theorem got_shape {s : Poly1305} (hb : s.buf.length = 16) (hp : s.pos < 16) : s.Got s.h (s.buf.take s.pos) := by
  have hl : (s.buf.take s.pos).length = s.pos := by rw [List.length_take]; omega
  have e : eager 16 (stepB s.r) s.h (s.buf.take s.pos) = (s.h, s.buf.take s.pos) := eager_short (by omega)
  exact ⟨hb, by rw [e], by rw [e]; exact hl.symm, by rw [e]⟩

theorem got_nil {s : Poly1305} (hb : s.buf.length = 16) (hp : s.pos = 0) : s.Got s.h [] := by
  have := got_shape hb (by omega)
  rwa [hp, List.take_zero] at this

theorem first_got {s : Poly1305} {h0 : Limbs} {m : List Byte} (g : s.Got h0 m) {inp x : List Byte} {io : Nat} (hx : Holds inp io x) :
    ∃ s' n, s.first inp io x.length = .ok (s', io + n, x.length - n) ∧ n ≤ x.length ∧ s'.Got h0 (m ++ x.take n) ∧ s'.r = s.r ∧ s'.p0 = s.p0 ∧ s'.p1 = s.p1
      ∧ s'.init = s.init ∧ (s'.pos = 0 ∨ s'.pos + (x.length - n) < 16) := by
  have hp := g.pos_lt
  have hto : (s.buf.take s.pos).length = s.pos := by rw [g.rest, g.pos]
  rw [first]
  by_cases hc : s.pos ≠ 0 ∧ s.pos + x.length ≥ 16
  · have hl : (x.take (16 - s.pos)).length = 16 - s.pos := by rw [List.length_take]; omega
    have hbl : (s.buf.take s.pos ++ x.take (16 - s.pos)).length = 16 := by rw [List.length_append, hl, hto]; omega
    have hbe : s.buf.take s.pos ++ x.take (16 - s.pos) ++ s.buf.drop (s.pos + (16 - s.pos)) = s.buf.take s.pos ++ x.take (16 - s.pos) := by
      rw [List.drop_of_length_le (by rw [g.buf]; omega), List.append_nil]
    rw [if_pos hc]
    simp only []
    rw [if_pos (by omega), copy_front (hx.takeN (16 - s.pos)) s.pos hl.symm (by rw [g.buf]; omega), hbe, ok_bind,
      absorb_one (Holds.self _) hbl, ok_bind]
    have e : eager 16 (stepB s.r) h0 (m ++ x.take (16 - s.pos)) = (stepB s.r s.h (s.buf.take s.pos ++ x.take (16 - s.pos)), []) := by
      rw [eager_append, ← g.h, ← g.rest, eager_one (by omega) hbl]
    refine ⟨_, 16 - s.pos, rfl, by omega, ⟨hbl, by rw [e]; rfl, by rw [e]; rfl, by rw [e]; rfl⟩, rfl, rfl, rfl, rfl, Or.inl rfl⟩
  · rw [if_neg hc]
    refine ⟨s, 0, rfl, by omega, by rw [List.take_zero, List.append_nil]; exact g, rfl, rfl, rfl, rfl, by omega⟩

theorem update_got {s : Poly1305} {h0 : Limbs} {m : List Byte} (g : s.Got h0 m) (hi : s.init = true) (w : Window) :
    ∃ s', s.update w.buf w.off w.len = .ok s' ∧ s'.Got h0 (m ++ w.bytes) ∧ s'.r = s.r ∧ s'.p0 = s.p0 ∧ s'.p1 = s.p1 ∧ s'.init = true := by
  have hle := w.le
  rw [update, if_neg (by rw [hi]; simp), subU_le (by omega) w.size, if_neg (by omega)]
  have hx := w.holds
  have hxl := w.bytes_length
  generalize w.bytes = x at *
  rw [← hxl]
  by_cases h0l : x.length = 0
  · rw [if_neg (by omega), List.eq_nil_of_length_eq_zero h0l, List.append_nil]
    exact ⟨s, rfl, g, rfl, rfl, rfl, hi⟩
  · rw [if_pos h0l]
    obtain ⟨s1, n, h1, hn, g1, e1, e2, e3, e4, hcase⟩ := first_got g hx
    rw [h1, ok_bind]
    simp only []
    have hy : Holds w.buf (w.off + n) (x.drop n) := hx.dropN hn
    have hyl : x.length - n = (x.drop n).length := by rw [List.length_drop]
    have hm : m ++ x = m ++ x.take n ++ x.drop n := by rw [List.append_assoc, List.take_append_drop]
    rw [hyl] at hcase
    rw [hm, hyl]
    clear hm hyl
    rw [← e1, ← e2, ← e3]
    rw [hi] at e4
    generalize m ++ x.take n = m1 at *
    generalize x.drop n = y at *
    generalize w.off + n = io at *
    have hq : y.length / 16 * 16 / 16 = y.length / 16 := Nat.mul_div_cancel _ (by omega)
    have hk : y.length / 16 * 16 ≤ y.length := Nat.div_mul_le_self _ _
    have hmod : y.length - y.length / 16 * 16 = y.length % 16 := by omega
    rw [hq, absorb_many s1.r (y.length / 16) (y.take (y.length / 16 * 16)) io s1.h (hy.takeN _) (by rw [List.length_take]; omega), ok_bind]
    have hto : (s1.buf.take s1.pos).length = s1.pos := by rw [g1.rest, g1.pos]
    have hyt : (y.drop (y.length / 16 * 16)).length = y.length % 16 := by rw [List.length_drop, hmod]
    have e : eager 16 (stepB s1.r) h0 (m1 ++ y) = ((eager 16 (stepB s1.r) s1.h (y.take (y.length / 16 * 16))).1, s1.buf.take s1.pos ++ y.drop (y.length / 16 * 16)) := by
      rw [eager_append, ← g1.h, ← g1.rest]
      rcases hcase with hz | hz
      · rw [hz, List.take_zero, List.nil_append, List.nil_append]
        have hr : (eager 16 (stepB s1.r) s1.h (y.take (y.length / 16 * 16))).2 = [] := List.eq_nil_of_length_eq_zero (by
          rw [eager_rest_mod (by omega), List.length_take, Nat.min_eq_left hk]; omega)
        conv => lhs; rw [← List.take_append_drop (y.length / 16 * 16) y, eager_append, hr, List.nil_append]
        rw [eager_short (by omega)]
      · rw [eager_short (by rw [List.length_append]; omega), show y.length / 16 * 16 = 0 by omega, List.take_zero, List.drop_zero, eager_short (by simp)]
    rw [hmod]
    by_cases hz : y.length % 16 > 0
    · rw [if_pos hz]
      rw [copy_front (hy.dropN hk) s1.pos hyt.symm (by rw [g1.buf]; omega), ok_bind]
      refine ⟨_, rfl, ⟨?_, ?_, ?_, ?_⟩, rfl, rfl, rfl, e4⟩
      · simp only [List.length_append, hto, hyt, List.length_drop, g1.buf]; omega
      · simp only [e]
      · simp only [e, List.length_append, hto, hyt]
      · simp only [e]; rw [take_front _ _ _ _ (by rw [hto, hyt])]
    · rw [if_neg hz]
      have hd : y.drop (y.length / 16 * 16) = [] := List.eq_nil_of_length_eq_zero (by omega)
      rw [hd, List.append_nil] at e
      refine ⟨_, rfl, ⟨g1.buf, ?_, ?_, ?_⟩, rfl, rfl, rfl, e4⟩
      · simp only [e]
      · simp only [e, hto]
      · simp only [e]

theorem last_got {s : Poly1305} {h0 : Limbs} {m : List Byte} (g : s.Got h0 m) :
    ∃ s', s.last = .ok s' ∧ s'.r = s.r ∧ s'.p0 = s.p0 ∧ s'.p1 = s.p1 ∧ s'.init = s.init ∧ s'.buf.length = 16 ∧ s'.pos = s.pos
      ∧ (s.r.Clamped → h0.Small → s'.h.Small ∧ s'.h.val % p = acc s.r.val (h0.val % p) m) := by
  have hp := g.pos_lt
  have hto : (s.buf.take s.pos).length = s.pos := by rw [g.rest, g.pos]
  rw [last]
  by_cases hz : s.pos ≠ 0
  · rw [if_pos hz, wr_ok _ (by rw [g.buf]; exact hp), ok_bind]
    simp only []
    have hset : s.buf.set s.pos 1 = s.buf.take s.pos ++ [1] ++ s.buf.drop (s.pos + 1) := by
      rw [List.set_eq_take_append_cons_drop, if_pos (by rw [g.buf]; exact hp)]; simp
    have hlen : (s.buf.set s.pos 1).length = 16 := by rw [List.length_set, g.buf]
    have hcl : (if (s.buf.set s.pos 1).length - s.pos - 1 > 0 then clear (s.buf.set s.pos 1) (s.pos + 1) ((s.buf.set s.pos 1).length - s.pos - 1) else pure (s.buf.set s.pos 1) : M (List Byte))
        = .ok (s.buf.take s.pos ++ [1] ++ List.replicate (16 - (s.buf.take s.pos).length - 1) 0) := by
      rw [hlen, hto]
      split
      · rename_i hgt
        rw [clear, if_neg (by omega), hset]
        have := blit_at (a := s.buf.take s.pos ++ [1]) (b := s.buf.drop (s.pos + 1)) (c := []) (s := List.replicate (16 - s.pos - 1) 0) (off := s.pos + 1)
          (by rw [List.length_append, hto]; rfl) (by rw [List.length_replicate, List.length_drop, g.buf]; omega)
        rw [List.append_nil, List.append_nil] at this
        exact this
      · rename_i hgt
        rw [hset, List.drop_of_length_le (by rw [g.buf]; omega), show 16 - s.pos - 1 = 0 by omega]
        rfl
    rw [hcl, ok_bind, absorb_one (Holds.self _) (by simp only [List.length_append, hto, List.length_replicate, List.length_singleton]; omega), ok_bind]
    refine ⟨_, rfl, rfl, rfl, rfl, rfl, ?_, rfl, ?_⟩
    · simp only [List.length_append, hto, List.length_replicate, List.length_singleton]; omega
    · intro hr hh
      obtain ⟨a1, a2⟩ := acc_eager hr h0 m hh
      rw [← g.h, ← g.rest] at a2
      rw [← g.h] at a1
      obtain ⟨b1, b2⟩ := lastStep_val hr a1 (b := s.buf.take s.pos) (by rw [hto]; exact hp)
      refine ⟨b1, ?_⟩
      rw [a2, acc_cons (by intro e; rw [e] at hto; simp at hto; omega), List.take_of_length_le (show (s.buf.take s.pos).length ≤ 16 by omega),
        List.drop_of_length_le (show (s.buf.take s.pos).length ≤ 16 by omega), acc_nil]
      exact b2
  · rw [if_neg hz]
    refine ⟨s, rfl, rfl, rfl, rfl, rfl, g.buf, rfl, ?_⟩
    intro hr hh
    obtain ⟨a1, a2⟩ := acc_eager hr h0 m hh
    rw [← g.h, ← g.rest] at a2
    rw [← g.h] at a1
    rw [a2, show s.pos = 0 by omega, List.take_zero, acc_nil]
    exact ⟨a1, rfl⟩

end Poly1305

/-- The two words of the tag as bytes. -/
theorem tag_bytes (a b : BitVec 64) : leRep 8 a ++ leRep 8 b = leEnc 16 (a.toNat + 2 ^ 64 * b.toNat) := by
  have ha := a.isLt
  have hb := b.isLt
  apply leVal_inj
  · rw [List.length_append, leRep_length, leRep_length, leEnc_length]
  · rw [leVal_append, leVal_leRep, leVal_leRep, leRep_length, leVal_leEnc]
    omega

/-- The value computed by `Finalize`. -/
theorem finish_val {h : Limbs} (hh : h.Small) (p0 p1 : BitVec 64) :
    leRep 8 (finPad p0 p1 (finSelect (finCarry h))).1 ++ leRep 8 (finPad p0 p1 (finSelect (finCarry h))).2
      = leEnc 16 ((h.val % p + (p0.toNat + 2 ^ 64 * p1.toNat)) % 2 ^ 128) := by
  obtain ⟨c0, c1, c2, c3⟩ := finCarry_val h hh
  obtain ⟨d0, d1, d2, d3⟩ := finSelect_val (finCarry h) c0 c1 c2
  rw [tag_bytes, finPad_val p0 p1 _ d0 d1 d2, d3, show (finCarry h).val % p = h.val % p from c3]

theorem write_words {pre junk post : List Byte} (hj : junk.length = 16) (a b : BitVec 64) :
    (do let o ← le64ToBytes a (pre ++ junk ++ post) pre.length; le64ToBytes b o (pre.length + 8)) = (.ok (pre ++ (leRep 8 a ++ leRep 8 b) ++ post) : M (List Byte)) := by
  have e : pre ++ junk ++ post = pre ++ junk.take 8 ++ (junk.drop 8 ++ post) := by
    rw [← List.append_assoc, List.append_assoc pre (junk.take 8), List.take_append_drop]
  rw [e, le64ToBytes, blit_at rfl (by rw [leRep_length, List.length_take]; omega), ok_bind, le64ToBytes, ← List.append_assoc,
    blit_at (a := pre ++ leRep 8 a) (b := junk.drop 8) (c := post) (by rw [List.length_append, leRep_length]) (by rw [leRep_length, List.length_drop]; omega),
    List.append_assoc pre]

end Cex.Poly
