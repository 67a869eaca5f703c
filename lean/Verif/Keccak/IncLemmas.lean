import Verif.Keccak.IncModel
import Verif.Keccak.KmacLemmas

/-! # Incremental absorption -/

namespace Cex.Keccak
open Cex Cex.IntTools Stream Cex.Mac

variable {P : List Byte → M (List Byte)} {f : List Byte → List Byte}

/-- `x` XORed to the start of the state. -/
def part (s x : List Byte) : List Byte := xorBytes s (x ++ List.replicate (200 - x.length) 0)

theorem part_length {s x : List Byte} (h : s.length = 200) (hx : x.length ≤ 200) : (part s x).length = 200 := xorBytes_state h hx

theorem part_split {s x : List Byte} (hx : x.length ≤ s.length) (h : s.length = 200) : part s x = xorBytes (s.take x.length) x ++ s.drop x.length := by
  rw [part]
  conv => lhs; rw [← List.take_append_drop x.length s]
  rw [xorBytes_append (by rw [List.length_take]; omega), xor_zeros (by rw [List.length_drop]; omega)]

/-- XORing the bytes that come next. -/
theorem part_next {s x y src : List Byte} {so n : Nat} (h : s.length = 200) (hy : Holds src so y) (hn : n = y.length) (hl : x.length + y.length ≤ 200) :
    xorInto src so (part s x) x.length n = .ok (part s (x ++ y)) := by
  rw [part_split (by omega) h, part_split (x := x ++ y) (by rw [List.length_append]; omega) h]
  have e : s.drop x.length = (s.drop x.length).take y.length ++ s.drop (x.length + y.length) := by
    rw [← List.drop_drop, List.take_append_drop]
  rw [e, ← List.append_assoc]
  have hx : (xorBytes (s.take x.length) x).length = x.length := by rw [xorBytes_length, List.length_take]; omega
  rw [xorInto_at hy hx.symm hn (by rw [List.length_take, List.length_drop]; omega)]
  have e2 : s.take (x.length + y.length) = s.take x.length ++ (s.drop x.length).take y.length := by rw [List.take_add]
  rw [List.length_append, e2, xorBytes_append (by rw [List.length_take]; omega)]

theorem xor_zeros_left {a : List Byte} {n : Nat} (h : a.length = n) : xorBytes (List.replicate n 0) a = a := by
  subst h
  induction a with
  | nil => rfl
  | cons x a ih => rw [List.length_cons, List.replicate_succ]; simp only [xorBytes, List.zipWith_cons_cons] at *; rw [ih]; simp

theorem part_zeros {s x : List Byte} {k : Nat} (h : x.length + k ≤ 200) : part s (x ++ List.replicate k 0) = part s x := by
  rw [part, part, List.append_assoc, ← List.replicate_add, List.length_append, List.length_replicate]
  congr 3; omega

/-- A whole word, of which the bytes before `x.length` and after the new bytes are zero, XORed at the start of the word. -/
theorem part_word {s x y t : List Byte} {w : Nat} (h : s.length = 200) (hw : w = 8 * (x.length / 8)) (hl : x.length % 8 + y.length ≤ 8) (hx : w + 8 ≤ 200)
    (ht : t = List.replicate (x.length % 8) 0 ++ y ++ List.replicate (8 - x.length % 8 - y.length) 0) :
    xorInto t 0 (part s x) w 8 = .ok (part s (x ++ y)) := by
  have hm := Nat.div_add_mod x.length 8
  obtain ⟨a, b, rfl, ha⟩ : ∃ a b, x = a ++ b ∧ a.length = w := ⟨x.take w, x.drop w, (List.take_append_drop _ _).symm, by rw [List.length_take]; omega⟩
  have hb : (a ++ b).length % 8 = b.length := by rw [List.length_append] at *; omega
  rw [hb] at ht hl
  -- `part s (a ++ b)` is the part of `a` with `b` and zeros XORed to the word
  have e1 : part s (a ++ b) = part s (a ++ (b ++ List.replicate (8 - b.length) 0)) := by
    rw [← List.append_assoc, part_zeros (by rw [List.length_append]; omega)]
  have e2 : part s (a ++ b ++ y) = part s (a ++ (b ++ y ++ List.replicate (8 - b.length - y.length) 0)) := by
    rw [← List.append_assoc, ← List.append_assoc a b y, part_zeros (by simp only [List.length_append]; omega)]
  rw [e1, e2]
  have hu : (b ++ List.replicate (8 - b.length) (0 : Byte)).length = 8 := by simp; omega
  have hv : (b ++ y ++ List.replicate (8 - b.length - y.length) (0 : Byte)).length = 8 := by simp; omega
  rw [part_split (by rw [List.length_append]; omega) h, part_split (x := a ++ (b ++ y ++ _)) (by rw [List.length_append]; omega) h]
  have hL1 : (a ++ (b ++ List.replicate (8 - b.length) (0 : Byte))).length = a.length + 8 := by rw [List.length_append, hu]
  have hL2 : (a ++ (b ++ y ++ List.replicate (8 - b.length - y.length) (0 : Byte))).length = a.length + 8 := by rw [List.length_append, hv]
  rw [hL1, hL2, List.take_add,
    xorBytes_append (by rw [List.length_take]; omega), xorBytes_append (by rw [List.length_take]; omega)]
  have ht8 : t.length = 8 := by rw [ht]; simp; omega
  have ha2 : (xorBytes (s.take a.length) a).length = w := by rw [xorBytes_length, List.length_take]; omega
  have h8 : ((s.drop a.length).take 8).length = 8 := by rw [List.length_take, List.length_drop]; omega
  rw [xorInto_at (Holds.self t) ha2.symm ht8.symm (by rw [xorBytes_length, hu, h8, ht8]; rfl)]
  congr 3
  -- on the word
  generalize (s.drop a.length).take 8 = z at h8
  obtain ⟨z1, z2, rfl, hz⟩ : ∃ z1 z2, z = z1 ++ z2 ∧ z1.length = b.length := ⟨z.take b.length, z.drop b.length, (List.take_append_drop _ _).symm, by rw [List.length_take]; omega⟩
  have hz2 : z2.length = 8 - b.length := by rw [List.length_append] at h8; omega
  rw [xorBytes_append hz, xor_zeros hz2, ht, List.append_assoc, List.append_assoc, xorBytes_append (by rw [xorBytes_length, List.length_replicate]; omega),
    xorBytes_append hz, xor_zeros (by rw [xorBytes_length]; omega)]

/-! ## The phases -/

/-- Between two phases: the state `S` with the bytes `rest` XORed, `rem` still to come. -/
structure Inc.At (inp S rest rem : List Byte) (q : Inc) : Prop where
  st : q.st = part S rest
  pos : q.pos = rest.length
  hold : Holds inp q.io rem
  len : q.len = rem.length
  tlen : q.t.length = 8

theorem incHead_at {inp S rest x st : List Byte} {io len pos : Nat} (hS : S.length = 200) (hst : st = part S rest) (hp : pos = rest.length) (hr : rest.length < 200)
    (hx : Holds inp io x) (hl : len = x.length) :
    ∃ q, incHead inp io len pos st = .ok q ∧ (pos % 8 = 0 ∧ q.At inp S rest x ∧ q.t = List.replicate 8 0 ∨
      pos % 8 ≠ 0 ∧ q.At inp S (rest ++ x.take (8 - pos % 8)) (x.drop (8 - pos % 8))) := by
  subst hst hl hp
  by_cases h : rest.length % 8 > 0
  · have hm : min (8 - rest.length % 8) x.length = (x.take (8 - rest.length % 8)).length := by rw [List.length_take]
    have hd := Nat.div_add_mod rest.length 8
    have hmod := Nat.mod_lt rest.length (show 8 > 0 by decide)
    have hc : copy inp io (List.replicate 8 0) (rest.length % 8) (x.take (8 - rest.length % 8)).length =
        .ok (List.replicate (rest.length % 8) 0 ++ x.take (8 - rest.length % 8) ++ List.replicate (8 - rest.length % 8 - (x.take (8 - rest.length % 8)).length) 0) := by
      have hle : (x.take (8 - rest.length % 8)).length ≤ 8 - rest.length % 8 := by rw [List.length_take]; omega
      have e : List.replicate 8 (0 : Byte) = List.replicate (rest.length % 8) 0 ++ List.replicate (x.take (8 - rest.length % 8)).length 0 ++
          List.replicate (8 - rest.length % 8 - (x.take (8 - rest.length % 8)).length) 0 := by
        rw [← List.replicate_add, ← List.replicate_add]; congr 1; omega
      conv => lhs; rw [e]
      exact copy_at (hx.takeN _) List.length_replicate.symm rfl List.length_replicate
    have hle : (x.take (8 - rest.length % 8)).length ≤ 8 - rest.length % 8 := by rw [List.length_take]; omega
    have hdrop : Holds inp (io + (x.take (8 - rest.length % 8)).length) (x.drop (8 - rest.length % 8)) := by
      by_cases hb : 8 - rest.length % 8 ≤ x.length
      · rw [List.length_take, Nat.min_eq_left hb]; exact hx.dropN hb
      · rw [List.length_take, Nat.min_eq_right (by omega), List.drop_of_length_le (by omega)]
        have := hx.dropN (n := x.length) (Nat.le_refl _)
        rwa [List.drop_length] at this
    have hlen : x.length - (x.take (8 - rest.length % 8)).length = (x.drop (8 - rest.length % 8)).length := by rw [List.length_take, List.length_drop]; omega
    have hw := part_word (y := x.take (8 - rest.length % 8)) (x := rest) (w := 8 * ((rest.length + (x.take (8 - rest.length % 8)).length - (rest.length % 8 +
      (x.take (8 - rest.length % 8)).length)) / 8)) hS (by omega) (by omega) (by omega) rfl
    rw [incHead, if_pos h]
    simp only []
    rw [hm, hc, ok_bind, hw, ok_bind]
    exact ⟨_, rfl, Or.inr ⟨by omega, rfl, by rw [List.length_append], hdrop, hlen, by simp; omega⟩⟩
  · rw [incHead, if_neg h]
    exact ⟨_, rfl, Or.inl ⟨by omega, ⟨rfl, rfl, hx, rfl, List.length_replicate⟩, rfl⟩⟩

theorem incFill_at (p : Perm P f) {r : Nat} (hr : r ≤ 200) (h8 : r % 8 = 0) {inp S rest rem : List Byte} {q : Inc} (hS : S.length = 200) (h : q.At inp S rest rem)
    (hle : rest.length ≤ r) (ha : rest.length % 8 = 0 ∨ rem = []) (hne : rest.length < r ∨ rest ≠ []) :
    ∃ q', incFill P inp r q = .ok q' ∧ q'.t = q.t ∧ ((rest ≠ [] ∧ r ≤ rest.length + rem.length ∧
        q'.At inp (Fips202.block f S (rest ++ rem.take (r - rest.length))) [] (rem.drop (r - rest.length))) ∨
      (rest = [] ∨ rest.length + rem.length < r) ∧ q'.At inp S rest rem) := by
  have hz : rest ≠ [] ↔ rest.length ≠ 0 := by rw [Ne, Ne, List.length_eq_zero_iff]
  rw [incFill, h.pos, h.len]
  by_cases hc : rest.length ≠ 0 ∧ rem.length ≥ r - rest.length
  · rw [if_pos hc]
    have hal : rest.length % 8 = 0 := by
      rcases ha with ha | ha
      · exact ha
      · subst ha; simp only [List.length_nil] at hc; omega
    have hl : (rem.take (r - rest.length)).length = r - rest.length := by rw [List.length_take]; omega
    have hx := part_next (s := S) (x := rest) (n := 8 * ((r - rest.length) / 8)) hS (h.hold.takeN (r - rest.length)) (by rw [hl]; omega) (by rw [hl]; omega)
    rw [show 8 * (rest.length / 8) = rest.length from by omega, h.st, hx, ok_bind, p.run _ (part_length hS (by rw [List.length_append, hl]; omega)), ok_bind]
    refine ⟨_, rfl, rfl, Or.inl ⟨hz.mpr hc.1, by omega, ?_, rfl, h.hold.dropN (by omega), by rw [List.length_drop], h.tlen⟩⟩
    show f (part S _) = part (Fips202.block f S _) []
    have : (Fips202.block f S (rest ++ rem.take (r - rest.length))).length = 200 := block_length p hS (by rw [List.length_append, hl]; omega)
    rw [part_split (x := []) (by simp) this]
    rfl
  · rw [if_neg hc]
    refine ⟨_, rfl, rfl, Or.inr ⟨?_, h⟩⟩
    by_cases hc0 : rest.length = 0
    · exact Or.inl (List.length_eq_zero_iff.mp hc0)
    · right; omega

theorem part_nil {s : List Byte} (h : s.length = 200) : part s [] = s := by rw [part_split (x := []) (by simp) h]; rfl

theorem incBody_at (p : Perm P f) {r : Nat} (h0 : 0 < r) (hr : r ≤ 200) {inp S rest rem : List Byte} {q : Inc} (hS : S.length = 200) (h : q.At inp S rest rem)
    (ha : rest.length % 8 = 0 ∨ rem = []) (hc : rest = [] ∨ rest.length + rem.length < r) (hrl : rest.length < r) :
    ∃ q' S' rest' rem', incBody P inp r q = .ok q' ∧ q'.t = q.t ∧ S'.length = 200 ∧ q'.At inp S' rest' rem' ∧ eager r (Fips202.block f) S (rest ++ rem) = (S', rest' ++ rem') ∧
      rem'.length < 8 ∧ (rest'.length % 8 = 0 ∨ rem' = []) ∧ (rem = [] → rem' = []) := by
  have hS1 := eager_length p hr S rem hS
  have hmod := eager_rest_mod (step := Fips202.block f) h0 S rem
  have hlt := Nat.mod_lt rem.length h0
  have hsum : rest.length + (eager r (Fips202.block f) S rem).2.length < r := by
    rcases hc with hc | hc
    · rw [hc, hmod]; simpa using hlt
    · rw [hmod, Nat.mod_eq_of_lt (by omega)]; exact hc
  have heag : eager r (Fips202.block f) S (rest ++ rem) = ((eager r (Fips202.block f) S rem).1, rest ++ (eager r (Fips202.block f) S rem).2) := by
    rcases hc with hc | hc
    · rw [hc, List.nil_append, List.nil_append]
    · rw [eager_short (by rw [List.length_append]; exact hc), eager_short (s := S) (m := rem) (by omega)]
  have hloop : absorbLoop P inp r (rem.length / r) q.io (part S rest) = .ok (part (eager r (Fips202.block f) S rem).1 rest) := by
    rcases hc with hc | hc
    · rw [hc, part_nil hS, part_nil hS1]; exact absorbLoop_eq p h0 hr inp _ _ _ _ h.hold rfl hS
    · rw [Nat.div_eq_of_lt (by omega), eager_short (s := S) (m := rem) (by omega)]; rfl
  have hR : Holds inp (q.io + r * (rem.length / r)) (eager r (Fips202.block f) S rem).2 := by
    rw [eager_rest h0]; exact h.hold.dropN (by have := Nat.div_add_mod rem.length r; omega)
  generalize hR' : (eager r (Fips202.block f) S rem).2 = R at *
  generalize (eager r (Fips202.block f) S rem).1 = S1 at *
  have hd := Nat.div_add_mod R.length 8
  have ht : (R.take (8 * (R.length / 8))).length = 8 * (R.length / 8) := by rw [List.length_take]; omega
  have hoff : 8 * (rest.length / 8) = rest.length ∨ R = [] := by
    rcases ha with ha | ha
    · left; omega
    · right; subst ha; exact List.eq_nil_of_length_eq_zero (by rw [hmod]; simp)
  have hx : xorInto inp (q.io + r * (rem.length / r)) (part S1 rest) (8 * (rest.length / 8)) (8 * (R.length / 8)) = .ok (part S1 (rest ++ R.take (8 * (R.length / 8)))) := by
    rcases hoff with ho | ho
    · rw [ho]; exact part_next hS1 (hR.takeN _) ht.symm (by omega)
    · subst ho
      have hl : (part S1 rest).length = 200 := part_length hS1 (by omega)
      have e : part S1 rest = (part S1 rest).take (8 * (rest.length / 8)) ++ [] ++ (part S1 rest).drop (8 * (rest.length / 8)) := by simp
      have := xorInto_at (a := (part S1 rest).take (8 * (rest.length / 8))) (d := []) (c := (part S1 rest).drop (8 * (rest.length / 8))) (off := 8 * (rest.length / 8)) (n := 0) hR (by rw [List.length_take]; omega) rfl rfl
      rw [← e] at this
      show xorInto _ _ _ _ 0 = _
      rw [this]
      simp [xorBytes]
  have hb : incBody P inp r q = .ok ⟨q.t, part S1 (rest ++ R.take (8 * (R.length / 8))), q.io + r * (rem.length / r) + 8 * (R.length / 8), R.length - 8 * (R.length / 8),
      rest.length + 8 * (R.length / 8)⟩ := by
    rw [incBody, h.len, h.st, hloop, ok_bind]
    simp only []
    rw [h.pos, ← hmod, hx, ok_bind]
    rfl
  refine ⟨_, S1, rest ++ R.take (8 * (R.length / 8)), R.drop (8 * (R.length / 8)), hb, rfl, hS1, ⟨rfl, by rw [List.length_append, ht], hR.dropN (by omega), by rw [List.length_drop], h.tlen⟩, ?_, ?_, ?_, ?_⟩
  · rw [heag, List.append_assoc, List.take_append_drop]
  · rw [List.length_drop]; omega
  · rcases hoff with ho | ho
    · left; rw [List.length_append, ht]; omega
    · right; subst ho; rfl
  · intro e; subst e
    have : R = [] := List.eq_nil_of_length_eq_zero (by rw [hmod]; simp)
    rw [this]; rfl

theorem incTail_at {inp S rest rem : List Byte} {q : Inc} (hS : S.length = 200) (h : q.At inp S rest rem) (hl : rest.length + rem.length ≤ 192) (h8 : rem.length < 8)
    (ha : rest.length % 8 = 0 ∨ rem = []) (ht : rem = [] ∨ q.t = List.replicate 8 0) :
    incTail inp q = .ok (part S (rest ++ rem), (rest ++ rem).length) := by
  rw [incTail, h.len]
  by_cases hz : rem.length > 0
  · have hne : rem ≠ [] := by intro e; subst e; simp at hz
    have hal : rest.length % 8 = 0 := by rcases ha with ha | ha; exact ha; exact absurd ha hne
    have htz : q.t = List.replicate 8 0 := by rcases ht with ht | ht; exact absurd ht hne; exact ht
    rw [if_pos hz, htz]
    have e : List.replicate 8 (0 : Byte) = [] ++ List.replicate rem.length 0 ++ List.replicate (8 - rem.length) 0 := by
      rw [List.nil_append, ← List.replicate_add]; congr 1; omega
    have hc : copy inp q.io (List.replicate 8 0) 0 rem.length = .ok ([] ++ rem ++ List.replicate (8 - rem.length) 0) := by
      conv => lhs; rw [e]
      exact copy_at (off := 0) h.hold rfl rfl List.length_replicate
    have hw := part_word (s := S) (x := rest) (y := rem) (w := 8 * (rest.length / 8)) (t := [] ++ rem ++ List.replicate (8 - rem.length) 0) hS rfl (by omega) (by omega)
      (by rw [hal]; rfl)
    rw [hc, ok_bind, h.pos, h.st, hw, ok_bind, List.length_append]
    rfl
  · have : rem = [] := List.eq_nil_of_length_eq_zero (by omega)
    subst this
    rw [if_neg hz, h.st, h.pos, List.append_nil]
    rfl

/-- The state and position of incremental absorption after the message `m`. -/
structure Inc.Has (f : List Byte → List Byte) (r : Nat) (s0 m st : List Byte) (pos : Nat) : Prop where
  st : st = part (eager r (Fips202.block f) s0 m).1 (eager r (Fips202.block f) s0 m).2
  pos : pos = (eager r (Fips202.block f) s0 m).2.length

/-- No incomplete word is left over in a call that also completes a word begun before: then `Incremental` is right. -/
def Inc.Clean (pos len : Nat) : Prop := pos % 8 = 0 ∨ pos % 8 + len ≤ 8 ∨ (pos + len) % 8 = 0

theorem incremental_has (p : Perm P f) {r : Nat} (h0 : 0 < r) (hr : r ≤ 192) (h8 : r % 8 = 0) {s0 m st inp x : List Byte} {io pos : Nat} (hs : s0.length = 200)
    (h : Inc.Has f r s0 m st pos) (hx : Holds inp io x) (hc : Inc.Clean pos x.length) (dom : Byte) :
    ∃ st' pos', incremental P inp io x.length pos r dom st false = .ok (st', pos') ∧ Inc.Has f r s0 (m ++ x) st' pos' := by
  have hr2 : r ≤ 200 := by omega
  have hS := eager_length p hr2 s0 m hs
  have hplt := eager_rest_lt (step := Fips202.block f) h0 s0 m
  have eq0 := eager_append (B := r) (step := Fips202.block f) s0 m x
  obtain ⟨hst, hpos⟩ := h
  generalize (eager r (Fips202.block f) s0 m).1 = S at *
  generalize (eager r (Fips202.block f) s0 m).2 = rest at *
  obtain ⟨q1, e1, k1⟩ := incHead_at (inp := inp) (x := x) (io := io) hS hst hpos (by omega) hx rfl
  -- after the head
  have k2 : ∃ rest1 rem1, q1.At inp S rest1 rem1 ∧ rest ++ x = rest1 ++ rem1 ∧ rest1.length ≤ r ∧ (rest1.length % 8 = 0 ∨ rem1 = []) ∧ (rest1.length < r ∨ rest1 ≠ []) ∧
      (q1.t = List.replicate 8 0 ∨ rem1.length % 8 = 0) := by
    rcases k1 with ⟨hz, ha, ht⟩ | ⟨hz, ha⟩
    · exact ⟨rest, x, ha, rfl, by omega, Or.inl (by omega), Or.inl (by omega), Or.inl ht⟩
    · have hd := Nat.div_add_mod pos 8
      have hdr := Nat.div_add_mod r 8
      refine ⟨_, _, ha, by rw [List.append_assoc, List.take_append_drop], ?_, ?_, ?_, ?_⟩
      · rw [List.length_append, List.length_take]; omega
      · by_cases hb : 8 - pos % 8 ≤ x.length
        · left; rw [List.length_append, List.length_take, Nat.min_eq_left hb, ← hpos]; omega
        · right; exact List.drop_of_length_le (by omega)
      · right; intro e; have := congrArg List.length e; rw [List.length_append] at this; simp at this; rw [hpos, this.1] at hz; exact hz rfl
      · right; rw [List.length_drop]; rcases hc with hc | hc | hc <;> omega
  obtain ⟨rest1, rem1, a1, c1, l1, al1, ne1, t1⟩ := k2
  rw [c1] at eq0
  obtain ⟨q2, e2, ht2, k3⟩ := incFill_at p hr2 h8 hS a1 l1 al1 ne1
  have k4 : ∃ S2 rest2 rem2, S2.length = 200 ∧ q2.At inp S2 rest2 rem2 ∧ eager r (Fips202.block f) S (rest1 ++ rem1) = eager r (Fips202.block f) S2 (rest2 ++ rem2) ∧
      (rest2.length % 8 = 0 ∨ rem2 = []) ∧ (rest2 = [] ∨ rest2.length + rem2.length < r) ∧ rest2.length < r ∧ (q2.t = List.replicate 8 0 ∨ (rest2.length + rem2.length) % 8 = 0 ∨ rem2 = []) := by
    rcases k3 with ⟨hn, hle, a2⟩ | ⟨hn, a2⟩
    · have hl : (rem1.take (r - rest1.length)).length = r - rest1.length := by rw [List.length_take]; omega
      have hbl : (rest1 ++ rem1.take (r - rest1.length)).length = r := by rw [List.length_append, hl]; omega
      refine ⟨_, [], _, block_length p hS (by omega), a2, ?_, Or.inl rfl, Or.inl rfl, h0, ?_⟩
      · have := eager_cons (step := Fips202.block f) (s := S) (m := rem1.drop (r - rest1.length)) h0 hbl
        rw [List.append_assoc, List.take_append_drop] at this
        exact this
      · rw [ht2]
        rcases t1 with t1 | t1
        · exact Or.inl t1
        · rcases al1 with al1 | al1
          · right; left; rw [List.length_drop]; simp only [List.length_nil]; omega
          · right; right; rw [al1]; simp
    · refine ⟨S, rest1, rem1, hS, a2, rfl, al1, hn, ?_, ?_⟩
      · rcases hn with hn | hn
        · rw [hn]; exact h0
        · omega
      · rw [ht2]
        rcases t1 with t1 | t1
        · exact Or.inl t1
        · rcases al1 with al1 | al1
          · right; left; omega
          · right; right; exact al1
  obtain ⟨S2, rest2, rem2, hS2, a2, eq2, al2, cc2, lt2, t2⟩ := k4
  rw [eq2] at eq0
  obtain ⟨q3, S3, rest3, rem3, e3, ht3, hS3, a3, eq3, l3, al3, nil3⟩ := incBody_at p h0 hr2 hS2 a2 al2 cc2 lt2
  have hlen3 : (rest3 ++ rem3).length = (rest2 ++ rem2).length % r := by
    have := eager_rest_mod (step := Fips202.block f) h0 S2 (rest2 ++ rem2)
    rw [eq3] at this; exact this
  have t3 : rem3 = [] ∨ q3.t = List.replicate 8 0 := by
    rw [ht3]
    rcases t2 with t2 | t2 | t2
    · exact Or.inr t2
    · left
      rcases al3 with al3 | al3
      · apply List.eq_nil_of_length_eq_zero
        rw [List.length_append, List.length_append] at hlen3
        have h1 := Nat.mod_mod_of_dvd (rest2.length + rem2.length) (Nat.dvd_of_mod_eq_zero h8)
        rw [← hlen3] at h1; omega
      · exact al3
    · exact Or.inl (nil3 t2)
  have hlt3 : (rest3 ++ rem3).length < r := by rw [hlen3]; exact Nat.mod_lt _ h0
  have e4 := incTail_at hS3 a3 (by rw [List.length_append] at hlt3; omega) l3 al3 t3
  have hfin : incremental P inp io x.length pos r dom st false = .ok (part S3 (rest3 ++ rem3), (rest3 ++ rem3).length) := by
    rw [incremental, e1, ok_bind, e2, ok_bind, e3, ok_bind, e4, ok_bind]
    rfl
  exact ⟨_, _, hfin, by rw [eq0, eq3], by rw [eq0, eq3]⟩

theorem xorInto_byte {s x : List Byte} {b : Byte} (h : s.length = 200) (hx : x.length < 200) : xorInto [b] 0 (part s x) x.length 1 = .ok (part s (x ++ [b])) :=
  part_next h (Holds.self [b]) rfl (by simp; omega)

/-- With `Final`: the padding is XORed as well. -/
theorem incFinal_eq {r l : Nat} (h0 : 0 < r) (hr : r ≤ 200) (h8 : r % 8 = 0) {S rest : List Byte} (hS : S.length = 200) (hl : rest.length = l % r) (dom : Byte) (hd : dom &&& 0x80 = 0) :
    incFinal r dom (part S rest) rest.length = .ok (part S (rest ++ Fips202.pad r dom l)) := by
  have hm := Nat.mod_lt l h0
  have e1 : 8 * (rest.length / 8) + rest.length % 8 = rest.length := Nat.div_add_mod _ _
  have e2 : 8 * (r / 8 - 1) + 7 = r - 1 := by have := Nat.div_add_mod r 8; omega
  rw [incFinal, e1, e2, xorInto_byte hS (by omega), ok_bind, Fips202.pad]
  by_cases h1 : r - l % r = 1
  · rw [if_pos h1]
    have hst : part S (rest ++ [dom ||| 0x80]) = part S (rest ++ [dom ^^^ 0x80]) := by
      have : dom ||| 0x80 = dom ^^^ 0x80 := by revert hd; revert dom; decide +kernel
      rw [this]
    have hrl : r - 1 = rest.length := by omega
    rw [hst, hrl, part_split (x := rest ++ [dom]) (by simp; omega) hS, part_split (x := rest ++ [dom ^^^ 0x80]) (by simp; omega) hS]
    have hlen : ∀ b : Byte, (rest ++ [b]).length = rest.length + 1 := by simp
    rw [hlen, hlen, List.take_add, xorBytes_append (by rw [List.length_take]; omega), xorBytes_append (by rw [List.length_take]; omega)]
    have h1l : ((S.drop rest.length).take 1).length = 1 := by rw [List.length_take, List.length_drop]; omega
    have ha : (xorBytes (S.take rest.length) rest).length = rest.length := by rw [xorBytes_length, List.length_take]; omega
    rw [xorInto_at (n := 1) (Holds.self [(0x80 : Byte)]) ha.symm rfl (by rw [xorBytes_length, h1l]; rfl)]
    congr 3
    match (S.drop rest.length).take 1, h1l with
    | [z], _ => simp [xorBytes, BitVec.xor_assoc]
  · rw [if_neg h1]
    have hz := part_zeros (s := S) (x := rest ++ [dom]) (k := r - l % r - 2) (by simp; omega)
    have hk : r - 1 = (rest ++ [dom] ++ List.replicate (r - l % r - 2) (0 : Byte)).length := by simp; omega
    rw [← hz, hk, xorInto_byte hS (by omega)]
    simp

end Cex.Keccak
