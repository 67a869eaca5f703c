import Verif.Keccak.Objects
import Verif.Keccak.EncodeLemmas
import Verif.Digest.Interface

/-! # Squeezing and buffered updates -/

namespace Cex.Keccak
open Cex Cex.IntTools Stream Cex.Mac

variable {P : List Byte → M (List Byte)} {f : List Byte → List Byte}

theorem squeeze_ge {r n : Nat} (h0 : 0 < r) (h : r ≤ n) (s : List Byte) : Fips202.squeeze f r s n = s.take r ++ Fips202.squeeze f r (f s) (n - r) := by
  rcases Nat.lt_or_eq_of_le h with hlt | heq
  · conv => lhs; rw [Fips202.squeeze, if_pos ⟨h0, hlt⟩]
  · subst heq
    rw [Fips202.squeeze, if_neg (by omega), Nat.sub_self, Fips202.squeeze, if_neg (by omega), List.take_zero, List.append_nil]

theorem squeeze_lt {r n : Nat} (h : n < r) (s : List Byte) : Fips202.squeeze f r s n = s.take n := by
  rw [Fips202.squeeze, if_neg (by omega)]

theorem squeeze_length (p : Perm P f) {r : Nat} (h0 : 0 < r) (hr : r ≤ 200) (n : Nat) : ∀ s : List Byte, s.length = 200 → (Fips202.squeeze f r s n).length = n := by
  induction n using Nat.strongRecOn with
  | ind n ih =>
    intro s hs
    by_cases h : r ≤ n
    · rw [squeeze_ge h0 h, List.length_append, ih (n - r) (by omega) _ (p.len _ hs), List.length_take]; omega
    · rw [squeeze_lt (by omega), List.length_take]; omega

/-- The number of permutations for `n` bytes of output. -/
def blocks (r n : Nat) : Nat := (n + r - 1) / r

theorem blocks_ge {r n : Nat} (h0 : 0 < r) (h : r ≤ n) : blocks r n = blocks r (n - r) + 1 := by
  rw [blocks, blocks, show n + r - 1 = (n - r + r - 1) + r from by omega, Nat.add_div_right _ h0]

theorem blocks_lt {r n : Nat} (h : n < r) (hn : 0 < n) : blocks r n = 1 := by
  rw [blocks, show n + r - 1 = (n - 1) + r from by omega, Nat.add_div_right _ (by omega), Nat.div_eq_of_lt (by omega)]

theorem blocks_zero {r : Nat} (h0 : 0 < r) : blocks r 0 = 0 := by
  rw [blocks, Nat.div_eq_of_lt (by omega)]

theorem repeat_len (p : Perm P f) (n : Nat) {s : List Byte} (h : s.length = 200) : (Nat.repeat f n s).length = 200 := by
  induction n with
  | zero => exact h
  | succ n ih => exact p.len _ ih

theorem repeat_shift (n : Nat) (s : List Byte) : Nat.repeat f (n + 1) s = Nat.repeat f n (f s) := by
  induction n with
  | zero => rfl
  | succ n ih => rw [Nat.repeat, ih]; rfl

/-- The output loops compute the squeezing phase; the permutation comes first. -/
theorem expand_eq (p : Perm P f) {r : Nat} (h0 : 0 < r) (hr : r ≤ 200) (n : Nat) : ∀ (st pre junk post : List Byte), st.length = 200 → junk.length = n →
    expand P r st (pre ++ junk ++ post) pre.length n = .ok (Nat.repeat f (blocks r n) st, pre ++ Fips202.squeeze f r (f st) n ++ post) := by
  induction n using Nat.strongRecOn with
  | ind n ih =>
    intro st pre junk post hs hj
    by_cases h : r ≤ n
    · have hl : ((f st).take r).length = r := by rw [List.length_take, p.len _ hs]; omega
      have e : pre ++ junk ++ post = pre ++ junk.take r ++ (junk.drop r ++ post) := by
        simp only [List.append_assoc]; rw [← List.append_assoc (junk.take r), List.take_append_drop]
      have e2 : pre ++ (f st).take r ++ (junk.drop r ++ post) = (pre ++ (f st).take r) ++ junk.drop r ++ post := by simp
      have hc : copy (f st) 0 (pre ++ junk ++ post) pre.length r = .ok ((pre ++ (f st).take r) ++ junk.drop r ++ post) := by
        rw [e, copy_at (s := (f st).take r) (holds_take _ _) rfl hl.symm (by rw [hl, List.length_take]; omega), e2]
      have := ih (n - r) (by omega) (f st) (pre ++ (f st).take r) (junk.drop r) post (p.len _ hs) (by rw [List.length_drop, hj])
      rw [List.length_append, hl, expand] at this
      have hd : n / r = (n - r) / r + 1 := by rw [Nat.div_eq_sub_div h0 h]
      have hmod : n % r = (n - r) % r := Nat.mod_eq_sub_mod h
      rw [expand, hd, squeeze, p.run _ hs, ok_bind, hc, ok_bind, hmod, blocks_ge h0 h, repeat_shift, squeeze_ge h0 h]
      rw [show pre.length + r * ((n - r) / r + 1) = pre.length + r + r * ((n - r) / r) from by rw [Nat.mul_add]; omega, this]
      simp
    · have hlt : n < r := by omega
      rw [expand, Nat.div_eq_of_lt hlt, squeeze, pure_eq_ok, ok_bind, Nat.mod_eq_of_lt hlt, squeeze_lt hlt]
      by_cases hn : n = 0
      · subst hn
        have : junk = [] := List.eq_nil_of_length_eq_zero hj
        subst this
        rw [if_pos rfl, blocks_zero h0]
        simp [Nat.repeat]
      · have hl : ((f st).take n).length = n := by rw [List.length_take, p.len _ hs]; omega
        rw [if_neg hn, p.run _ hs, ok_bind, Nat.mul_zero, Nat.add_zero, copy_at (s := (f st).take n) (holds_take _ _) rfl hl.symm (by rw [hl, hj]), ok_bind,
          blocks_lt hlt (by omega)]
        rfl

/-! ## Buffered updates -/

/-- Since the Keccak state was `s0`, the message `m` has been received: complete blocks are absorbed, the rest is in the buffer. `B` is the buffer size. -/
structure Buffered.Got (f : List Byte → List Byte) (r B : Nat) (s0 : List Byte) (s : Buffered) (m : List Byte) : Prop where
  buf : s.buf.length = B
  st : s.st = (eager r (Fips202.block f) s0 m).1
  pos : s.pos = (eager r (Fips202.block f) s0 m).2.length
  rest : s.buf.take s.pos = (eager r (Fips202.block f) s0 m).2

theorem got_nil {r B : Nat} (h0 : 0 < r) {s0 buf : List Byte} (hb : buf.length = B) : Buffered.Got f r B s0 ⟨s0, buf, 0⟩ [] := by
  have : eager r (Fips202.block f) s0 [] = (s0, []) := eager_short (by simpa using h0)
  exact ⟨hb, by rw [this], by rw [this]; rfl, by rw [this]; rfl⟩

theorem copy_front {src buf x : List Byte} {so n : Nat} (hx : Holds src so x) (k : Nat) (hn : n = x.length) (hk : k + n ≤ buf.length) :
    copy src so buf k n = .ok (buf.take k ++ x ++ buf.drop (k + n)) := by
  have e : buf = buf.take k ++ (buf.drop k).take n ++ buf.drop (k + n) := by
    rw [List.append_assoc, ← List.drop_drop, List.take_append_drop, List.take_append_drop]
  conv => lhs; rw [e]
  rw [copy_at hx (by rw [List.length_take]; omega) hn (by rw [List.length_take, List.length_drop]; omega)]

theorem take_front (a b c : List Byte) (n : Nat) (h : n = a.length + b.length) : (a ++ b ++ c).take n = a ++ b := by
  rw [List.take_append_of_le_length (by rw [List.length_append]; omega), List.take_of_length_le (by rw [List.length_append]; omega)]

theorem rest_got (p : Perm P f) {r B : Nat} (h0 : 0 < r) (hr : r ≤ 200) (hB : r ≤ B) {s0 : List Byte} (hs : s0.length = 200) {s : Buffered} {m : List Byte} (h : s.Got f r B s0 m)
    {inp x : List Byte} {io : Nat} (hx : Holds inp io x) (hc : s.pos = 0 ∨ s.pos + x.length < r) :
    ∃ s', Buffered.rest P r inp (s, io, x.length) = .ok s' ∧ s'.Got f r B s0 (m ++ x) := by
  have hsl : s.st.length = 200 := by rw [h.st]; exact eager_length p hr _ _ hs
  have hto : (s.buf.take s.pos).length = s.pos := by rw [h.rest, h.pos]
  rw [Buffered.rest]
  simp only []
  rw [absorbLoop_eq p h0 hr inp _ io x s.st hx rfl hsl, ok_bind]
  have hmod := eager_rest_mod (step := Fips202.block f) h0 s.st x
  have hposr : s.pos < r := by rw [h.pos]; exact eager_rest_lt h0 _ _
  have hlt := Nat.mod_lt x.length h0
  have key : eager r (Fips202.block f) s0 (m ++ x) = ((eager r (Fips202.block f) s.st x).1, s.buf.take s.pos ++ (eager r (Fips202.block f) s.st x).2) := by
    rw [eager_append, ← h.st, ← h.rest]
    rcases hc with hz | hz
    · rw [hz, List.take_zero, List.nil_append, List.nil_append]
    · rw [eager_short (by rw [List.length_append, hto]; exact hz), eager_short (s := s.st) (m := x) (by omega)]
  by_cases hz : x.length % r = 0
  · rw [if_pos hz]
    have hn : (eager r (Fips202.block f) s.st x).2 = [] := List.eq_nil_of_length_eq_zero (hmod.trans hz)
    rw [hn, List.append_nil] at key
    exact ⟨_, rfl, h.buf, by rw [key], by rw [key, hto], by rw [key]⟩
  · rw [if_neg hz]
    have hhold : Holds inp (io + r * (x.length / r)) (eager r (Fips202.block f) s.st x).2 := by
      rw [eager_rest h0]; exact hx.dropN (by have := Nat.div_add_mod x.length r; omega)
    have hfit : s.pos + x.length % r ≤ B := by
      rcases hc with hz | hz
      · omega
      · rw [Nat.mod_eq_of_lt (by omega)]; omega
    rw [copy_front hhold s.pos hmod.symm (by rw [h.buf]; exact hfit), ok_bind]
    refine ⟨_, rfl, ?_, ?_, ?_, ?_⟩
    · simp only [List.length_append, hto, hmod, List.length_drop, h.buf]; omega
    · rw [key]
    · rw [key]; simp only [List.length_append, hto, hmod]
    · rw [key]; simp only []; rw [take_front _ _ _ _ (by rw [hto, hmod])]

theorem update_got (p : Perm P f) {r B : Nat} (h0 : 0 < r) (hr : r ≤ 200) (hB : r ≤ B) {s0 : List Byte} (hs : s0.length = 200) {s : Buffered} {m : List Byte} (h : s.Got f r B s0 m)
    {inp x : List Byte} {io : Nat} (hx : Holds inp io x) :
    ∃ s', s.update P r inp io x.length = .ok s' ∧ s'.Got f r B s0 (m ++ x) := by
  have hsl : s.st.length = 200 := by rw [h.st]; exact eager_length p hr _ _ hs
  have hto : (s.buf.take s.pos).length = s.pos := by rw [h.rest, h.pos]
  have hposr : s.pos < r := by rw [h.pos]; exact eager_rest_lt h0 _ _
  rw [Buffered.update]
  by_cases hz : x.length = 0
  · rw [if_pos hz]
    have : x = [] := List.eq_nil_of_length_eq_zero hz
    subst this
    exact ⟨s, rfl, by rw [List.append_nil]; exact h⟩
  · rw [if_neg hz, Buffered.first]
    by_cases hc : s.pos ≠ 0 ∧ s.pos + x.length ≥ r
    · have hl : (x.take (r - s.pos)).length = r - s.pos := by rw [List.length_take]; omega
      have hh : Holds (s.buf.take s.pos ++ x.take (r - s.pos) ++ s.buf.drop (s.pos + (r - s.pos))) 0 (s.buf.take s.pos ++ x.take (r - s.pos)) := ⟨[], _, rfl, rfl⟩
      have hbl : (s.buf.take s.pos ++ x.take (r - s.pos)).length = r := by rw [List.length_append, hto, hl]; omega
      rw [if_pos hc, copy_front (hx.takeN (r - s.pos)) s.pos hl.symm (by rw [h.buf]; omega), ok_bind,
        absorbOne_eq p hh hbl.symm hsl (by omega), ok_bind, pure_eq_ok, ok_bind]
      have hg : Buffered.Got f r B s0 ⟨Fips202.block f s.st (s.buf.take s.pos ++ x.take (r - s.pos)),
          s.buf.take s.pos ++ x.take (r - s.pos) ++ s.buf.drop (s.pos + (r - s.pos)), 0⟩ (m ++ x.take (r - s.pos)) := by
        have e : eager r (Fips202.block f) s0 (m ++ x.take (r - s.pos)) = (Fips202.block f s.st (s.buf.take s.pos ++ x.take (r - s.pos)), []) := by
          rw [eager_append, ← h.st, ← h.rest, eager_one h0 hbl]
        refine ⟨?_, by rw [e], by rw [e]; rfl, by rw [e]; rfl⟩
        simp only [List.length_append, hto, hl, List.length_drop, h.buf]; omega
      obtain ⟨s', h1, h2⟩ := rest_got p h0 hr hB hs hg (hx.dropN (n := r - s.pos) (by omega)) (Or.inl rfl)
      rw [List.length_drop] at h1
      refine ⟨s', h1, ?_⟩
      rw [List.append_assoc, List.take_append_drop] at h2; exact h2
    · rw [if_neg hc, pure_eq_ok, ok_bind]
      exact rest_got p h0 hr hB hs h hx (by omega)

theorem clear_all (b : List Byte) (n : Nat) (h : b.length = n) : clear b 0 b.length = .ok (List.replicate n 0) := by
  subst h; exact clear_whole b

theorem clear_tail {b : List Byte} {k : Nat} (h : k ≤ b.length) : (if k ≠ b.length then clear b k (b.length - k) else pure b : M (List Byte)) = .ok (b.take k ++ List.replicate (b.length - k) 0) := by
  by_cases hk : k = b.length
  · rw [if_neg (by simpa using hk), hk]; simp
  · rw [if_pos hk, clear, if_neg (by omega)]
    have e : b = b.take k ++ b.drop k ++ [] := by simp
    conv => lhs; rw [e]
    rw [blit_at (off := k) (by rw [List.length_take]; omega) (by rw [List.length_append, List.length_append]; simp; omega)]
    simp only [List.append_nil, List.take_append_drop]

end Cex.Keccak
