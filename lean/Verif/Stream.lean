import Verif.Buf

/-!
# Streaming a message block by block

`eager`: a block is absorbed as soon as it is complete. `lazy`: a complete block is absorbed only when
more data follows. Both return the chaining value and the unabsorbed rest.
-/

namespace Cex.Stream
open Cex

variable {σ : Type}

/-- Absorb every complete `B`-byte block. -/
def eager (B : Nat) (step : σ → List Byte → σ) (s : σ) (m : List Byte) : σ × List Byte :=
  if 0 < B ∧ B ≤ m.length then eager B step (step s (m.take B)) (m.drop B) else (s, m)
termination_by m.length
decreasing_by rw [List.length_drop]; omega

/-- Absorb every complete `B`-byte block that is followed by more data. -/
def lazy (B : Nat) (step : σ → List Byte → σ) (s : σ) (m : List Byte) : σ × List Byte :=
  if 0 < B ∧ B < m.length then lazy B step (step s (m.take B)) (m.drop B) else (s, m)
termination_by m.length
decreasing_by rw [List.length_drop]; omega

variable {B : Nat} {step : σ → List Byte → σ}

theorem eager_short {s : σ} {m : List Byte} (h : m.length < B) : eager B step s m = (s, m) := by
  rw [eager, if_neg (by omega)]

theorem lazy_short {s : σ} {m : List Byte} (h : m.length ≤ B) : lazy B step s m = (s, m) := by
  rw [lazy, if_neg (by omega)]

theorem eager_cons (hB : 0 < B) {s : σ} {b m : List Byte} (h : b.length = B) :
    eager B step s (b ++ m) = eager B step (step s b) m := by
  subst h
  rw [eager, if_pos ⟨hB, by simp⟩, List.take_left, List.drop_left]

theorem eager_one (hB : 0 < B) {s : σ} {b : List Byte} (h : b.length = B) : eager B step s b = (step s b, []) := by
  have := eager_cons (step := step) (s := s) (m := []) hB h
  rw [List.append_nil] at this
  rw [this, eager_short (by simpa using hB)]

theorem lazy_cons (hB : 0 < B) {s : σ} {b m : List Byte} (h : b.length = B) (hm : m ≠ []) :
    lazy B step s (b ++ m) = lazy B step (step s b) m := by
  subst h
  have : 0 < m.length := List.length_pos_iff.mpr hm
  rw [lazy, if_pos ⟨hB, by simp; omega⟩, List.take_left, List.drop_left]

theorem eager_rest_lt (hB : 0 < B) (s : σ) (m : List Byte) : (eager B step s m).2.length < B := by
  induction s, m using eager.induct B step with
  | case1 s m h ih => rw [eager, if_pos h]; exact ih
  | case2 s m h => rw [eager, if_neg h]; simp only []; omega

theorem eager_rest_mod (hB : 0 < B) (s : σ) (m : List Byte) : (eager B step s m).2.length = m.length % B := by
  induction s, m using eager.induct B step with
  | case1 s m h ih => rw [eager, if_pos h, ih, List.length_drop, ← Nat.mod_eq_sub_mod h.2]
  | case2 s m h => rw [eager, if_neg h, Nat.mod_eq_of_lt (by omega)]

theorem lazy_rest_le (hB : 0 < B) (s : σ) (m : List Byte) : (lazy B step s m).2.length ≤ B := by
  induction s, m using lazy.induct B step with
  | case1 s m h ih => rw [lazy, if_pos h]; exact ih
  | case2 s m h => rw [lazy, if_neg h]; simp only []; omega

theorem lazy_rest_ne (s : σ) (m : List Byte) (hm : m ≠ []) : (lazy B step s m).2 ≠ [] := by
  induction s, m using lazy.induct B step with
  | case1 s m h ih =>
    rw [lazy, if_pos h]
    exact ih (by intro e; have := congrArg List.length e; rw [List.length_drop] at this; simp at this; omega)
  | case2 s m h => rw [lazy, if_neg h]; exact hm

/-- Absorbing a message in two parts. -/
theorem eager_append (s : σ) (m x : List Byte) :
    eager B step s (m ++ x) = eager B step (eager B step s m).1 ((eager B step s m).2 ++ x) := by
  induction s, m using eager.induct B step with
  | case1 s m h ih =>
    rw [eager, if_pos ⟨h.1, by rw [List.length_append]; omega⟩, List.take_append_of_le_length h.2,
      List.drop_append_of_le_length h.2, ih]
    conv => rhs; rw [eager.eq_def B step s m, if_pos h]
  | case2 s m h => conv => rhs; rw [eager.eq_def B step s m, if_neg h]

theorem lazy_append (s : σ) (m x : List Byte) :
    lazy B step s (m ++ x) = lazy B step (lazy B step s m).1 ((lazy B step s m).2 ++ x) := by
  induction s, m using lazy.induct B step with
  | case1 s m h ih =>
    rw [lazy, if_pos ⟨h.1, by rw [List.length_append]; omega⟩, List.take_append_of_le_length (by omega),
      List.drop_append_of_le_length (by omega), ih]
    conv => rhs; rw [lazy.eq_def B step s m, if_pos h]
  | case2 s m h => conv => rhs; rw [lazy.eq_def B step s m, if_neg h]

theorem eager_blocks (hB : 0 < B) : ∀ (bs : List (List Byte)) (s : σ) (r : List Byte), Blocks B bs → r.length < B →
    eager B step s (bs.flatten ++ r) = (bs.foldl step s, r)
  | [], s, r, _, hr => eager_short hr
  | b :: bs, s, r, hb, hr => by
    rw [List.flatten_cons, List.append_assoc, eager_cons hB hb.cons.1, eager_blocks hB bs _ r hb.cons.2 hr, List.foldl_cons]

theorem lazy_blocks (hB : 0 < B) : ∀ (bs : List (List Byte)) (s : σ) (r : List Byte), Blocks B bs → r.length ≤ B → r ≠ [] →
    lazy B step s (bs.flatten ++ r) = (bs.foldl step s, r)
  | [], s, r, _, hr, _ => lazy_short hr
  | b :: bs, s, r, hb, hr, hn => by
    rw [List.flatten_cons, List.append_assoc, lazy_cons hB hb.cons.1 (by simp [hn]), lazy_blocks hB bs _ r hb.cons.2 hr hn,
      List.foldl_cons]

end Cex.Stream

namespace Cex

theorem Holds.takeN {x m : List Byte} {io : Nat} (n : Nat) (h : Holds x io m) : Holds x io (m.take n) := by
  obtain ⟨a, q, e, ha⟩ := h
  exact ⟨a, m.drop n ++ q, by rw [e]; simp only [List.append_assoc]; rw [← List.append_assoc (m.take n), List.take_append_drop], ha⟩

theorem Holds.dropN {x m : List Byte} {io n : Nat} (h : Holds x io m) (hn : n ≤ m.length) : Holds x (io + n) (m.drop n) := by
  obtain ⟨a, q, e, ha⟩ := h
  exact ⟨a ++ m.take n, q, by rw [e]; simp only [List.append_assoc]; rw [← List.append_assoc (m.take n), List.take_append_drop],
    by rw [List.length_append, ha, List.length_take]; omega⟩

theorem clear_whole (b : List Byte) : clear b 0 b.length = .ok (List.replicate b.length 0) := by
  have := blit_at (a := []) (b := b) (c := []) (s := List.replicate b.length 0) (off := 0) rfl (by simp)
  rw [clear]
  split
  · rename_i h; rw [List.eq_nil_of_length_eq_zero h]; rfl
  · simpa using this

/-- A call's input window: buffer, offset, length, inside the buffer. -/
structure Window where
  buf : List Byte
  off : Nat
  len : Nat
  le : off + len ≤ buf.length
  size : buf.length < 2 ^ 64

/-- The bytes of the window. -/
def Window.bytes (w : Window) : List Byte := (w.buf.drop w.off).take w.len

theorem Window.holds (w : Window) : Holds w.buf w.off w.bytes :=
  ⟨w.buf.take w.off, w.buf.drop (w.off + w.len), by
    rw [Window.bytes, List.append_assoc, ← List.drop_drop, List.take_append_drop, List.take_append_drop],
   by rw [List.length_take]; have := w.le; omega⟩

theorem Window.bytes_length (w : Window) : w.bytes.length = w.len := by
  rw [Window.bytes, List.length_take, List.length_drop]; have := w.le; omega

/-- A window over a whole buffer. -/
def Window.whole (x : List Byte) (h : x.length < 2 ^ 64) : Window := ⟨x, 0, x.length, by omega, h⟩

theorem Window.whole_bytes (x : List Byte) (h : x.length < 2 ^ 64) : (Window.whole x h).bytes = x := by simp [whole, bytes]

theorem blit_len {α : Type} {b s b' : List α} {off : Nat} (h : blit b off s = .ok b') : b'.length = b.length := by
  rw [blit] at h
  split at h
  · cases h; simp; omega
  · cases h

theorem copy_len {s d d' : List Byte} {so off n : Nat} (h : copy s so d off n = .ok d') : d'.length = d.length := by
  rw [copy] at h
  split at h
  · cases h; rfl
  · cases hs : slice s so n with
    | error e => rw [hs] at h; cases h
    | ok v => rw [hs, ok_bind] at h; exact blit_len h

theorem bind_ok {ε α β : Type} {x : Except ε α} {f : α → Except ε β} {b : β} (h : (x >>= f) = .ok b) :
    ∃ a, x = .ok a ∧ f a = .ok b := by
  cases x with
  | error e => cases h
  | ok a => exact ⟨a, rfl, h⟩

theorem xorInto_len {s d d' : List Byte} {so off n : Nat} (h : xorInto s so d off n = .ok d') : d'.length = d.length := by
  rw [xorInto] at h
  obtain ⟨_, _, h⟩ := bind_ok h
  obtain ⟨_, _, h⟩ := bind_ok h
  exact blit_len h

theorem wr_len {α : Type} {b b' : List α} {i : Nat} {v : α} (h : wr b i v = .ok b') : b'.length = b.length := by
  rw [wr] at h
  split at h
  · cases h; simp
  · cases h

theorem clear_len {b b' : List Byte} {off n : Nat} (h : clear b off n = .ok b') : b'.length = b.length := by
  rw [clear] at h
  split at h
  · cases h; rfl
  · exact blit_len h

/-- A partial-correctness rule for `loopN`. -/
theorem loopN_ok {σ : Type} {f : Nat → σ → M σ} (P : σ → Prop) (hf : ∀ i s s', P s → f i s = .ok s' → P s') :
    ∀ (n i : Nat) (s s' : σ), P s → loopN n i f s = .ok s' → P s'
  | 0, _, _, _, hp, h => by cases h; exact hp
  | n + 1, i, s, s', hp, h => by
    obtain ⟨a, h1, h2⟩ := bind_ok (x := f i s) h
    exact loopN_ok P hf n (i + 1) a s' (hf i s a hp h1) h2

end Cex
