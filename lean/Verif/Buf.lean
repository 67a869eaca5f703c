import Verif.Base

/-! # Windows and blocks of byte arrays -/

namespace Cex

/-- `x` contains `w` at offset `off`. -/
def Holds (x : List Byte) (off : Nat) (w : List Byte) : Prop := ∃ a c, x = a ++ w ++ c ∧ a.length = off

/-- All blocks have `B` bytes. -/
def Blocks (B : Nat) (bs : List (List Byte)) : Prop := ∀ b ∈ bs, b.length = B

/-! ## Windows -/

theorem Holds.sub {x u v w : List Byte} {off : Nat} (h : Holds x off (u ++ v ++ w)) : Holds x (off + u.length) v := by
  obtain ⟨a, c, rfl, rfl⟩ := h
  exact ⟨a ++ u, w ++ c, by simp, by simp⟩

theorem Holds.self (x : List Byte) : Holds x 0 x := ⟨[], [], by simp, rfl⟩

theorem Holds.le {x w : List Byte} {off : Nat} (h : Holds x off w) : off + w.length ≤ x.length := by
  obtain ⟨a, c, rfl, rfl⟩ := h; simp

theorem slice_holds {x w : List Byte} {off n : Nat} (h : Holds x off w) (hn : n = w.length) :
    slice x off n = .ok w := by
  obtain ⟨a, c, rfl, rfl⟩ := h; subst hn; exact slice_append a w c

theorem blit_at {a b c s : List Byte} {off : Nat} (ho : off = a.length) (hl : s.length = b.length) :
    blit (a ++ b ++ c) off s = .ok (a ++ s ++ c) := by
  subst ho; exact blit_append a b c s hl

theorem copy_at {src a b c s : List Byte} {so off n : Nat} (hs : Holds src so s) (ho : off = a.length)
    (hn : n = s.length) (hb : b.length = s.length) : copy src so (a ++ b ++ c) off n = .ok (a ++ s ++ c) := by
  by_cases h0 : n = 0
  · have h1 : s = [] := List.length_eq_zero_iff.mp (by omega)
    have h2 : b = [] := List.length_eq_zero_iff.mp (by omega)
    subst h1; subst h2; simp [copy, h0]
  · rw [copy, if_neg h0, slice_holds hs hn, ok_bind, blit_at ho (by omega)]

/-- Copy over a whole array. -/
theorem copy_whole {src b s : List Byte} {so n : Nat} (hs : Holds src so s) (hn : n = s.length)
    (hb : b.length = s.length) : copy src so b 0 n = .ok s := by
  have := copy_at (a := []) (c := []) hs (off := 0) rfl hn hb
  simpa using this

theorem xorInto_at {src a d c s : List Byte} {so off n : Nat} (hs : Holds src so s) (ho : off = a.length)
    (hn : n = s.length) (hd : d.length = s.length) :
    xorInto src so (a ++ d ++ c) off n = .ok (a ++ xorBytes d s ++ c) := by
  rw [xorInto, slice_holds hs hn, ok_bind, slice_holds ⟨a, c, rfl, ho.symm⟩ (by omega), ok_bind,
    blit_at ho (by rw [xorBytes_length]; omega)]

/-! ## Blocks -/

theorem Blocks.cons {B : Nat} {b : List Byte} {bs : List (List Byte)} (h : Blocks B (b :: bs)) :
    b.length = B ∧ Blocks B bs := ⟨h b (by simp), fun x hx => h x (by simp [hx])⟩

theorem Blocks.get {B k : Nat} {b : List Byte} {bs : List (List Byte)} (h : Blocks B bs) (hk : bs[k]? = some b) :
    b.length = B := h b (List.mem_of_getElem? hk)

theorem Blocks.take {B : Nat} {bs : List (List Byte)} (h : Blocks B bs) (n : Nat) : Blocks B (bs.take n) :=
  fun x hx => h x (List.mem_of_mem_take hx)

theorem Blocks.drop {B : Nat} {bs : List (List Byte)} (h : Blocks B bs) (n : Nat) : Blocks B (bs.drop n) :=
  fun x hx => h x (List.mem_of_mem_drop hx)

theorem Blocks.length {B : Nat} {bs : List (List Byte)} (h : Blocks B bs) : bs.flatten.length = bs.length * B := by
  induction bs with
  | nil => simp
  | cons b bs ih =>
    obtain ⟨h1, h2⟩ := h.cons
    rw [List.flatten_cons, List.length_append, h1, ih h2, List.length_cons, Nat.succ_mul]; omega

theorem Blocks.append {B : Nat} {as bs : List (List Byte)} (h1 : Blocks B as) (h2 : Blocks B bs) : Blocks B (as ++ bs) := by
  intro x hx
  rcases List.mem_append.mp hx with h | h
  · exact h1 x h
  · exact h2 x h

theorem Holds.drop {B : Nat} {x : List Byte} {off : Nat} {bs : List (List Byte)} (hb : Blocks B bs)
    (h : Holds x off bs.flatten) (k : Nat) (hk : k ≤ bs.length) : Holds x (off + k * B) (bs.drop k).flatten := by
  have e : bs.flatten = (bs.take k).flatten ++ (bs.drop k).flatten ++ [] := by
    rw [List.append_nil, ← List.flatten_append, List.take_append_drop]
  rw [e] at h
  have := h.sub
  rwa [(hb.take k).length, List.length_take, Nat.min_eq_left hk] at this

theorem Holds.take {x : List Byte} {off : Nat} {bs : List (List Byte)}
    (h : Holds x off bs.flatten) (k : Nat) : Holds x off (bs.take k).flatten := by
  have e : bs.flatten = [] ++ (bs.take k).flatten ++ (bs.drop k).flatten := by
    rw [List.nil_append, ← List.flatten_append, List.take_append_drop]
  rw [e] at h
  exact h.sub

theorem Holds.block {B k : Nat} {x b : List Byte} {off : Nat} {bs : List (List Byte)} (hb : Blocks B bs)
    (h : Holds x off bs.flatten) (hk : bs[k]? = some b) : Holds x (off + k * B) b := by
  have hlt : k < bs.length := (List.getElem?_eq_some_iff.mp hk).1
  have h1 := h.drop hb k (by omega)
  have : bs.drop k = b :: bs.drop (k + 1) := by
    rw [List.drop_eq_getElem_cons hlt]
    congr 1
    rw [List.getElem?_eq_getElem hlt] at hk
    exact Option.some.inj hk
  rw [this] at h1
  have e : (b :: bs.drop (k + 1)).flatten = [] ++ b ++ (bs.drop (k + 1)).flatten := by simp
  rw [e] at h1
  exact h1.sub


end Cex
