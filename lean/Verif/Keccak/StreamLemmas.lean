import Verif.Keccak.ShakeProps
import Verif.Keccak.IncLemmas

/-!
# The output of a sponge block by block
-/

namespace Cex.Keccak
open Cex Cex.IntTools Stream Cex.Mac

variable {P : List Byte → M (List Byte)} {f : List Byte → List Byte}

/-- The state after `m` blocks of output for the message `x`. -/
def after (f : List Byte → List Byte) (r : Nat) (x : List Byte) (m : Nat) : List Byte := Nat.repeat f m (absorbed f r 0x1F (List.replicate 200 0) x)

theorem after_length (p : Perm P f) {r : Nat} (h0 : 0 < r) (hr : r ≤ 200) (x : List Byte) (m : Nat) : (after f r x m).length = 200 :=
  repeat_len p m (absorbed_length p h0 hr List.length_replicate)

theorem shake_squeeze {r : Nat} (h0 : 0 < r) (x : List Byte) (n : Nat) : Fips202.shake f r x n = Fips202.squeeze f r (after f r x 1) n := by
  rw [after, Nat.repeat, Nat.repeat, f_absorbed (f := f) h0]
  rfl

theorem shake_len (p : Perm P f) {r n : Nat} (h0 : 0 < r) (hr : r ≤ 200) (x : List Byte) : (Fips202.shake f r x n).length = n := by
  rw [shake_squeeze h0, squeeze_length p h0 hr n _ (after_length p h0 hr x 1)]

theorem shake_take (p : Perm P f) {r n m : Nat} (h0 : 0 < r) (hr : r ≤ 200) (x : List Byte) (h : n ≤ m) : (Fips202.shake f r x m).take n = Fips202.shake f r x n := by
  obtain ⟨k, rfl⟩ := Nat.exists_eq_add_of_le h
  rw [shake_squeeze h0, shake_squeeze h0, Shake.squeeze_take p h0 hr k n _ (after_length p h0 hr x 1)]

theorem shake_step (p : Perm P f) {r : Nat} (h0 : 0 < r) (hr : r ≤ 200) (x : List Byte) (m : Nat) :
    Fips202.shake f r x (r * (m + 1)) = Fips202.shake f r x (r * m) ++ (after f r x (m + 1)).take r := by
  have h1 := after_length p h0 hr x 1
  have h2 := Shake.squeeze_drop p h0 hr r m _ h1
  have h3 := Shake.squeeze_take p h0 hr r (m * r) _ h1
  rw [shake_squeeze h0, shake_squeeze h0, show r * (m + 1) = m * r + r from by rw [Nat.mul_add, Nat.mul_one, Nat.mul_comm], ← List.take_append_drop (m * r) (Fips202.squeeze f r (after f r x 1) (m * r + r)), h3, h2,
    Nat.mul_comm r m]
  congr 1
  rw [after, after, Nat.repeat, Nat.repeat, ← repeat_shift, Fips202.squeeze, if_neg (by omega)]

theorem squeeze_one (p : Perm P f) {r : Nat} (hr : r ≤ 200) {s : List Byte} (hs : s.length = 200) {off : Nat} (pre junk post : List Byte) (ho : pre.length = off) (hj : junk.length = r) :
    squeeze P r 1 s (pre ++ junk ++ post) off = .ok (f s, pre ++ (f s).take r ++ post) := by
  have hl := p.len _ hs
  rw [squeeze, p.run _ hs, ok_bind, copy_at (s := (f s).take r) (holds_take _ _) ho.symm (by rw [List.length_take]; omega) (by rw [List.length_take]; omega), ok_bind, squeeze]
  rfl

theorem squeeze_first (p : Perm P f) {r : Nat} (h0 : 0 < r) (hr : r ≤ 200) (x : List Byte) : ∀ (n m : Nat) (pre junk post : List Byte) (off : Nat), pre.length = off → junk.length = r * n →
    squeeze P r n (after f r x m) (pre ++ junk ++ post) off = .ok (after f r x (m + n), pre ++ (Fips202.shake f r x (r * (m + n))).drop (r * m) ++ post)
  | 0, m, pre, junk, post, off, ho, hj => by
    rw [squeeze, Nat.add_zero, List.drop_eq_nil_of_le (by rw [shake_len p h0 hr])]
    obtain rfl : junk = [] := List.eq_nil_of_length_eq_zero (by simpa using hj)
    rfl
  | n + 1, m, pre, junk, post, off, ho, hj => by
    have hs := after_length p h0 hr x m
    have hs1 := after_length p h0 hr x (m + 1)
    have ht : ((after f r x (m + 1)).take r).length = r := by rw [List.length_take]; omega
    have e : pre ++ junk ++ post = pre ++ junk.take r ++ (junk.drop r ++ post) := by
      simp only [List.append_assoc]; rw [← List.append_assoc (junk.take r), List.take_append_drop]
    have hf : f (after f r x m) = after f r x (m + 1) := rfl
    rw [Nat.mul_add, Nat.mul_one] at hj
    have h1 := squeeze_one p hr hs pre (junk.take r) (junk.drop r ++ post) ho (by rw [List.length_take]; omega)
    rw [squeeze, p.run _ hs, ok_bind] at h1
    obtain ⟨out, h2, h3⟩ := bind_ok h1
    rw [squeeze, pure_eq_ok] at h3
    have h3 := (Prod.mk.inj (Except.ok.inj h3)).2
    rw [squeeze, p.run _ hs, ok_bind, e, h2, ok_bind, h3, hf, show pre ++ (after f r x (m + 1)).take r ++ (junk.drop r ++ post) = (pre ++ (after f r x (m + 1)).take r) ++ junk.drop r ++ post from by simp,
      squeeze_first p h0 hr x n (m + 1) (pre ++ (after f r x (m + 1)).take r) (junk.drop r) post (off + r) (by rw [List.length_append, ho, ht]) (by rw [List.length_drop]; omega),
      show m + 1 + n = m + (n + 1) from by omega]
    congr 2
    rw [List.append_assoc pre]
    congr 2
    have hk : Fips202.shake f r x (r * m) ++ (after f r x (m + 1)).take r = (Fips202.shake f r x (r * (m + (n + 1)))).take (r * (m + 1)) := by
      rw [shake_take p h0 hr x (Nat.mul_le_mul_left _ (by omega)), shake_step p h0 hr]
    have hd := congrArg (List.drop (r * m)) hk
    rw [List.drop_left' (shake_len p h0 hr x), List.drop_take, show r * (m + 1) - r * m = r from by rw [Nat.mul_add, Nat.mul_one]; omega] at hd
    rw [hd, show r * (m + 1) = r * m + r from by rw [Nat.mul_add, Nat.mul_one], ← List.drop_drop, List.take_append_drop]

/-- `Absorb` from the zero state. -/
theorem absorb_after (p : Perm P f) {r : Nat} (h0 : 0 < r) (hr : r ≤ 200) (x : List Byte) : absorb P x 0 x.length r 0x1F (List.replicate 200 0) = .ok (after f r x 0) :=
  absorb_eq p h0 hr 0x1F (Holds.self x) rfl List.length_replicate

/-- `Incremental` with `Finalize`: what was given before, these bytes, and the padding. -/
theorem incremental_final (p : Perm P f) {r : Nat} (h0 : 0 < r) (hr : r ≤ 192) (h8 : r % 8 = 0) {m st inp x : List Byte} {io pos : Nat} (h : Inc.Has f r (List.replicate 200 0) m st pos)
    (hx : Holds inp io x) (hc : Inc.Clean pos x.length) : ∃ pos', incremental P inp io x.length pos r 0x1F st true = .ok (after f r (m ++ x) 0, pos') := by
  have hz : (List.replicate 200 (0 : Byte)).length = 200 := List.length_replicate
  obtain ⟨st', pos', h1, h2, h3⟩ := incremental_has p h0 hr h8 hz h hx hc 0x1F
  have hS := eager_length p (show r ≤ 200 by omega) (List.replicate 200 0) (m ++ x) hz
  have hrest := eager_rest_mod (step := Fips202.block f) h0 (List.replicate 200 0) (m ++ x)
  have hl := lastBlock_length (f := f) h0 0x1F (List.replicate 200 0) (m ++ x)
  have hf := incFinal_eq (l := (m ++ x).length) h0 (by omega) h8 hS hrest 0x1F (by decide)
  rw [incremental] at h1 ⊢
  obtain ⟨q1, e1, h1⟩ := bind_ok h1
  obtain ⟨q2, e2, h1⟩ := bind_ok h1
  obtain ⟨q3, e3, h1⟩ := bind_ok h1
  obtain ⟨q4, e4, h1⟩ := bind_ok h1
  rw [if_neg (by decide)] at h1
  have h1 := Except.ok.inj h1
  subst h1
  refine ⟨pos', ?_⟩
  rw [e1, ok_bind, e2, ok_bind, e3, ok_bind, e4, ok_bind, if_pos rfl]
  simp only at h2 h3 ⊢
  rw [h2, h3, hf, ok_bind, after, Nat.repeat, absorbed, part, hl, pure_eq_ok]

/-- The zero state has absorbed nothing. -/
theorem inc_start (r : Nat) (h0 : 0 < r) : Inc.Has f r (List.replicate 200 0) [] (List.replicate 200 0) 0 := by
  have e : eager r (Fips202.block f) (List.replicate 200 0) [] = (List.replicate 200 0, []) := by rw [eager]; simp; omega
  refine ⟨?_, by rw [e]; rfl⟩
  rw [e]
  exact (part_nil List.length_replicate).symm

/-- `SqueezePartial` of at most one block. -/
theorem squeezePartial_after (p : Perm P f) {r : Nat} (h0 : 0 < r) (hr : r ≤ 200) (x : List Byte) {len off : Nat} (hlen : len ≤ r) (pre junk post : List Byte) (ho : pre.length = off) (hj : junk.length = len) :
    squeezePartial P (after f r x 0) (pre ++ junk ++ post) off len r = .ok (after f r x 1, pre ++ Fips202.shake f r x len ++ post) := by
  have h1 := squeeze_first p h0 hr x 1 0 [] (List.replicate r 0) [] 0 rfl (by rw [List.length_replicate, Nat.mul_one])
  rw [List.nil_append, List.append_nil, Nat.mul_zero, List.drop_zero, List.nil_append, List.append_nil] at h1
  rw [squeezePartial, h1, ok_bind]
  have h2 : Holds (Fips202.shake f r x (r * (0 + 1))) 0 (Fips202.shake f r x len) := by
    rw [← shake_take p h0 hr x (show len ≤ r * (0 + 1) by omega)]
    exact holds_take _ _
  rw [copy_at (s := Fips202.shake f r x len) h2 ho.symm (shake_len p h0 hr x).symm (by rw [hj, shake_len p h0 hr]), ok_bind]
  rfl

end Cex.Keccak
