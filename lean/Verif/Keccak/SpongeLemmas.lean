import Verif.Keccak.Model
import Verif.Keccak.Spec
import Verif.Keccak.PermLemmas

/-! # The sponge functions of CEX/Keccak.h compute the sponge -/

namespace Cex.Keccak
open Cex Cex.IntTools Stream

/-- `P` computes `f` on states. -/
structure Perm (P : List Byte → M (List Byte)) (f : List Byte → List Byte) : Prop where
  run : ∀ s, s.length = 200 → P s = .ok (f s)
  len : ∀ s, s.length = 200 → (f s).length = 200

theorem perm24 : Perm (permute 24) (Fips202.keccakP 24) :=
  ⟨fun _ h => permute_eq (n := 12) (by decide) h, fun _ _ => keccakP_length _ _⟩

theorem perm24U : Perm permute24U (Fips202.keccakP 24) := ⟨fun _ h => permute24U_eq h, fun _ _ => keccakP_length _ _⟩

variable {P : List Byte → M (List Byte)} {f : List Byte → List Byte}

theorem xorBytes_append {a b c d : List Byte} (h : a.length = c.length) : xorBytes (a ++ b) (c ++ d) = xorBytes a c ++ xorBytes b d := by
  simp only [xorBytes]; rw [List.zipWith_append h]

theorem xor_zeros {a : List Byte} {n : Nat} (h : a.length = n) : xorBytes a (List.replicate n 0) = a := by
  subst h
  induction a with
  | nil => rfl
  | cons x a ih => rw [List.length_cons, List.replicate_succ]; simp only [xorBytes, List.zipWith_cons_cons] at *; rw [ih]; simp

/-- XOR of a block into the start of the state. -/
theorem fastAbsorb_eq {inp b st : List Byte} {io n : Nat} (hi : Holds inp io b) (hn : n = b.length) (h : st.length = 200) (hb : b.length ≤ 200) :
    fastAbsorb inp io n st = .ok (xorBytes st (b ++ List.replicate (200 - b.length) 0)) := by
  have e : st = [] ++ st.take b.length ++ st.drop b.length := by simp
  have hl : (st.take b.length).length = b.length := by rw [List.length_take]; omega
  rw [fastAbsorb]
  conv => lhs; rw [e]
  rw [xorInto_at (a := []) (off := 0) hi rfl hn hl]
  congr 1
  conv => rhs; rw [← List.take_append_drop b.length st]
  rw [xorBytes_append hl, xor_zeros (by rw [List.length_drop]; omega)]
  rfl

theorem xorBytes_state {st b : List Byte} (h : st.length = 200) (hb : b.length ≤ 200) :
    (xorBytes st (b ++ List.replicate (200 - b.length) 0)).length = 200 := by
  rw [xorBytes_length, List.length_append, List.length_replicate]; omega

theorem absorbOne_eq (p : Perm P f) {inp b st : List Byte} {io n : Nat} (hi : Holds inp io b) (hn : n = b.length) (h : st.length = 200) (hb : b.length ≤ 200) :
    absorbOne P inp io n st = .ok (Fips202.block f st b) := by
  rw [absorbOne, fastAbsorb_eq hi hn h hb, ok_bind, p.run _ (xorBytes_state h hb)]; rfl

theorem block_length (p : Perm P f) {st b : List Byte} (h : st.length = 200) (hb : b.length ≤ 200) : (Fips202.block f st b).length = 200 :=
  p.len _ (xorBytes_state h hb)

theorem eager_length (p : Perm P f) {r : Nat} (hr : r ≤ 200) (st m : List Byte) (h : st.length = 200) :
    (eager r (Fips202.block f) st m).1.length = 200 := by
  induction st, m using eager.induct r (Fips202.block f) with
  | case1 s m hm ih => rw [eager, if_pos hm]; exact ih (block_length p h (by rw [List.length_take]; omega))
  | case2 s m hm => rw [eager, if_neg hm]; exact h

theorem lazy_length (p : Perm P f) {r : Nat} (hr : r ≤ 200) (st m : List Byte) (h : st.length = 200) :
    (Stream.lazy r (Fips202.block f) st m).1.length = 200 := by
  induction st, m using Stream.lazy.induct r (Fips202.block f) with
  | case1 s m hm ih => rw [Stream.lazy, if_pos hm]; exact ih (block_length p h (by rw [List.length_take]; omega))
  | case2 s m hm => rw [Stream.lazy, if_neg hm]; exact h

/-- The loop over whole blocks. -/
theorem absorbLoop_eq (p : Perm P f) {r : Nat} (h0 : 0 < r) (hr : r ≤ 200) (inp : List Byte) : ∀ (n io : Nat) (m st : List Byte), Holds inp io m → m.length / r = n → st.length = 200 →
    absorbLoop P inp r n io st = .ok (eager r (Fips202.block f) st m).1
  | 0, io, m, st, _, hn, _ => by
    have : m.length < r := by rcases Nat.div_eq_zero_iff.mp hn with h | h <;> omega
    rw [eager_short this]; rfl
  | n + 1, io, m, st, hi, hn, h => by
    have hm : r ≤ m.length := by
      rcases Nat.lt_or_ge m.length r with hlt | hge
      · rw [Nat.div_eq_of_lt hlt] at hn; omega
      · exact hge
    have hl : (m.take r).length = r := by rw [List.length_take]; omega
    rw [absorbLoop, absorbOne_eq p (hi.takeN r) hl.symm h (by omega), ok_bind,
      absorbLoop_eq p h0 hr inp n (io + r) (m.drop r) _ (hi.dropN hm) ?_ (block_length p h (by omega))]
    · conv => rhs; rw [eager, if_pos ⟨h0, hm⟩]
    · rw [List.length_drop]; rw [Nat.div_eq_sub_div h0 hm] at hn; omega

theorem eager_rest {σ : Type} {B : Nat} {step : σ → List Byte → σ} (hB : 0 < B) (s : σ) (m : List Byte) : (eager B step s m).2 = m.drop (B * (m.length / B)) := by
  induction s, m using eager.induct B step with
  | case1 s m h ih =>
    rw [eager, if_pos h, ih, List.drop_drop, List.length_drop, Nat.div_eq_sub_div hB h.2]
    congr 1; rw [Nat.mul_add]; omega
  | case2 s m h =>
    have : m.length < B := by omega
    rw [eager, if_neg h, Nat.div_eq_of_lt this]; rfl

theorem wr_at {α : Type} (a c : List α) (x v : α) (n : Nat) (h : n = a.length) : wr (a ++ x :: c) n v = .ok (a ++ v :: c) := by
  subst h; rw [wr_ok _ (by simp)]; simp

theorem rd_at {α : Type} (a c : List α) (x : α) (n : Nat) (h : n = a.length) : rd (a ++ x :: c) n = .ok x := by
  subst h; rw [rd_ok (by simp)]; simp

theorem pad_length {r : Nat} (h0 : 0 < r) (dom : Byte) (l : Nat) : (Fips202.pad r dom l).length = r - l % r := by
  have := Nat.mod_lt l h0
  rw [Fips202.pad]; split <;> simp <;> omega

/-- The domain byte and the last padding bit written to a zeroed block. -/
theorem writePad {r l : Nat} (dom : Byte) (rest junk : List Byte) (hl : rest.length = l % r) (h0 : 0 < r) (hr : r + junk.length = 200) :
    (do let msg ← wr (rest ++ List.replicate (200 - rest.length - junk.length) 0 ++ junk) rest.length dom
        let b ← rd msg (r - 1)
        wr msg (r - 1) (b ||| 128)) = .ok (rest ++ Fips202.pad r dom l ++ junk) := by
  have hm := Nat.mod_lt l h0
  have e : 200 - rest.length - junk.length = (r - l % r - 1) + 1 := by omega
  rw [e, List.replicate_succ, List.append_assoc, List.cons_append, wr_at _ _ _ _ _ rfl, ok_bind]
  by_cases h1 : r - l % r = 1
  · rw [show r - l % r - 1 = 0 from by omega, List.replicate_zero, List.nil_append, rd_at _ _ _ _ (by omega), ok_bind, wr_at _ _ _ _ _ (by omega),
      Fips202.pad, if_pos h1]
    simp
  · rw [show r - l % r - 1 = (r - l % r - 2) + 1 from by omega, List.replicate_succ']
    have e2 : rest ++ dom :: (List.replicate (r - l % r - 2) 0 ++ [0] ++ junk) = (rest ++ dom :: List.replicate (r - l % r - 2) 0) ++ 0 :: junk := by simp
    have el : r - 1 = (rest ++ dom :: List.replicate (r - l % r - 2) (0 : Byte)).length := by simp; omega
    rw [e2, rd_at _ _ _ _ el, ok_bind, wr_at _ _ _ _ _ el, Fips202.pad, if_neg h1]
    simp

/-- The state before the last permutation of the absorbing phase. -/
def absorbed (f : List Byte → List Byte) (r : Nat) (dom : Byte) (st m : List Byte) : List Byte :=
  xorBytes (eager r (Fips202.block f) st m).1 ((eager r (Fips202.block f) st m).2 ++ Fips202.pad r dom m.length ++ List.replicate (200 - r) 0)

theorem lastBlock_length {r : Nat} (h0 : 0 < r) (dom : Byte) (st m : List Byte) :
    ((eager r (Fips202.block f) st m).2 ++ Fips202.pad r dom m.length).length = r := by
  rw [List.length_append, pad_length h0, eager_rest_mod h0]; have := Nat.mod_lt m.length h0; omega

theorem absorbed_length (p : Perm P f) {r : Nat} (h0 : 0 < r) (hr : r ≤ 200) {dom : Byte} {st m : List Byte} (h : st.length = 200) : (absorbed f r dom st m).length = 200 := by
  rw [absorbed, xorBytes_length, eager_length p hr _ _ h, List.length_append, lastBlock_length h0, List.length_replicate]; omega

/-- Permuting finishes the absorption of the padded message. -/
theorem f_absorbed {r : Nat} (h0 : 0 < r) (dom : Byte) (st m : List Byte) :
    f (absorbed f r dom st m) = Fips202.absorb f r st (m ++ Fips202.pad r dom m.length) := by
  rw [Fips202.absorb, eager_append, eager_one h0 (lastBlock_length h0 dom st m)]
  simp only [Fips202.block, lastBlock_length h0]
  rfl

/-- `Keccak::Absorb` on a window with content `m`. -/
theorem absorb_eq (p : Perm P f) {r : Nat} (h0 : 0 < r) (hr : r ≤ 200) {inp m st : List Byte} {io len : Nat} (dom : Byte) (hi : Holds inp io m) (hn : len = m.length)
    (h : st.length = 200) : absorb P inp io len r dom st = .ok (absorbed f r dom st m) := by
  subst hn
  have hm := Nat.mod_lt m.length h0
  have hrest : ((eager r (Fips202.block f) st m).2).length = m.length % r := eager_rest_mod h0 st m
  have hh : Holds inp (io + r * (m.length / r)) (eager r (Fips202.block f) st m).2 := by
    rw [eager_rest h0]; exact hi.dropN (by have := Nat.div_add_mod m.length r; omega)
  rw [absorb, absorbLoop_eq p h0 hr inp _ io m st hi rfl h, ok_bind]
  have e : List.replicate 200 (0 : Byte) = [] ++ List.replicate (m.length % r) 0 ++ List.replicate (200 - m.length % r) 0 := by
    rw [List.nil_append, List.replicate_append_replicate]; congr 1; omega
  simp only []
  rw [e, copy_at (a := []) (off := 0) hh rfl hrest.symm (by rw [List.length_replicate, hrest]), ok_bind, List.nil_append]
  have e3 : List.replicate (200 - m.length % r) (0 : Byte) =
      List.replicate (200 - (eager r (Fips202.block f) st m).2.length - (List.replicate (200 - r) (0 : Byte)).length) 0 ++ List.replicate (200 - r) 0 := by
    rw [List.replicate_append_replicate, List.length_replicate, hrest]; congr 1; omega
  have w := writePad (r := r) (l := m.length) dom (eager r (Fips202.block f) st m).2 (List.replicate (200 - r) 0) hrest h0 (by rw [List.length_replicate]; omega)
  rw [e3, ← List.append_assoc, ← hrest]
  simp only [bind, Except.bind] at w ⊢
  generalize wr _ (eager r (Fips202.block f) st m).2.length dom = x at w ⊢
  cases x with
  | error e => cases w
  | ok x =>
    simp only [] at w ⊢
    generalize rd x (r - 1) = y at w ⊢
    cases y with
    | error e => cases w
    | ok y =>
      simp only [] at w ⊢
      rw [w]
      simp only []
      have := fastAbsorb_eq (inp := (eager r (Fips202.block f) st m).2 ++ Fips202.pad r dom m.length ++ List.replicate (200 - r) 0)
        (b := (eager r (Fips202.block f) st m).2 ++ Fips202.pad r dom m.length) (io := 0) (n := r) (st := (eager r (Fips202.block f) st m).1)
        ⟨[], List.replicate (200 - r) 0, by simp, rfl⟩ (lastBlock_length h0 dom st m).symm (eager_length p hr _ _ h) (by rw [lastBlock_length h0]; omega)
      rw [fastAbsorb] at this
      rw [this, lastBlock_length h0]
      rfl

end Cex.Keccak
